import Verif.Both.Spec
import Verif.Br.PropsBook
import Verif.Ll.PropsLinks

/-!
# C125: a handle reaches its connection

**C125.** On a device with a BR/EDR and an LE controller, whatever connections the two have made and lost, the host's table
has at most one connection under a handle. HCI Disconnect with a handle of the table ends that connection and no other: the
other end is told, the command's status is success, and then Disconnection Complete is sent once for the handle. With a handle
that is in no table the status is Unknown Connection Identifier and nothing is done. Data on a handle goes to the other end of
the connection in the table and nowhere else; the credit always comes back.

Not so: Disconnection Complete comes before the status (`C125_order_violated`), and the process ends when the BR/EDR connection
has two synchronous ones (see C114). The synchronous connections are not in this table (see C117), and those of isochronous
streams are not handled by the two controllers.
-/
namespace Verif.Both

theorem run_br {ah : Ll.Hash} {cfg : Le.Config} : ∀ {as : List Act} {d d' : Dev} {seen : List Br.Seen} {obs : List Ll.Obs},
    run ah cfg as d = some (d', seen, obs) → Br.run d.br (brActs as) = some (d'.br, seen)
  | [], d, d', seen, obs, h => by cases h; rfl
  | .br now a :: as, d, d', seen, obs, h => by
    simp only [run] at h
    split at h
    · rename_i st s out ev hs
      obtain ⟨⟨x, y, z⟩, hx, he⟩ := Option.map_eq_some_iff.1 h
      cases he
      simp only [brActs, Br.run, hs, run_br hx, Option.map_some]
    · cases h
  | .le o :: as, d, d', seen, obs, h => by
    simp only [run] at h
    split at h
    · obtain ⟨⟨x, y, z⟩, hx, he⟩ := Option.map_eq_some_iff.1 h
      cases he
      have := run_br hx
      exact this
    · cases h

theorem run_le {ah : Ll.Hash} {cfg : Le.Config} : ∀ {as : List Act} {d d' : Dev} {seen : List Br.Seen} {obs : List Ll.Obs} (l : Ll.Links),
    run ah cfg as d = some (d', seen, obs) → Ll.runLinks ah cfg (leOps as) d.le l = .ok (d'.le, linksAfter l (leOps as) obs)
  | [], d, d', seen, obs, l, h => by cases h; rfl
  | .br now a :: as, d, d', seen, obs, l, h => by
    simp only [run] at h
    split at h
    · obtain ⟨⟨x, y, z⟩, hx, he⟩ := Option.map_eq_some_iff.1 h
      cases he
      have := run_le l hx
      exact this
    · cases h
  | .le o :: as, d, d', seen, obs, l, h => by
    simp only [run] at h
    split at h
    · rename_i x hs
      obtain ⟨⟨x', y, z⟩, hx, he⟩ := Option.map_eq_some_iff.1 h
      cases he
      simp only [leOps, Ll.runLinks, hs, Ll.Res.bind, linksAfter, run_le _ hx]
    · cases h

/-- The LE list has handles of the LE range only. -/
theorem links_range {ah : Ll.Hash} {cfg : Le.Config} {a : Option Le.Address} {ops : List Ll.Op} {s : Ll.State} {l : Ll.Links}
    (h : Ll.runLinks ah cfg ops (Ll.initial a) Ll.Links.none = .ok (s, l)) {k : Nat} {c : Ll.LeConn} (hk : l k = some c) :
    0x200 ≤ k ∧ k ≤ 0x2ff := by
  have hK := Ll.listing_run (Ll.listing_initial a) h k
  have hs : Ll.Reachable ah cfg s := by
    obtain ⟨obs, ho⟩ := Ll.runLinks_reachable h
    exact ⟨a, ops, obs, ho⟩
  rw [hk] at hK
  exact (Ll.C37_handles_unique hs).2 _ (Conn.find_mem _ _ _ hK)

section
variable {ah : Ll.Hash} {cfg : Le.Config} {addr n : Nat} {i : Br.Info} {a : Option Le.Address} {as : List Act} {d : Dev}
  {seen : List Br.Seen} {obs : List Ll.Obs}

/-- There is at most one connection under a handle; the handles of the two kinds are apart. -/
theorem C125_one (h : run ah cfg as (Dev.fresh addr i n a) = some (d, seen, obs)) (hf : Followed as) (k : Nat) :
    (entries seen (linksAfter Ll.Links.none (leOps as) obs) k).length ≤ 1 ∧
    (∀ p r, .br p r ∈ entries seen (linksAfter Ll.Links.none (leOps as) obs) k → k ≤ 0xff) ∧
    (∀ c, .le c ∈ entries seen (linksAfter Ll.Links.none (leOps as) obs) k → 0x200 ≤ k ∧ k ≤ 0x2ff) := by
  have hb := (Br.C114_book addr i n _ hf _ _ (run_br h)).2.2 k
  have hl := fun c => links_range (k := k) (c := c) (run_le Ll.Links.none h)
  unfold entries
  cases h1 : Br.bookOf seen k with
  | none =>
    cases h2 : linksAfter Ll.Links.none (leOps as) obs k with
    | none => simp
    | some c =>
      have := hl c h2
      simp [this]
  | some x =>
    have h3 := hb (by rw [h1]; simp)
    cases h2 : linksAfter Ll.Links.none (leOps as) obs k with
    | none => simpa using h3
    | some c =>
      have := hl c h2
      omega

/-- Disconnect of an LE connection of the table: the other end is told, the connection ends, the status is success. Nothing
happens to the other controller. -/
theorem C125_disconnect_le (h : run ah cfg as (Dev.fresh addr i n a) = some (d, seen, obs)) {k : Nat} {c : Ll.LeConn}
    (hk : linksAfter Ll.Links.none (leOps as) obs k = some c) (r : Nat) :
    ∃ t, disconnect d k r = some (⟨d.br, t⟩, [.le (.send (.link c.own.address c.address.address (.disconnect r))),
        .le (.disconnected k 0x16), .status 0x00]) ∧
      Ll.step ah cfg d.le (.disconnect k r 0x16) = .ok (t, ⟨none,
        [.send (.link c.own.address c.address.address (.disconnect r)), .disconnected k 0x16]⟩) := by
  have hr := links_range (run_le Ll.Links.none h) hk
  obtain ⟨t, ht⟩ := Ll.C113_disconnect (run_le Ll.Links.none h) k r 0x16
  have hK := Ll.listing_run (Ll.listing_initial a) (run_le Ll.Links.none h) k
  rw [hk] at hK ht
  have ht' := ht
  simp only [Ll.step, Ll.disconnect, hK] at ht
  have e1 : isCis k = false := by simp [isCis]; omega
  have e2 : isAcl k = false := by simp [isAcl]; omega
  have e3 : isSco k = false := by simp [isSco]; omega
  have e4 : isLeAcl k = true := by simp [isLeAcl]; omega
  refine ⟨t, ?_, ht'⟩
  simp only [disconnect, e1, e2, e3, e4, Bool.or_false, Bool.false_eq_true, if_false, if_true, Ll.disconnect, hK]
  cases hrm : Ll.removeConnection d.le k with
  | none => rw [hrm] at ht; simp [Ll.Res.bind] at ht
  | some t' =>
    rw [hrm] at ht
    simp only [Ll.Res.bind, Ll.Res.ok.injEq, Prod.mk.injEq, and_true] at ht
    subst ht
    rfl

/-- Disconnect of a BR/EDR connection of the table that has at most one synchronous connection: this is ended first; the other
end is told, the connection ends, the status is success. Nothing happens to the other controller. -/
theorem C125_disconnect_br_partial (h : run ah cfg as (Dev.fresh addr i n a) = some (d, seen, obs)) (hf : Followed as) {k p : Nat}
    {q : Br.Role} (hk : Br.bookOf seen k = some (p, q)) (hs : Br.syncs d.br p ≤ 1) (r now : Nat) :
    ∃ s out ev, disconnect d k r = some (⟨s, d.le⟩, sentBr (out ++ [(p, .disconnect r)]) (ev ++ [.disconnComplete k 0x16]) ++ [.status 0x00]) ∧
      Br.step d.br now (.cmd (.disconnect k r)) = .ok 0 s (out ++ [(p, .disconnect r)]) (ev ++ [.disconnComplete k 0x16]) ∧
      (∀ x ∈ out, x = (p, .scoDisc r)) ∧ ∀ e ∈ ev, ∃ v, 256 ≤ v ∧ e = .disconnComplete v 0x16 := by
  have hb := (Br.C114_book addr i n _ hf _ _ (run_br h)).2.2 k (by rw [hk]; simp)
  obtain ⟨s, out, ev, h1, _, h3, _, h5⟩ := (Br.C114_disconnect addr i n _ hf _ _ (run_br h) now k r).1 p q hk hs
  refine ⟨s, out, ev, ?_, h1, h3, h5⟩
  have h1' : Br.disconnect d.br k r 0x16 = .ok 0 s (out ++ [(p, .disconnect r)]) (ev ++ [.disconnComplete k 0x16]) := h1
  have e1 : isCis k = false := by simp [isCis]; omega
  have e2 : isAcl k = true := by simp [isAcl]; omega
  simp only [disconnect, e1, e2, Bool.true_or, Bool.false_eq_true, if_false, if_true, h1']

/-- Disconnect of a handle that is not in the table, nor that of a synchronous connection or of a stream: refused. -/
theorem C125_unknown (h : run ah cfg as (Dev.fresh addr i n a) = some (d, seen, obs)) (hf : Followed as) {k : Nat}
    (hk : entries seen (linksAfter Ll.Links.none (leOps as) obs) k = []) (hs : Br.isSync d.br k = false)
    (hc : ¬ (0xe00 ≤ k ∧ k ≤ 0xeff)) (r : Nat) : disconnect d k r = some (d, [.status 0x02]) := by
  obtain ⟨hb, hl⟩ : Br.bookOf seen k = none ∧ linksAfter Ll.Links.none (leOps as) obs k = none := by
    unfold entries at hk
    cases h1 : Br.bookOf seen k <;> cases h2 : linksAfter Ll.Links.none (leOps as) obs k <;> simp_all
  have h1 := (Br.C114_disconnect addr i n _ hf _ _ (run_br h) 0 k r).2 hb hs
  have h1' : Br.disconnect d.br k r 0x16 = .ok 2 d.br [] [] := h1
  have hK := Ll.listing_run (Ll.listing_initial a) (run_le Ll.Links.none h) k
  rw [hl] at hK
  have e1 : isCis k = false := by simp only [isCis, decide_eq_false_iff_not]; exact hc
  simp only [disconnect, e1, Bool.false_eq_true, if_false, h1', Ll.disconnect, hK]
  split
  · rfl
  split
  · rfl
  · rfl

/-- Data on a handle goes to the other end of its connection in the table, and nowhere else; the credit comes back. -/
theorem C125_data (h : run ah cfg as (Dev.fresh addr i n a) = some (d, seen, obs)) (hf : Followed as) (k pb : Nat) (x : List UInt8) :
    (∀ p q, Br.bookOf seen k = some (p, q) → handleAcl d k pb 0 x = some (d, [.packet p (.acl pb 0 x), .event (.completed k 1)])) ∧
    (∀ c, linksAfter Ll.Links.none (leOps as) obs k = some c →
      handleAcl d k pb 0 x = some (d, [.le (.send (.link c.own.address c.address.address (.acl pb 0 x))), .le (.completedPackets k)])) ∧
    (entries seen (linksAfter Ll.Links.none (leOps as) obs) k = [] → ∃ credit, handleAcl d k pb 0 x = some (d, [credit]) ∧
      (credit = .event (.completed k 1) ∨ credit = .le (.completedPackets k) ∨ credit = .credit k)) := by
  have h1 := Br.C114_send addr i n _ hf _ _ (run_br h) 0 k pb x
  have h1' : Br.sendAcl d.br k pb 0 x =
      .ok 0 d.br (match Br.bookOf seen k with | none => [] | some c => [(c.1, .acl pb 0 x)]) [.completed k 1] := h1
  have hK := Ll.listing_run (Ll.listing_initial a) (run_le Ll.Links.none h) k
  refine ⟨fun p q hk => ?_, fun c hk => ?_, fun hk => ?_⟩
  · have hb := (Br.C114_book addr i n _ hf _ _ (run_br h)).2.2 k (by rw [hk]; simp)
    have e2 : isAcl k = true := by simp [isAcl]; omega
    rw [hk] at h1'
    simp only [handleAcl, e2, if_true, h1', sentBr]
    rfl
  · have hr := links_range (run_le Ll.Links.none h) hk
    have e2 : isAcl k = false := by simp [isAcl]; omega
    have e4 : isLeAcl k = true := by simp [isLeAcl]; omega
    rw [hk] at hK
    simp only [handleAcl, e2, e4, Bool.false_eq_true, if_false, if_true, Ll.handleAcl, ne_eq, not_true_eq_false, hK]
    rfl
  · obtain ⟨hb, hl⟩ : Br.bookOf seen k = none ∧ linksAfter Ll.Links.none (leOps as) obs k = none := by
      unfold entries at hk
      cases h1 : Br.bookOf seen k <;> cases h2 : linksAfter Ll.Links.none (leOps as) obs k <;> simp_all
    rw [hb] at h1'
    rw [hl] at hK
    simp only [handleAcl, h1', Ll.handleAcl, ne_eq, not_true_eq_false, if_false, hK]
    split
    · exact ⟨_, rfl, .inl rfl⟩
    split
    · exact ⟨_, rfl, .inr (.inl rfl)⟩
    · exact ⟨_, rfl, .inr (.inr rfl)⟩

/-- Whatever Disconnect does is a step of one of the controllers, or nothing: the theorems above hold of histories with this
command too. -/
theorem C125_step {d d' : Dev} {k r : Nat} {sent : List Sent} (h : disconnect d k r = some (d', sent)) (now : Nat) :
    d' = d ∨ (∃ x, run ah cfg [.br now (.cmd (.disconnect k r))] d = some (d', x)) ∨
      ∃ x, run ah cfg [.le (.disconnect k r 0x16)] d = some (d', x) := by
  unfold disconnect at h
  split at h
  · cases h; exact .inl rfl
  split at h
  · split at h
    · rename_i st s out ev hs
      cases h
      refine .inr (.inl ⟨([⟨now, .cmd (.disconnect k r), st, out, ev⟩], []), ?_⟩)
      simp only [run, Br.step, Br.command, hs, Option.map_some]
    · cases h
  split at h
  · split at h
    · rename_i b s out hs
      cases h
      refine .inr (.inr ⟨([], [⟨none, out⟩]), ?_⟩)
      simp only [run, Ll.step, hs, Ll.Res.bind, Option.map_some]
    · cases h
  · cases h; exact .inl rfl

/-- The host is told of the end before it is told that the command was received: the status is always last. -/
theorem C125_order_violated (h : run ah cfg as (Dev.fresh addr i n a) = some (d, seen, obs)) {k : Nat} {c : Ll.LeConn}
    (hk : linksAfter Ll.Links.none (leOps as) obs k = some c) (r : Nat) :
    ∃ t sent, disconnect d k r = some (t, sent) ∧
      sent.filter Sent.told = [.le (.disconnected k 0x16), .status 0x00] := by
  obtain ⟨t, ht, _⟩ := C125_disconnect_le h hk r
  exact ⟨_, _, ht, rfl⟩

end

/-! ### Concrete cases -/

/-- A BR/EDR connection to the device 0xB and an LE connection. -/
def both : List Act := Br.connectB.map (fun x => .br x.1 x.2) ++ Ll.linked.map .le

/-- What is known under the handles 0, 1 and 0x200, and what the host is told of three disconnections. -/
example : ((run (fun _ _ => 0) Le.Config.default both ⟨Br.exampleA, Ll.initial none⟩).map fun x =>
      (Br.bookOf x.2.1 0, Br.bookOf x.2.1 1, linksAfter Ll.Links.none (leOps both) x.2.2 0x200)) =
      some (some (0xB, .central), none, some Ll.linkA) ∧
    ((run (fun _ _ => 0) Le.Config.default both ⟨Br.exampleA, Ll.initial none⟩).bind fun x =>
      (disconnect x.1 0 0x13).map fun y => y.2) = some [.packet 0xB (.disconnect 0x13), .event (.disconnComplete 0 0x16), .status 0] ∧
    ((run (fun _ _ => 0) Le.Config.default both ⟨Br.exampleA, Ll.initial none⟩).bind fun x =>
      (disconnect x.1 0x200 0x13).map fun y => y.2) =
      some [.le (.send (.link Ll.centralAddress.address Ll.advertiserA.address (.disconnect 0x13))), .le (.disconnected 0x200 0x16), .status 0] ∧
    ((run (fun _ _ => 0) Le.Config.default both ⟨Br.exampleA, Ll.initial none⟩).bind fun x =>
      (disconnect x.1 0x201 0x13).map fun y => y.2) = some [.status 2] := by
  decide +kernel

example : Followed both := by
  have none : ∀ l : List Ll.Op, brActs (l.map .le) = [] := by
    intro l
    induction l with
    | nil => rfl
    | cons o l ih => exact ih
  unfold Followed both
  simp [Br.connectB, brActs, none, Br.Named, Br.Frank]

end Verif.Both
