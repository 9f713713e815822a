import Verif.Br.BookLemmas
import Verif.Br.WishLemmas
import Verif.Br.PropsFail
/-! # C114: the controller acts on exactly the BR/EDR connections its host was told of -/
namespace Verif.Br
open Verif.Conn (Table keys find erase)

/-- Data goes to the device of the connection the host knows by the handle; if it knows none, nothing is sent. The credit comes back
in both cases. -/
theorem C114_send (addr : Nat) (i : Info) (n : Nat) (as : List (Nat × Act)) (hx : ∀ x ∈ as, Named x.2 ∧ Frank x.2)
    (s : Ctl) (l : List Seen) (h : run (Ctl.fresh addr i n) as = some (s, l)) (now k pb : Nat) (d : List UInt8) :
    step s now (.cmd (.acl k pb 0 d)) =
      .ok 0 s (match bookOf l k with | none => [] | some c => [(c.1, .acl pb 0 d)]) [.completed k 1] := by
  obtain ⟨_, hb⟩ := booked_run (fresh_inv addr i n) (booked_fresh addr i n) as hx s l h
  have h1 : bookIs s.acl k = bookOf l k := hb.book k
  rw [← h1]
  unfold bookIs
  simp only [step, command, sendAcl]
  rw [if_neg (fun hn => hn rfl)]
  cases find s.acl k <;> rfl

/-- Data of a device reaches the host under the handle of the one connection with the device the host knows; data of any other device
reaches it not at all. -/
theorem C114_receive (addr : Nat) (i : Info) (n : Nat) (as : List (Nat × Act)) (hx : ∀ x ∈ as, Named x.2 ∧ Frank x.2)
    (s : Ctl) (l : List Seen) (h : run (Ctl.fresh addr i n) as = some (s, l)) (now src dst rssi pb bc : Nat) (d : List UInt8)
    (hd : dst = 0 ∨ dst = addr) :
    (∀ k r, bookOf l k = some (src, r) → ∃ s', step s now (.packet src dst rssi (.acl pb bc d)) =
      .ok 0 s' [] [.acl k (if pb = 0 then 2 else pb) bc d]) ∧
    ((∀ k r, bookOf l k ≠ some (src, r)) → ∃ s', step s now (.packet src dst rssi (.acl pb bc d)) = .ok 0 s' [] []) := by
  obtain ⟨hi, hb⟩ := booked_run (fresh_inv addr i n) (booked_fresh addr i n) as hx s l h
  have ha : s.addr = addr := (tied_run as (fresh_inv addr i n) (tied_fresh false addr i n) (fun x h => (hx x h).1) nofun h).2.2
  have hb' : Booked (touch s now src) (bookOf l) := booked_touch hi hb now src
  have hi' := (touch_inv hi now src).1
  simp only [step, incoming]
  rw [if_neg (by rw [ha]; omega)]
  simp only [dispatch, onAcl]
  refine ⟨fun k r hk => ?_, fun hn => ?_⟩
  · obtain ⟨c, hc, _⟩ := (booked_aclOf hi' hb').1 hk
    rw [hc]
    exact ⟨_, rfl⟩
  · cases hc : aclOf (touch s now src) src with
    | none => exact ⟨_, rfl⟩
    | some e => exact absurd ((booked_aclOf hi' hb').2 hc) (hn _ _)

/-- Requests to a device (features, extended features, version) are sent if the host knows the connection and refused with 0x02
(unknown connection) otherwise. -/
theorem C114_ask (addr : Nat) (i : Info) (n : Nat) (as : List (Nat × Act)) (hx : ∀ x ∈ as, Named x.2 ∧ Frank x.2)
    (s : Ctl) (l : List Seen) (h : run (Ctl.fresh addr i n) as = some (s, l)) (now k : Nat) :
    (∀ a r, bookOf l k = some (a, r) → step s now (.cmd (.features k)) = .ok 0 s [(a, .featuresReq)] [] ∧
      step s now (.cmd (.version k)) = .ok 0 s [(a, .versionReq)] [] ∧
      ∀ p, step s now (.cmd (.ext k p)) = .ok 0 s [(a, .extReq p)] []) ∧
    (bookOf l k = none → step s now (.cmd (.features k)) = .ok 0x02 s [] [] ∧
      step s now (.cmd (.version k)) = .ok 0x02 s [] [] ∧ ∀ p, step s now (.cmd (.ext k p)) = .ok 0x02 s [] []) := by
  obtain ⟨_, hb⟩ := booked_run (fresh_inv addr i n) (booked_fresh addr i n) as hx s l h
  have h1 : bookIs s.acl k = bookOf l k := hb.book k
  rw [← h1]
  unfold bookIs
  simp only [step, command, ask]
  cases find s.acl k with
  | none => exact ⟨fun _ _ hk => by (cases hk), fun _ => ⟨rfl, rfl, fun _ => rfl⟩⟩
  | some c => exact ⟨fun _ _ hk => by (cases hk; exact ⟨rfl, rfl, fun _ => rfl⟩), fun hk => by (cases hk)⟩

/-- Switch Role is refused with 0x02 unless the host knows a connection with the device. If it does, and no synchronous connection
is in the way, the device is asked exactly if the host wants another role than the one it knows; otherwise it is told that nothing
is to be switched (0x35). -/
theorem C114_role (addr : Nat) (i : Info) (n : Nat) (as : List (Nat × Act)) (hx : ∀ x ∈ as, Named x.2 ∧ Frank x.2)
    (s : Ctl) (l : List Seen) (h : run (Ctl.fresh addr i n) as = some (s, l)) (now a : Nat) (q : Role) :
    (∀ k r, bookOf l k = some (a, r) → syncs s a = 0 → step s now (.cmd (.switchRole a q)) =
      if q = r then .ok 0 s [] [.roleChange 0x35 a q] else .ok 0 s [(a, .roleReq)] []) ∧
    ((∀ k r, bookOf l k ≠ some (a, r)) → step s now (.cmd (.switchRole a q)) = .ok 0x02 s [] []) := by
  obtain ⟨hi, hb⟩ := booked_run (fresh_inv addr i n) (booked_fresh addr i n) as hx s l h
  simp only [step, command, switchRole]
  refine ⟨fun k r hk hs => ?_, fun hn => ?_⟩
  · obtain ⟨c, hc, hr⟩ := (booked_aclOf hi hb).1 hk
    rw [hc]
    have hs' : (scoOf s.sco a).isSome = false := by
      cases hsc : (scoOf s.sco a).isSome with
      | false => rfl
      | true => have := syncs_pos.2 hsc; omega
    simp only [hs', Bool.false_eq_true, if_false, hr]
    by_cases hq : q = r
    · rw [if_neg (fun hn => hn hq), if_pos hq, tell_role hb.roleHeard]; rfl
    · rw [if_pos hq, if_neg hq]; rfl
  · cases hc : aclOf s a with
    | none => rfl
    | some e => exact absurd ((booked_aclOf hi hb).2 hc) (hn _ _)

/-- Disconnect on a connection the host knows tells the device, with the reason of the host, and then the host, after the same for a
synchronous connection that hangs on it. (With two of those the controller aborts, see C65.) On a handle the host does not know,
if it is not that of a synchronous connection, it is refused with 0x02. -/
theorem C114_disconnect (addr : Nat) (i : Info) (n : Nat) (as : List (Nat × Act)) (hx : ∀ x ∈ as, Named x.2 ∧ Frank x.2)
    (s : Ctl) (l : List Seen) (h : run (Ctl.fresh addr i n) as = some (s, l)) (now k r : Nat) :
    (∀ a q, bookOf l k = some (a, q) → syncs s a ≤ 1 → ∃ s' out ev,
      step s now (.cmd (.disconnect k r)) = .ok 0 s' (out ++ [(a, .disconnect r)]) (ev ++ [.disconnComplete k 0x16]) ∧
      out.length = syncs s a ∧ (∀ p ∈ out, p = (a, .scoDisc r)) ∧ ev.length = syncs s a ∧
      ∀ e ∈ ev, ∃ v, 256 ≤ v ∧ e = .disconnComplete v 0x16) ∧
    (bookOf l k = none → isSync s k = false → step s now (.cmd (.disconnect k r)) = .ok 0x02 s [] []) := by
  obtain ⟨hi, hb⟩ := booked_run (fresh_inv addr i n) (booked_fresh addr i n) as hx s l h
  have h1 : bookIs s.acl k = bookOf l k := hb.book k
  rw [← h1]
  unfold bookIs
  simp only [step, command, disconnect]
  refine ⟨fun a q hk hs => ?_, fun hk hs => ?_⟩
  · rw [Option.map_eq_some_iff] at hk
    obtain ⟨c, hc, he⟩ := hk
    cases he
    have hm := Conn.find_mem _ _ _ hc
    have h2 : find s.sco k = none := by
      rw [Conn.find_none_iff]
      intro hin
      have h3 := (hi.ssound.range k hin).1
      have h4 := (hi.sound.range k (mem_keys hm)).2
      omega
    rw [h2, hc]
    simp only
    cases hsc : scoOf s.sco c.addr with
    | none =>
      have hz : syncs s c.addr = 0 := by
        have := mt syncs_pos.1 (by rw [hsc]; exact nofun)
        omega
      rcases endAcl_cases hi hm with ⟨h5, -⟩ | ⟨-, s', h5, -⟩
      · omega
      · simp only [h5]
        rw [tell_disc hb.discHeard]
        exact ⟨s', [], [], rfl, hz.symm, nofun, hz.symm, nofun⟩
    | some e =>
      obtain ⟨v, d⟩ := e
      obtain ⟨m1, m2⟩ := scoOf_some hsc
      have hone : syncs s c.addr = 1 := by
        have := syncs_pos.2 (by rw [hsc]; rfl : (scoOf s.sco c.addr).isSome = true)
        omega
      have hi2 := hi.eraseSco v
      have hz : syncs { s with sco := erase s.sco v } c.addr = 0 := by
        have := syncs_erase hi hsc
        omega
      rcases endAcl_cases hi2 (h := k) (c := c) hm with ⟨h5, -⟩ | ⟨-, s', h5, -⟩
      · omega
      · simp only [h5]
        rw [tell_disc hb.discHeard, tell_disc hb.discHeard]
        refine ⟨s', [(c.addr, .scoDisc r)], [.disconnComplete v 0x16], rfl, hone.symm, ?_, hone.symm, ?_⟩
        · intro p hp; exact List.mem_singleton.1 hp
        · intro p hp; exact ⟨v, (hi.ssound.range v (mem_keys m1)).1, List.mem_singleton.1 hp⟩
  · rw [Option.map_eq_none_iff] at hk
    have h2 : find s.sco k = none := by
      cases h3 : find s.sco k with
      | none => rfl
      | some d => rw [isSync_find.2 (by rw [h3]; rfl)] at hs; cases hs
    rw [h2, hk]
    rfl

/-- Reset tells every device of a connection the host knows, with the reason 0x13 (remote user terminated), and no other, that its
connection is gone. -/
theorem C114_reset (addr : Nat) (i : Info) (n : Nat) (as : List (Nat × Act)) (hx : ∀ x ∈ as, Named x.2 ∧ Frank x.2)
    (s : Ctl) (l : List Seen) (h : run (Ctl.fresh addr i n) as = some (s, l)) (now : Nat) :
    ∃ s' out, step s now (.cmd .reset) = .ok 0 s' out [] ∧
      ∀ a r, (a, .disconnect r) ∈ out ↔ r = 0x13 ∧ ∃ k q, bookOf l k = some (a, q) := by
  obtain ⟨hi, hb⟩ := booked_run (fresh_inv addr i n) (booked_fresh addr i n) as hx s l h
  refine ⟨_, _, rfl, fun a r => ?_⟩
  rw [List.mem_append]
  constructor
  · rintro (hm | hm)
    · obtain ⟨e, _, he⟩ := List.mem_map.1 hm
      cases he
    · obtain ⟨e, he, h1⟩ := List.mem_map.1 hm
      cases h1
      refine ⟨rfl, e.1, e.2.role, ?_⟩
      have h2 : bookIs s.acl e.1 = bookOf l e.1 := hb.book e.1
      rw [← h2]
      unfold bookIs
      rw [Conn.mem_find _ hi.sound.nodup e.1 e.2 he]
      rfl
  · rintro ⟨rfl, k, q, hk⟩
    obtain ⟨c, hc, _⟩ := (booked_aclOf hi hb).1 hk
    obtain ⟨m1, m2⟩ := aclOf_some hc
    exact .inr (List.mem_map.2 ⟨(k, c), m1, by rw [m2]; rfl⟩)

/-- The host cannot ask for a second connection with a device: the command is refused with 0x0b (connection already exists), or
with 0x0c (command disallowed) while it waits for another device; nothing changes. -/
theorem C114_create (addr : Nat) (i : Info) (n : Nat) (as : List (Nat × Act)) (hx : ∀ x ∈ as, Named x.2 ∧ Frank x.2)
    (s : Ctl) (l : List Seen) (h : run (Ctl.fresh addr i n) as = some (s, l)) (now k a : Nat) (r : Role) (w : Bool)
    (hk : bookOf l k = some (a, r)) :
    step s now (.cmd (.create a w)) = .ok 0x0b s [] [] ∨ step s now (.cmd (.create a w)) = .ok 0x0c s [] [] := by
  obtain ⟨hi, hb⟩ := booked_run (fresh_inv addr i n) (booked_fresh addr i n) as hx s l h
  obtain ⟨c, hc, _⟩ := (booked_aclOf hi hb).1 hk
  simp only [step, command, createConnection]
  by_cases hp : s.page.isSome = true
  · rw [if_pos hp]; exact .inr rfl
  · rw [if_neg hp, if_pos (by rw [hc]; rfl)]; exact .inl rfl

/-- The host knows at most one connection with a device, at most seven in all, and their handles are at most 255. -/
theorem C114_book (addr : Nat) (i : Info) (n : Nat) (as : List (Nat × Act)) (hx : ∀ x ∈ as, Named x.2 ∧ Frank x.2)
    (s : Ctl) (l : List Seen) (h : run (Ctl.fresh addr i n) as = some (s, l)) :
    (∀ k k' a r r', bookOf l k = some (a, r) → bookOf l k' = some (a, r') → k = k') ∧
    (∃ t : List Nat, t.length ≤ 7 ∧ ∀ k, k ∈ t ↔ bookOf l k ≠ none) ∧
    ∀ k, bookOf l k ≠ none → k ≤ 255 := by
  obtain ⟨hi, hb⟩ := booked_run (fresh_inv addr i n) (booked_fresh addr i n) as hx s l h
  have hmem : ∀ k, k ∈ keys s.acl ↔ bookOf l k ≠ none := by
    intro k
    have h1 : bookIs s.acl k = bookOf l k := hb.book k
    rw [← h1]
    unfold bookIs
    rw [ne_eq, Option.map_eq_none_iff, Conn.find_none_iff, Classical.not_not]
  refine ⟨fun k k' a r r' hk hk' => ?_, ⟨keys s.acl, ?_, hmem⟩, fun k hk => (hi.sound.range k ((hmem k).2 hk)).2⟩
  · obtain ⟨c, hc, _⟩ := (booked_aclOf hi hb).1 hk
    obtain ⟨c', hc', _⟩ := (booked_aclOf hi hb).1 hk'
    rw [hc] at hc'
    cases hc'
    rfl
  · unfold keys
    rw [List.length_map]
    exact hi.few

/-- Whatever happens, the host is told of a new connection only with a handle and a device it does not know, and of the end of a
connection only if it knows it or the handle is one of a synchronous connection (256 and above). -/
theorem C114_told (addr : Nat) (i : Info) (n : Nat) (as : List (Nat × Act)) (hx : ∀ x ∈ as, Named x.2 ∧ Frank x.2)
    (s s' : Ctl) (l : List Seen) (h : run (Ctl.fresh addr i n) as = some (s, l)) (now st : Nat) (x : Act) (hf : Frank x)
    (out : List (Nat × Pkt)) (ev : List Ev) (hs : step s now x = .ok st s' out ev) :
    (∀ k a, .connComplete 0 k a .acl ∈ ev → bookOf l k = none ∧ k ≤ 255 ∧ ∀ j r, bookOf l j ≠ some (a, r)) ∧
    ∀ k r, .disconnComplete k r ∈ ev → bookOf l k ≠ none ∨ 256 ≤ k := by
  obtain ⟨hi, hb⟩ := booked_run (fresh_inv addr i n) (booked_fresh addr i n) as hx s l h
  exact (booked_step hi hb hf hs).2

/-- The device that is paged: a page, accepted, becomes a connection the host knows, in the role of the peripheral; data goes both
ways; and then the peer ends it and the book is empty again. -/
example : ((run exampleA [(0, .cmd (.writeScanEnable false true)), (1, .packet 0xB 0xA 0 (.page 0 false)), (2, .cmd (.accept 0xB false))]).map
      (fun r => (bookOf r.2 0, bookOf r.2 1))) = some (some (0xB, .peripheral), none) ∧
    ((run exampleA [(0, .cmd (.writeScanEnable false true)), (1, .packet 0xB 0xA 0 (.page 0 false)), (2, .cmd (.accept 0xB false)),
      (3, .cmd (.acl 0 2 0 [7])), (4, .packet 0xB 0xA 0 (.acl 2 0 [8]))]).map
      (fun r => ((r.2.drop 3).map Seen.out, (r.2.drop 3).map Seen.ev))) =
      some ([[(0xB, .acl 2 0 [7])], []], [[.completed 0 1], [.acl 0 2 0 [8]]]) ∧
    ((run exampleA [(0, .cmd (.writeScanEnable false true)), (1, .packet 0xB 0xA 0 (.page 0 false)), (2, .cmd (.accept 0xB false)),
      (3, .packet 0xB 0xA 0 (.disconnect 0x13))]).map (fun r => (bookOf r.2 0, bookOf r.2 1))) = some (none, none) := by decide +kernel

/-- With a role switch: the acceptor becomes the central. -/
example : ((run exampleA [(0, .cmd (.writeScanEnable false true)), (1, .packet 0xB 0xA 0 (.page 0 true)), (2, .cmd (.accept 0xB true))]).map
      (fun r => bookOf r.2 0)) = some (some (0xB, .central)) ∧
    ((run exampleA (connectB ++ [(2000000000, .cmd (.writePolicy 0 1)), (2000000001, .packet 0xB 0xA 0 .roleReq)])).map
      (fun r => bookOf r.2 0)) = some (some (0xB, .peripheral)) ∧
    ((run exampleA connectB).map (fun r => bookOf r.2 0)) = some (some (0xB, .central)) := by decide +kernel

end Verif.Br
