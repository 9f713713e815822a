import Verif.Br.CallsLemmas
import Verif.Br.PropsBook
/-! # C117: the controller carries voice on exactly the synchronous connections its host was told of

The full statement: data is sent on, and received from, the known synchronous connections and no others, and such a connection
ends for the controller exactly when its host is told. `C117_send_violated`, `C117_receive_violated` and `C117_refusal_violated`
show where it fails: a handle the host does not know yet works while the request is open, and a refusal of a device for which no
request is open ends an open connection silently. The last is excluded by `Fair`. -/
namespace Verif.Br
open Verif.Conn (Table keys find erase ScoState)
open Verif.Sco (ConnParams LinkParams)

theorem calls_run {addr : Nat} {i : Info} {n : Nat} {as : List (Nat × Act)} (hx : ∀ x ∈ as, Named x.2 ∧ Attentive x.2)
    {s : Ctl} {l : List Seen} (hg : Fair l) (h : run (Ctl.fresh addr i n) as = some (s, l)) : Inv s ∧ Called s (callsOf l) :=
  called_run (l0 := []) (fresh_inv addr i n) (called_fresh addr i n) as hx s l hg h

/-- Data goes to the device of the connection the host knows by the handle. If it knows none, the packet is refused with 0x02
(unknown connection), or the handle is that of a request that is open. Missing: the latter does happen. -/
theorem C117_send_partial (addr : Nat) (i : Info) (n : Nat) (as : List (Nat × Act)) (hx : ∀ x ∈ as, Named x.2 ∧ Attentive x.2)
    (s : Ctl) (l : List Seen) (hg : Fair l) (h : run (Ctl.fresh addr i n) as = some (s, l)) (now k : Nat) (d : List UInt8) :
    (∀ a, (callsOf l).known k = some a → step s now (.cmd (.sco k d)) = .ok 0 s [(a, .sco d)] []) ∧
    ((callsOf l).known k = none → step s now (.cmd (.sco k d)) = .ok 0x02 s [] [] ∨
      ∃ a, (callsOf l).asked a = true ∧ step s now (.cmd (.sco k d)) = .ok 0 s [(a, .sco d)] []) := by
  obtain ⟨hi, hb⟩ := calls_run hx hg h
  simp only [step, command, sendSco]
  refine ⟨fun a hk => ?_, fun hk => ?_⟩
  · obtain ⟨c, h1, h2, -⟩ := (hb.known k a).1 hk
    rw [Conn.mem_find _ hi.ssound.nodup k c h1, ← h2]
  · cases hf : find s.sco k with
    | none => exact .inl rfl
    | some c =>
      have hm := Conn.find_mem _ _ _ hf
      rw [known_of hi hb hm] at hk
      refine .inr ⟨c.addr, (hb.asked _).2 ⟨_, hm, rfl, fun ho => ?_⟩, rfl⟩
      have ho : c.state = .opened := ho
      rw [if_pos ho] at hk
      cases hk

/-- While no request with a device is open, its data reaches the host under the handle of a connection with the device the host
knows, and not at all if it knows none. Missing: while a request is open the data may come under the handle of the request. -/
theorem C117_receive_partial (addr : Nat) (i : Info) (n : Nat) (as : List (Nat × Act)) (hx : ∀ x ∈ as, Named x.2 ∧ Attentive x.2)
    (s : Ctl) (l : List Seen) (hg : Fair l) (h : run (Ctl.fresh addr i n) as = some (s, l)) (now src dst rssi : Nat) (d : List UInt8)
    (ha : (callsOf l).asked src = false) :
    ∃ s' ev, step s now (.packet src dst rssi (.sco d)) = .ok 0 s' [] ev ∧
      ((ev = [] ∧ (dst = 0 ∨ dst = s.addr → ¬ (callsOf l).with_ src)) ∨ ∃ k, ev = [.sco k d] ∧ (callsOf l).known k = some src) := by
  obtain ⟨hi, hb⟩ := calls_run hx hg h
  show ∃ s' ev, incoming s now src dst rssi (.sco d) = _ ∧ _
  unfold incoming
  split
  · rename_i hd
    refine ⟨s, [], rfl, .inl ⟨rfl, fun hd' => ?_⟩⟩
    rcases hd' with hd' | hd' <;> simp [hd'] at hd
  · have hb' := called_touch hb now src
    have hi' := (touch_inv hi now src).1
    show ∃ s' ev, onSco (touch s now src) src d = _ ∧ _
    unfold onSco
    cases hs : scoOf (touch s now src).sco src with
    | none =>
      refine ⟨_, [], rfl, .inl ⟨rfl, fun _ => ?_⟩⟩
      rintro ⟨k, hk⟩
      obtain ⟨c, h1, h2, -⟩ := (hb'.known k src).1 hk
      exact scoOf_none hs _ h1 h2
    | some e =>
      obtain ⟨k, c⟩ := e
      obtain ⟨h1, h2⟩ := scoOf_some hs
      refine ⟨_, _, rfl, .inr ⟨k, rfl, ?_⟩⟩
      refine (hb'.known k src).2 ⟨c, h1, h2, Classical.byContradiction fun ho => ?_⟩
      have := (hb'.asked src).2 ⟨_, h1, h2, ho⟩
      rw [ha] at this
      cases this

/-- The roles cannot be switched while there is voice, or a request for it, with the device: the command is refused with 0x0c (command
disallowed), or with 0x02 if there is no connection with the device at all; nothing changes. Otherwise it is never refused with
0x0c. -/
theorem C117_role (addr : Nat) (i : Info) (n : Nat) (as : List (Nat × Act)) (hx : ∀ x ∈ as, Named x.2 ∧ Attentive x.2)
    (s : Ctl) (l : List Seen) (hg : Fair l) (h : run (Ctl.fresh addr i n) as = some (s, l)) (now a : Nat) (r : Role) :
    ((callsOf l).asked a = true ∨ (callsOf l).with_ a →
      step s now (.cmd (.switchRole a r)) = .ok 0x0c s [] [] ∨ step s now (.cmd (.switchRole a r)) = .ok 0x02 s [] []) ∧
    ((callsOf l).asked a = false → ¬ (callsOf l).with_ a → ∀ s' out ev, step s now (.cmd (.switchRole a r)) ≠ .ok 0x0c s' out ev) := by
  obtain ⟨hi, hb⟩ := calls_run hx hg h
  have key : (scoOf s.sco a).isSome = true ↔ (callsOf l).asked a = true ∨ (callsOf l).with_ a := by
    constructor
    · intro hs
      obtain ⟨⟨k, c⟩, hs⟩ := Option.isSome_iff_exists.1 hs
      obtain ⟨h1, h2⟩ := scoOf_some hs
      by_cases ho : c.state = .opened
      · exact .inr ⟨k, (hb.known k a).2 ⟨c, h1, h2, ho⟩⟩
      · exact .inl ((hb.asked a).2 ⟨_, h1, h2, ho⟩)
    · intro hs
      cases hn : scoOf s.sco a with
      | some e => rfl
      | none =>
        rcases hs with hs | ⟨k, hk⟩
        · obtain ⟨e, h1, h2, -⟩ := (hb.asked a).1 hs
          exact absurd h2 (scoOf_none hn e h1)
        · obtain ⟨c, h1, h2, -⟩ := (hb.known k a).1 hk
          exact absurd h2 (scoOf_none hn _ h1)
  simp only [step, command, switchRole]
  refine ⟨fun hs => ?_, fun h1 h2 s' out ev => ?_⟩
  · split
    · exact .inr rfl
    · rw [if_pos (key.2 hs)]
      exact .inl rfl
  · have hn : ¬ (scoOf s.sco a).isSome = true := fun hs => by
      rcases key.1 hs with h3 | h3
      · rw [h1] at h3; cases h3
      · exact h2 h3
    split
    · intro he; cases he
    · rw [if_neg hn]
      split <;> intro he <;> cases he

/-- The host ends a connection it knows: the device is told, with the reason the host gave, and the host gets the event. A handle of
256 or more that it does not know is refused with 0x02, or it is the handle of an open request. -/
theorem C117_disconnect (addr : Nat) (i : Info) (n : Nat) (as : List (Nat × Act)) (hx : ∀ x ∈ as, Named x.2 ∧ Attentive x.2)
    (s : Ctl) (l : List Seen) (hg : Fair l) (h : run (Ctl.fresh addr i n) as = some (s, l)) (now k r : Nat) :
    (∀ a, (callsOf l).known k = some a → ∃ s', step s now (.cmd (.disconnect k r)) = .ok 0 s' [(a, .scoDisc r)] [.disconnComplete k 0x16]) ∧
    (256 ≤ k → (callsOf l).known k = none → step s now (.cmd (.disconnect k r)) = .ok 0x02 s [] [] ∨
      ∃ a, (callsOf l).asked a = true ∧ ∃ s', step s now (.cmd (.disconnect k r)) = .ok 0 s' [(a, .scoDisc r)] [.disconnComplete k 0x16]) := by
  obtain ⟨hi, hb⟩ := calls_run hx hg h
  simp only [step, command, disconnect]
  rw [tell_disc hb.discHeard]
  refine ⟨fun a hk => ?_, fun hr hk => ?_⟩
  · obtain ⟨c, h1, h2, -⟩ := (hb.known k a).1 hk
    rw [Conn.mem_find _ hi.ssound.nodup k c h1, ← h2]
    exact ⟨_, rfl⟩
  · cases hf : find s.sco k with
    | none =>
      cases ha : find s.acl k with
      | none => exact .inl rfl
      | some c =>
        have := (hi.sound.range k (mem_keys (Conn.find_mem _ _ _ ha))).2
        omega
    | some c =>
      have hm := Conn.find_mem _ _ _ hf
      rw [known_of hi hb hm] at hk
      refine .inr ⟨c.addr, (hb.asked _).2 ⟨_, hm, rfl, fun ho => ?_⟩, _, rfl⟩
      have ho : c.state = .opened := ho
      rw [if_pos ho] at hk
      cases hk

/-- One request at a time: over a connection with a device with which a request is open the command is refused with 0x0c; otherwise
the device is asked, unless the controller hangs for want of a handle (`C65_hang`). -/
theorem C117_setup (addr : Nat) (i : Info) (n : Nat) (as : List (Nat × Act)) (hx : ∀ x ∈ as, Named x.2 ∧ Attentive x.2 ∧ Frank x.2)
    (s : Ctl) (l : List Seen) (hg : Fair l) (h : run (Ctl.fresh addr i n) as = some (s, l)) (now k : Nat) (p : ConnParams) (sp : Bool) :
    step s now (.cmd (.setupSync k p sp)) = .hang ∨
    match bookOf l k with
    | none => step s now (.cmd (.setupSync k p sp)) = .ok 0x02 s [] []
    | some (a, _) =>
      if (callsOf l).asked a then step s now (.cmd (.setupSync k p sp)) = .ok 0x0c s [] []
      else ∃ s', step s now (.cmd (.setupSync k p sp)) = .ok 0 s' [(a, .scoReq p s.info.cod)] [] := by
  obtain ⟨hi, hb⟩ := calls_run (fun x hx' => ⟨(hx x hx').1, (hx x hx').2.1⟩) hg h
  obtain ⟨_, hb'⟩ := booked_run (fresh_inv addr i n) (booked_fresh addr i n) as (fun x hx' => ⟨(hx x hx').1, (hx x hx').2.2⟩) s l h
  have h1 : bookIs s.acl k = bookOf l k := hb'.book k
  rw [← h1]
  unfold bookIs
  simp only [step, command, setupSync]
  cases find s.acl k with
  | none => exact .inr rfl
  | some c =>
    simp only [Option.map_some, entry]
    rw [← pending_iff hb]
    by_cases hp : scoPending s c.addr = true
    · rw [if_pos hp, if_pos hp]
      exact .inr rfl
    · rw [if_neg hp, if_neg hp]
      split
      · exact .inl rfl
      · exact .inr ⟨_, rfl⟩

/-- The host answers a request with Accept or Reject Synchronous Connection only while one is open; otherwise it is refused with 0x0c.
If it works, the device gets the answer and the host one event about the device: that of a connection if and only if the answer is
0, success; a rejection is never a success. -/
theorem C117_answer (addr : Nat) (i : Info) (n : Nat) (as : List (Nat × Act)) (hx : ∀ x ∈ as, Named x.2 ∧ Attentive x.2)
    (s : Ctl) (l : List Seen) (hg : Fair l) (h : run (Ctl.fresh addr i n) as = some (s, l)) (now a r : Nat) (p : ConnParams) (c : Cmd)
    (hc : c = .acceptSync a p ∨ c = .rejectSync a r) :
    ((callsOf l).asked a = false → step s now (.cmd c) = .ok 0x0c s [] []) ∧
    ((callsOf l).asked a = true → ∀ st s' out ev, step s now (.cmd c) = .ok st s' out ev →
      st = 0 ∧ ∃ w k e, out = [(a, .scoRsp w k)] ∧ ev = [e] ∧ settles e = some a ∧ (begun e ≠ none ↔ w = 0) ∧ (c = .rejectSync a r → w ≠ 0)) := by
  obtain ⟨hi, hb⟩ := calls_run hx hg h
  rw [← pending_iff hb]
  rcases hc with rfl | rfl
  · simp only [step, command, acceptSync]
    refine ⟨fun hp => by rw [if_neg (by rw [hp]; exact nofun)]; rfl, fun hp st s' out ev hs => ?_⟩
    rw [if_pos hp] at hs
    split at hs
    · cases hs
    · rename_i u w k q ha
      cases hs
      obtain ⟨e1, e2, -, -⟩ := syncEvent_begun w k a q
      refine ⟨rfl, w, q, _, rfl, rfl, e2, ?_, nofun⟩
      rw [e1]
      by_cases hw : w = 0 <;> simp [hw]
  · simp only [step, command, rejectSync]
    refine ⟨fun hp => by rw [if_neg (by rw [hp]; exact nofun)]; rfl, fun hp st s' out ev hs => ?_⟩
    rw [if_pos hp] at hs
    have hne : rejectReason r ≠ 0 := by
      unfold rejectReason
      split
      · decide
      · assumption
    split at hs
    · cases hs
    · cases hs
      refine ⟨rfl, rejectReason r, _, _, rfl, rfl, rfl, ?_, fun _ => hne⟩
      show (if rejectReason r = 0 then some (0, a) else none) ≠ none ↔ _
      rw [if_neg hne]
      exact ⟨fun h => absurd rfl h, fun h => absurd h hne⟩

/-- Whatever happens, a connection the host is told of has a handle from 256 to 511 and is one it asked for or was asked for, unless it
already knows it; and it is told of the end only of a connection it knows, of a request or of a connection that does not carry
voice. -/
theorem C117_told (addr : Nat) (i : Info) (n : Nat) (as : List (Nat × Act)) (hx : ∀ x ∈ as, Named x.2 ∧ Attentive x.2)
    (s s' : Ctl) (l : List Seen) (hg : Fair l) (h : run (Ctl.fresh addr i n) as = some (s, l)) (now st : Nat) (x : Act) (hf : Attentive x)
    (hf' : FairStep (callsOf l) x) (out : List (Nat × Pkt)) (ev : List Ev) (hs : step s now x = .ok st s' out ev) :
    (∀ e ∈ ev, ∀ k a, begun e = some (k, a) →
      256 ≤ k ∧ k ≤ 511 ∧ ((callsOf l).known k = some a ∨ ((callsOf l).known k = none ∧ (callsOf l).asked a = true))) ∧
    ∀ k r, .disconnComplete k r ∈ ev → k ≤ 255 ∨ (callsOf l).known k ≠ none ∨ ∃ a, (callsOf l).asked a = true := by
  obtain ⟨hi, hb⟩ := calls_run hx hg h
  exact (called_step hi hb hf hf' hs).2

/-! ## Examples -/

/-- A request of the host, opened by the device's answer; voice goes both ways. -/
def voiceB : List (Nat × Act) :=
  connectB ++ [(2000000000, .cmd (.setupSync 0 voice false)), (2000000001, .packet 0xB 0xA 0 (.scoRsp 0 voiceLink))]

example : ((run exampleA (connectB ++ [(2000000000, .cmd (.setupSync 0 voice false))])).map
      (fun r => ((callsOf r.2).asked 0xB, (callsOf r.2).known 256))) = some (true, none) ∧
    ((run exampleA voiceB).map (fun r => ((callsOf r.2).asked 0xB, (callsOf r.2).known 256))) = some (false, some 0xB) ∧
    ((run exampleA (voiceB ++ [(2000000002, .cmd (.sco 256 [1])), (2000000003, .packet 0xB 0xA 0 (.sco [2])), (2000000004, .cmd (.switchRole 0xB .peripheral)),
      (2000000005, .cmd (.disconnect 256 0x13))])).map
      (fun r => ((r.2.reverse.take 4).map Seen.out, (r.2.reverse.take 4).map Seen.ev))) =
      some ([[(0xB, .scoDisc 0x13)], [], [], [(0xB, .sco [1])]], [[.disconnComplete 256 0x16], [], [.sco 256 [2]], []]) ∧
    ((run exampleA (voiceB ++ [(2000000004, .cmd (.switchRole 0xB .peripheral)), (2000000005, .cmd (.disconnect 256 0x13))])).map
      (fun r => ((r.2.reverse.take 2).map Seen.status, (callsOf r.2).known 256))) = some ([0, 0x0c], none) := by
  decide +kernel

/-- A request of the device, rejected; a second one, accepted, and then withdrawn by the device. -/
example : ((run exampleA (connectB ++ [(2000000000, .packet 0xB 0xA 0 (.scoReq voice 0))])).map
      (fun r => (callsOf r.2).asked 0xB)) = some true ∧
    ((run exampleA (connectB ++ [(2000000000, .packet 0xB 0xA 0 (.scoReq voice 0)), (2000000001, .cmd (.rejectSync 0xB 0x0d))])).map
      (fun r => ((callsOf r.2).asked 0xB, (callsOf r.2).known 256))) = some (false, none) ∧
    ((run exampleA (connectB ++ [(2000000000, .packet 0xB 0xA 0 (.scoReq voice 0)), (2000000001, .cmd (.rejectSync 0xB 0x0d)),
      (2000000002, .packet 0xB 0xA 0 (.scoReq voice 0)), (2000000003, .cmd (.acceptSync 0xB voice))])).map
      (fun r => ((callsOf r.2).asked 0xB, (callsOf r.2).known 257))) = some (false, some 0xB) ∧
    ((run exampleA (connectB ++ [(2000000000, .packet 0xB 0xA 0 (.scoReq voice 0)), (2000000003, .cmd (.acceptSync 0xB voice)),
      (2000000004, .packet 0xB 0xA 0 (.scoDisc 0x13))])).map
      (fun r => ((callsOf r.2).asked 0xB, (callsOf r.2).known 256))) = some (false, none) := by
  decide +kernel

/-- The histories are fair. -/
example : ∀ r, run exampleA voiceB = some r → Fair r.2 := by
  intro r hr l1 x l2 hl
  have hx : x ∈ r.2 := by rw [hl]; simp
  have hall : ((run exampleA voiceB).all (fun r => r.2.all (fun y => match y.act with
      | .packet _ _ _ (.scoRsp st _) => st == 0
      | _ => true))) = true := by decide +kernel
  rw [hr] at hall
  have h1 := List.all_eq_true.1 hall x hx
  unfold FairStep
  split
  · rename_i src dst rssi st q ha
    rw [ha] at h1
    intro hne
    exact absurd (by simpa using h1) hne
  · trivial

/-! ## Where the full statement fails -/

/-- Data is accepted, and sent to the device, on the handle of a request the host was not yet told the handle of. -/
theorem C117_send_violated : ∃ as s l d, run exampleA as = some (s, l) ∧ Fair l ∧ (callsOf l).known 256 = none ∧
    step s 2000000001 (.cmd (.sco 256 d)) = .ok 0 s [(0xB, .sco d)] [] := by
  have hr : ∃ r, run exampleA (connectB ++ [(2000000000, .cmd (.setupSync 0 voice false))]) = some r := by
    rw [← Option.isSome_iff_exists]
    decide +kernel
  obtain ⟨⟨s, l⟩, hr⟩ := hr
  have hall : ((run exampleA (connectB ++ [(2000000000, .cmd (.setupSync 0 voice false))])).all (fun r =>
      r.2.all (fun y => match y.act with | .packet _ _ _ (.scoRsp _ _) => false | _ => true) && ((callsOf r.2).known 256).isNone &&
      decide (step r.1 2000000001 (.cmd (.sco 256 [1])) = .ok 0 r.1 [(0xB, .sco [1])] []))) = true := by decide +kernel
  rw [hr] at hall
  simp only [Option.all_some, Bool.and_eq_true, decide_eq_true_eq, Option.isNone_iff_eq_none] at hall
  refine ⟨_, s, l, [1], hr, fun l1 x l2 hl => ?_, hall.1.2, hall.2⟩
  have h1 := List.all_eq_true.1 hall.1.1 x (by rw [hl]; simp)
  unfold FairStep
  split
  · rename_i ha
    rw [ha] at h1
    cases h1
  · trivial

/-- Data of a device that asks for a connection is handed to the host under a handle it does not know. -/
theorem C117_receive_violated : after (connectB ++ [(2000000000, .packet 0xB 0xA 0 (.scoReq voice 0))]) 2000000001 (.packet 0xB 0xA 0 (.sco [1])) =
      (run exampleA (connectB ++ [(2000000000, .packet 0xB 0xA 0 (.scoReq voice 0))])).map (fun r => .ok 0 (touch r.1 2000000001 0xB) [] [.sco 256 [1]]) ∧
    (run exampleA (connectB ++ [(2000000000, .packet 0xB 0xA 0 (.scoReq voice 0))])).map (fun r => (callsOf r.2).known 256) = some none := by
  decide +kernel

/-- A refusal nobody asked for ends an open connection and the host, which is told of a request that failed, still knows it: its data
is refused afterwards. -/
theorem C117_refusal_violated :
    (run exampleA (voiceB ++ [(2000000002, .packet 0xB 0xA 0 (.scoRsp 0x0d voiceLink)), (2000000003, .cmd (.sco 256 [1]))])).map
      (fun r => ((callsOf r.2).known 256, (r.2.getLast?.map Seen.status))) = some (some 0xB, some 0x02) := by
  decide +kernel

/-- The model iterates over the newest connection first. The code iterates over an `std::unordered_map`, which may be in another order:
if the open connection comes before the request, the host's answer to the request is refused although the request is open. -/
theorem C117_order_violated :
    (run exampleA (voiceB ++ [(2000000002, .packet 0xB 0xA 0 (.scoReq voice 0))])).map
      (fun r => ((callsOf r.2).asked 0xB, match step r.1 2000000003 (.cmd (.acceptSync 0xB voice)) with | .ok st _ _ _ => some st | _ => none,
        match step { r.1 with sco := r.1.sco.reverse } 2000000003 (.cmd (.acceptSync 0xB voice)) with | .ok st _ _ _ => some st | _ => none)) =
      some (true, some 0, some 0x0c) := by
  decide +kernel

end Verif.Br
