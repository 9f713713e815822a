import Verif.Br.SpecRefuse
import Verif.Br.PropsFail
import Verif.Br.PropsSync
/-! # C101: the refusals and their error codes -/
namespace Verif.Br
open Verif.Conn (Table find erase firstWith keys ScoState)
open Verif.Sco (ConnParams)

theorem isAcl_find {s : Ctl} {h : Nat} : isAcl s h = (find s.acl h).isSome := by
  rw [Bool.eq_iff_iff, Conn.find_isSome_iff]
  simp [isAcl, keys]

theorem isSync_is {s : Ctl} {h : Nat} : isSync s h = (find s.sco h).isSome := by
  rw [Bool.eq_iff_iff, Conn.find_isSome_iff]
  simp [isSync, keys]

theorem find_is {C : Type} (t : Table C) (h : Nat) : (t.find? (fun e => e.1 = h)).map (·.2) = find t h := by
  induction t with
  | nil => rfl
  | cons e t ih =>
    obtain ⟨k, c⟩ := e
    by_cases hk : k = h
    · simp [find, hk]
    · simp [find, hk, ← ih]

theorem peers_of {s : Ctl} {a : Nat} : (peers s).contains a = (aclOf s a).isSome := by
  rw [Bool.eq_iff_iff, List.contains_iff_mem]
  exact aclOf_isSome.symm

theorem asks_is {s : Ctl} {a : Nat} : Option.any (fun p => decide (p.addr = a)) s.scan = asks s a := by unfold asks; cases s.scan <;> rfl

/-- A result whose status is `st`, and which does nothing if `st` is an error. -/
def Answer (s : Ctl) (st : Nat) (r : Res) : Prop :=
  (st ≠ 0 → r = .ok st s [] []) ∧ ∀ st' s' out ev, r = .ok st' s' out ev → st' = st

theorem Answer.refuse (s : Ctl) (st : Nat) : Answer s st (.ok st s [] []) := ⟨fun _ => rfl, fun _ _ _ _ h => by cases h; rfl⟩
theorem Answer.fine (s s' : Ctl) (out : List (Nat × Pkt)) (ev : List Ev) : Answer s 0 (.ok 0 s' out ev) := ⟨fun h => absurd rfl h, fun _ _ _ _ h => by cases h; rfl⟩
theorem Answer.abort (s : Ctl) : Answer s 0 .abort := ⟨fun h => absurd rfl h, fun _ _ _ _ h => by cases h⟩
theorem Answer.hang (s : Ctl) : Answer s 0 .hang := ⟨fun h => absurd rfl h, fun _ _ _ _ h => by cases h⟩
theorem Answer.wild (s : Ctl) : Answer s 0 .wild := ⟨fun h => absurd rfl h, fun _ _ _ _ h => by cases h⟩

theorem accept_answer (s : Ctl) (now a : Nat) (t : Bool) : Answer s (statusOf s (.accept a t)) (acceptConnection s now a t) := by
  unfold acceptConnection
  cases hs : s.scan.filter (fun p => p.addr = a) with
  | some p =>
    have : asks s a = true := by
      obtain ⟨h1, h2⟩ := Option.filter_eq_some_iff.mp hs
      simp only [asks, h1, Option.any_some]
      exact h2
    simp only [statusOf, this, Bool.true_or, if_true, acceptPage]
    split
    · exact .fine ..
    · split
      · exact .abort s
      · exact .hang s
      · exact .fine ..
  | none =>
    have : asks s a = false := by
      unfold asks
      cases h : s.scan with
      | none => rfl
      | some p =>
        rw [h] at hs
        simpa [Option.filter] using hs
    simp only [statusOf, this, Bool.false_or, pending_eq]
    by_cases hp : syncPending s a = true
    · simp only [hp, if_true]
      split
      · exact .abort s
      · exact .fine ..
    · simp only [hp]
      exact .refuse s 2

theorem disconnect_answer (s : Ctl) (h r q : Nat) : Answer s (statusOf s (.disconnect h r)) (disconnect s h r q) := by
  unfold disconnect
  simp only [statusOf, isAcl_find, isSync_is]
  cases find s.sco h with
  | some c => simp only [Option.isSome_some, Bool.or_true, if_true]; exact .fine ..
  | none =>
    cases find s.acl h with
    | none => exact .refuse s 2
    | some c =>
      simp only [Option.isSome_some, Bool.true_or, if_true]
      split
      · split
        · exact .abort s
        · exact .fine ..
      · split
        · exact .abort s
        · exact .fine ..

theorem setup_answer (s : Ctl) (h : Nat) (p : ConnParams) (sp lg : Bool) :
    Answer s (match s.acl.find? (fun e => e.1 = h) with
      | none => 0x02
      | some e => if syncPending s e.2.addr then 0x0C else 0) (setupSync s h p sp lg) := by
  unfold setupSync
  rw [← find_is]
  cases s.acl.find? (fun e => e.1 = h) with
  | none => exact .refuse s 2
  | some e =>
    simp only [Option.map_some, pending_eq]
    by_cases hp : syncPending s e.2.addr = true
    · simp only [hp, if_true]; exact .refuse s 0xC
    · simp only [hp]
      split
      · rename_i h; cases h
      · split
        · exact .hang s
        · exact .fine ..

theorem ask_answer (s : Ctl) (h : Nat) (q : Pkt) : Answer s (if isAcl s h then 0 else 0x02) (ask s h q) := by
  unfold ask
  rw [isAcl_find]
  cases find s.acl h with
  | none => exact .refuse s 2
  | some c => exact .fine ..

theorem answered (s : Ctl) (now : Nat) (c : Cmd) : Answer s (statusOf s c) (command s now c) := by
  cases c with
  | inquiry l n r =>
    simp only [command, startInquiry, statusOf]
    by_cases h : r > 0xff ∨ n < 1 ∨ n > 0x30
    · rw [if_pos h, if_pos (by simp; omega)]
      exact .refuse s _
    · rw [if_neg h, if_neg (by simp; omega)]
      cases s.inq with
      | none => exact .fine ..
      | some i => exact .refuse s _
  | inquiryCancel =>
    simp only [command, cancelInquiry, statusOf]
    cases s.inq with
    | none => exact .refuse s _
    | some i => exact .fine ..
  | create a w =>
    simp only [command, createConnection, statusOf, peers_of, asks_is]
    cases s.page with
    | some p => exact .refuse s _
    | none =>
      cases aclOf s a with
      | some e => exact .refuse s _
      | none =>
        simp only [Option.isSome_none, ne_eq, not_true_eq_false, Bool.false_eq_true, if_false]
        by_cases h : asks s a = true
        · rw [if_pos h, if_pos h]; exact .refuse s _
        · rw [if_neg h, if_neg h]; exact .fine ..
  | cancel a =>
    simp only [command, cancelConnection, statusOf]
    cases s.page with
    | none => exact .refuse s _
    | some p =>
      by_cases h : p.addr = a
      · simp only [h, Option.any_some, decide_true, if_true, ne_eq, not_true_eq_false, if_false]
        exact .fine ..
      · simp only [h, Option.any_some, decide_false, Bool.false_eq_true, if_false, ne_eq, not_false_eq_true, if_true]
        exact .refuse s _
  | accept a t => exact accept_answer s now a t
  | reject a r =>
    simp only [command, rejectConnection, statusOf, asks_is]
    by_cases h : asks s a = true
    · rw [if_pos h, if_pos h]; exact .fine ..
    · rw [if_neg h, if_neg h]; exact .refuse s _
  | disconnect h r => exact disconnect_answer s h r _
  | switchRole a r =>
    simp only [command, switchRole, statusOf, peers_of]
    cases aclOf s a with
    | none => exact .refuse s _
    | some e =>
      cases hs : scoOf s.sco a with
      | some f =>
        have : syncs s a ≠ 0 := fun h => by rw [syncs_zero.mp h] at hs; cases hs
        simp only [this, Option.isSome_some, Bool.not_true, Bool.false_eq_true, if_false, if_true]
        exact .refuse s _
      | none =>
        simp only [syncs_zero.mpr hs, Option.isSome_some, Option.isSome_none, Bool.not_true, Bool.false_eq_true, if_false, if_true]
        split <;> exact .fine ..
  | writePolicy h p =>
    simp only [command, writePolicy, statusOf, isAcl_find]
    cases find s.acl h with
    | none => exact .refuse s _
    | some c =>
      simp only [Option.isSome_some, Bool.not_true, Bool.false_eq_true, if_false]
      by_cases hp : p > 7
      · rw [if_pos hp, if_neg (by omega)]; exact .refuse s _
      · rw [if_neg hp, if_pos (by omega)]; exact .fine ..
  | writeDefaultPolicy p =>
    simp only [command, writeDefaultPolicy, statusOf]
    by_cases hp : p > 7
    · rw [if_pos hp, if_neg (by omega)]; exact .refuse s _
    · rw [if_neg hp, if_pos (by omega)]; exact .fine ..
  | setupSync h p sp => exact setup_answer s h p sp false
  | addSco h t => exact setup_answer s h _ false true
  | acceptSync a p =>
    simp only [command, acceptSync, statusOf, pending_eq]
    split
    · split
      · exact .abort s
      · exact .fine ..
    · exact .refuse s _
  | rejectSync a r =>
    simp only [command, rejectSync, statusOf, pending_eq]
    split
    · split
      · exact .abort s
      · exact .fine ..
    · exact .refuse s _
  | features h => exact ask_answer s h _
  | ext h p => exact ask_answer s h _
  | version h => exact ask_answer s h _
  | extLocal p =>
    simp only [command, statusOf]
    split
    · exact .wild s
    · exact .fine ..
  | acl h pb bc d =>
    simp only [command, sendAcl, statusOf]
    split
    · exact .abort s
    · split <;> exact .fine ..
  | sco h d =>
    simp only [command, sendSco, statusOf, isSync_is]
    cases find s.sco h with
    | none => exact .refuse s _
    | some c => exact .fine ..
  | _ => exact .fine ..

/-- A command that must be refused is: it gets the error code of the table, nothing is sent, the host gets no event and the
controller stays as it was. -/
theorem C101_refused (s : Ctl) (now : Nat) (c : Cmd) (h : statusOf s c ≠ 0) : step s now (.cmd c) = .ok (statusOf s c) s [] [] :=
  (answered s now c).1 h

/-- The status of a command is always that of the table, so nothing else is refused. -/
theorem C101_status (s : Ctl) (now : Nat) (c : Cmd) (st : Nat) (s' : Ctl) (out : List (Nat × Pkt)) (ev : List Ev)
    (h : step s now (.cmd c) = .ok st s' out ev) : st = statusOf s c :=
  (answered s now c).2 st s' out ev h

/-- Every code occurs after a connection with device 0xB was made. -/
example : (run exampleA connectB).map (fun r => [statusOf r.1 (.create 0xB true), statusOf r.1 (.create 0xC true), statusOf r.1 (.cancel 0xB),
    statusOf r.1 (.inquiry 0x33 0 0), statusOf r.1 .inquiryCancel, statusOf r.1 (.disconnect 0 0x13), statusOf r.1 (.disconnect 1 0x13)]) =
    some [0x0B, 0, 0x02, 0x12, 0x0C, 0, 0x02] := by
  decide +kernel

/-- A connection whose peer was silent for more than three seconds is ended at the next check, with the reason 0x08
(connection timeout) for the peer and for the host; an earlier silence of more than a second and a half makes the controller
ask the peer, and a shorter one does nothing. -/
theorem C101_silence (addr : Nat) (i : Info) (n : Nat) (as : List (Nat × Act)) (hx : ∀ x ∈ as, Named x.2) (s : Ctl) (l : List Seen)
    (hr : run (Ctl.fresh addr i n) as = some (s, l)) (now h : Nat) (c : Acl) (hm : (h, c) ∈ s.acl) (hz : syncs s c.addr = 0) :
    step s now (.check h) =
      if 3000000000 < now - c.last then
        .ok 0 { s with acl := s.acl.filter (fun e => e.1 ≠ h), lm := s.lm.erase c.addr } [(c.addr, .disconnect 0x08)]
          (if s.mask.testBit 4 then [.disconnComplete h 0x08] else [])
      else if 1500000000 < now - c.last then .ok 0 s [(c.addr, .ping)] [] else .ok 0 s [] [] := by
  have hi := run_inv (fresh_inv addr i n) as hx s l hr
  have hf := (mem_acl hi).mp hm
  have hin : c.addr ∈ peers s := List.mem_map.mpr ⟨_, hm, rfl⟩
  have h0 : c.addr ≠ 0 := fun h => hi.zero (h ▸ hin)
  have hl : c.addr ∈ s.lm := hi.lm.mem_iff.mpr hin
  have hk : find s.sco h = none := by
    cases hk : find s.sco h with
    | none => rfl
    | some d =>
      have h1 := hi.ssound.range h ((Conn.find_isSome_iff _ _).mp (by rw [hk]; rfl))
      have h2 := hi.sound.range h (List.mem_map.mpr ⟨_, hm, rfl⟩)
      omega
  simp only [step, checkExpiring, hf]
  have e3 : (3000000000 < now - c.last) = (c.last + 3000000000 < now) := propext (by omega)
  have e2 : (1500000000 < now - c.last) = (c.last + 1500000000 < now) := propext (by omega)
  simp only [e3, e2]
  by_cases ht : c.last + 3000000000 < now
  · rw [if_pos ht, if_pos ht]
    simp only [disconnect, hk, hf, syncs_zero.mp hz, endAcl, Option.isSome_none, Bool.false_eq_true, if_false, removeLink, h0, hl, if_true,
      Option.map_some, tell, unmasked]
    rfl
  · rw [if_neg ht, if_neg ht]

/-- After four seconds of silence. -/
example : ((run exampleA (connectB ++ [(5200000000, .check 0)])).map (fun r => (peers r.1, (r.2.flatMap (·.ev)).contains (.disconnComplete 0 0x08)))) = some ([], true) := by
  decide +kernel

/-- Create Connection Cancel ends the attempt, and the host is told with the status 0x02. -/
theorem C101_cancelled (s : Ctl) (now : Nat) (p : Page) (hp : s.page = some p) :
    step s now (.cmd (.cancel p.addr)) = .ok 0 { s with page := none } [] (if s.mask.testBit 2 then [.connComplete 0x02 0 p.addr .acl] else []) := by
  simp only [step, command, cancelConnection, hp, ne_eq, not_true_eq_false, if_false, tell, unmasked]
  rfl

/-- A controller whose host does not want to hear of connection requests sends the peer away with the reason 0x08. -/
theorem C101_deaf (s : Ctl) (now src dst rssi cod : Nat) (allow : Bool) (hd : forMe s dst = true) (hp : s.pageScan = true) (hm : s.mask.testBit 3 = false) :
    ∃ s', step s now (.packet src dst rssi (.page cod allow)) = .ok 0 s' [(src, .pageReject 0x08)] [] := by
  have he := touch_eq s now src
  refine ⟨touch s now src, ?_⟩
  have h1 : (touch s now src).pageScan = true := by rw [he]; exact hp
  have h2 : (touch s now src).mask = s.mask := by rw [he]
  simp only [step, incoming, forMe_iff.mpr hd, if_false, dispatch, onPage, h1, unmasked, h2, hm, Bool.true_eq_false, if_true]
  rfl

/-- A second request for a voice connection, while the first is not settled, is refused with the reason 0x0A (synchronous
connection limit to a device exceeded) and empty parameters. -/
theorem C101_second_voice (s : Ctl) (now src dst rssi cod : Nat) (p : ConnParams) (hd : forMe s dst = true) (hp : syncPending s src = true) :
    ∃ s', step s now (.packet src dst rssi (.scoReq p cod)) = .ok 0 s' [(src, .scoRsp 0x0A ⟨0, 0, 0, 0, 0, false⟩)] [] ∧ s'.sco = s.sco := by
  have he := touch_eq s now src
  have h1 : (touch s now src).sco = s.sco := by rw [he]
  have h2 : scoPending (touch s now src) src = true := by
    rw [pending_eq]
    unfold syncPending at hp ⊢
    rw [h1]
    exact hp
  refine ⟨touch s now src, ?_, h1⟩
  simp only [step, incoming, forMe_iff.mpr hd, if_false, dispatch, onScoReq, h2, if_true]
  rfl

/-- A second request of device 0xB. -/
example : (run exampleA (connectB ++ [(2000000000, .packet 0xB 0xA 0 (.scoReq voice 0)), (2000000001, .packet 0xB 0xA 0 (.scoReq voice 0))])).map
    (fun r => (r.2.flatMap (·.out)).getLast?) = some (some (0xB, .scoRsp 0x0A ⟨0, 0, 0, 0, 0, false⟩)) := by
  decide +kernel

/-- A waiting request for a voice connection that the host accepts with parameters on which the two sides cannot agree: the
request is gone, the peer is told, and so is the host, with the status 0xFF (0x1C for the command of the first versions). -/
theorem C101_no_agreement (s : Ctl) (now h a : Nat) (c : Syn) (t : Table Syn) (p : ConnParams) (hs : s.sco = (h, c) :: t) (hc : c.addr = a)
    (hst : c.state = .sentEsco ∨ c.state = .sentSco) (hstr : c.stream = false) (hk : h ∉ t.map (·.1)) :
    (Sco.negotiate (if c.state = .sentEsco then .sentEsco else .sentSco) c.params p = none →
      step s now (.cmd (.acceptSync a p)) = .ok 0 { s with sco := t } [(a, .scoRsp 0xFF ⟨0, 0, 0, 0, 0, false⟩)] [.syncComplete 0xFF 0 a .sco 0 0 0 0 0]) ∧
    (Sco.negotiate (if c.state = .sentEsco then .sentEsco else .sentSco) c.params c.params = none → asks s a = false →
      ∀ sw, step s now (.cmd (.accept a sw)) = .ok 0 { s with sco := t } [(a, .scoRsp 0x1C ⟨0, 0, 0, 0, 0, false⟩)]
        (if s.mask.testBit 2 then [.connComplete 0x1C 0 a .sco] else [])) := by
  have hfst : scoOf s.sco a = some (h, c) := by rw [hs]; simp [scoOf, firstWith, hc]
  have hpe : scoPending s a = true := by
    simp only [scoPending, hfst]
    rcases hst with h | h <;> simp [h]
  have hne : negState c.state = if c.state = .sentEsco then .sentEsco else .sentSco := by
    rcases hst with h | h <;> simp [h, negState]
  have hup : update s.sco h { c with state := .closed } = (h, { c with state := .closed }) :: t := by
    rw [hs]
    simp only [update, List.map_cons, if_true, List.cons.injEq, true_and]
    rw [List.map_congr_left (g := id)]
    · simp
    · intro e he
      have : e.1 ≠ h := fun hh => hk (hh ▸ List.mem_map_of_mem (f := (·.1)) he)
      simp [this]
  have hca : cancelSyn (update s.sco h { c with state := .closed }) a = some t := by
    rw [hup]
    have he : erase ((h, { c with state := ScoState.closed }) :: t) h = t := by
      unfold erase
      rw [List.filter_cons_of_neg (by simp), List.filter_eq_self]
      intro e he
      have : e.1 ≠ h := fun hh => hk (hh ▸ List.mem_map_of_mem (f := (·.1)) he)
      simp [this]
    have hf : scoOf ((h, { c with state := ScoState.closed }) :: t) a = some (h, { c with state := ScoState.closed }) := by simp [scoOf, firstWith, hc]
    unfold cancelSyn
    rw [hf]
    show (if c.stream = true then none else some (erase _ h)) = some t
    rw [if_neg (by simp [hstr]), he]
  constructor
  · intro hn
    simp only [step, command, acceptSync, hpe, if_true, acceptSyn, hfst, Option.getD_some, hne, hn, hca, Option.map_some]
    rfl
  · intro hn ha sw
    have hsc : s.scan.filter (fun p => p.addr = a) = none := by
      cases h : s.scan with
      | none => rfl
      | some p =>
        simp only [asks, h, Option.any_some] at ha
        simp [Option.filter, ha]
    simp only [step, command, acceptConnection, hsc, hpe, if_true, acceptSyn, hfst, Option.getD_none, hne, hn, hca, Option.map_some, tell, unmasked]
    rfl

/-- Such parameters: a latency of one millisecond. -/
example : (run exampleA (connectB ++ [(2000000000, .packet 0xB 0xA 0 (.scoReq voice 0)), (2000000001, .cmd (.acceptSync 0xB ⟨8000, 8000, 1, 0x60, 0xff, 0⟩))])).map
      (fun r => ((r.2.flatMap (·.out)).getLast?, (r.2.flatMap (·.ev)).getLast?)) =
      some (some (0xB, .scoRsp 0xFF ⟨0, 0, 0, 0, 0, false⟩), some (.syncComplete 0xFF 0 0xB .sco 0 0 0 0 0)) ∧
    (run exampleA (connectB ++ [(2000000000, .packet 0xB 0xA 0 (.scoReq ⟨8000, 8000, 1, 0x60, 0xff, 0⟩ 0)), (2000000001, .cmd (.accept 0xB true))])).map
      (fun r => ((r.2.flatMap (·.out)).getLast?, (r.2.flatMap (·.ev)).getLast?)) =
      some (some (0xB, .scoRsp 0x1C ⟨0, 0, 0, 0, 0, false⟩), some (.connComplete 0x1C 0 0xB .sco)) := by
  decide +kernel

theorem legacy_bits (t : UInt16) (i : Nat) :
    (legacyParams t).packetType.toNat.testBit i = ((decide (i < 3) && t.toNat.testBit (i + 5)) || (decide (6 ≤ i) && decide (i ≤ 9))) := by
  have e : (legacyParams t).packetType.toNat = ((t.toNat >>> 5) &&& (2 ^ 3 - 1)) ||| 2 ^ 6 ||| 2 ^ 7 ||| 2 ^ 8 ||| 2 ^ 9 := by
    simp only [legacyParams, UInt16.toNat_or, UInt16.toNat_and, UInt16.toNat_shiftRight]
    rfl
  rw [e]
  simp only [Nat.testBit_or, Nat.testBit_and, Nat.testBit_shiftRight, Nat.testBit_two_pow_sub_one, Nat.testBit_two_pow]
  rw [Nat.add_comm 5 i, Bool.and_comm, Bool.or_assoc, Bool.or_assoc, Bool.or_assoc]
  congr 1
  rw [Bool.eq_iff_iff]
  simp
  omega

/-- Add SCO Connection asks the peer for 8000 bytes per second in both directions, any latency, the voice setting 0x60 and no
retransmissions, with those of the packet types HV1, HV2 and HV3 the host named and with none of the extended ones (the bits
for 2-EV3, 3-EV3, 2-EV5 and 3-EV5 mean that the type may not be used). -/
theorem C101_legacy (s : Ctl) (now h : Nat) (t : UInt16) (st : Nat) (s' : Ctl) (out : List (Nat × Pkt)) (ev : List Ev)
    (hr : step s now (.cmd (.addSco h t)) = .ok st s' out ev) (hst : statusOf s (.addSco h t) = 0) :
    ∃ a p, out = [(a, .scoReq p s.info.cod)] ∧ linked s h a ∧ ev = [] ∧ p.txBandwidth = 8000 ∧ p.rxBandwidth = 8000 ∧ p.maxLatency = 0xffff ∧
      p.voiceSetting = 0x60 ∧ p.effort = 0 ∧
      ∀ i, p.packetType.toNat.testBit i = ((decide (i < 3) && t.toNat.testBit (i + 5)) || (decide (6 ≤ i) && decide (i ≤ 9))) := by
  simp only [step, command, setupSync] at hr
  simp only [statusOf] at hst
  cases hf : s.acl.find? (fun e => e.1 = h) with
  | none => rw [hf] at hst; cases hst
  | some e =>
    have he := find_is s.acl h
    rw [hf] at he hst
    simp only [Option.map_some] at he
    simp only [← he, pending_eq] at hr
    have hp : syncPending s e.2.addr = false := by
      cases hp : syncPending s e.2.addr with
      | false => rfl
      | true => simp [hp] at hst
    rw [hp] at hr
    have hm := List.mem_of_find?_eq_some hf
    have hk : e.1 = h := by simpa using List.find?_some hf
    simp only [Bool.false_eq_true, if_false] at hr
    split at hr
    · cases hr
    · cases hr
      exact ⟨_, _, rfl, ⟨e.2, hk ▸ hm, rfl⟩, rfl, rfl, rfl, rfl, rfl, rfl, legacy_bits t⟩

/-- A host that names all three. -/
example : (run exampleA (connectB ++ [(2000000000, .cmd (.addSco 0 0xE0))])).map (fun r => r.2.flatMap (·.out) |>.getLast?) =
    some (some (0xB, .scoReq ⟨8000, 8000, 0xffff, 0x60, 0, 0x3C7⟩ exampleInfo.cod)) := by
  decide +kernel

end Verif.Br
