import Verif.Cs.SpecAnswer
import Verif.Cs.PropsRefuse

/-! # C104: how a controller answers the channel sounding PDUs of its peer -/
namespace Verif.Cs

theorem tell_eq (b : Bool) (v : Ev) : tell b v = heard b v := by cases b <;> rfl

theorem noChannels_eq : noChannels = zeros := by decide
theorem zeroSlot_eq : zeroSlot = noSlot := rfl
theorem zeroSettings_eq : zeroSettings = nothing := by simp only [zeroSettings, nothing, noChannels_eq]
theorem faeTable_eq : faeTable = List.range' 1 72 := by decide +kernel

theorem reqOk_eq (c : Caps) (role : Nat) (s : Settings) : configReqOk c role s = acceptable c role s := by
  rw [Bool.eq_iff_iff]
  simp only [configReqOk, acceptable, rtt_eq, phy_eq, tb0, Bool.and_eq_true, Bool.or_eq_true, decide_eq_true_eq, beq_iff_eq, List.mem_cons,
    List.not_mem_nil, or_false]
  constructor
  · rintro ⟨⟨⟨⟨⟨⟨⟨a, b⟩, c⟩, d⟩, e⟩, f⟩, g⟩, h⟩
    refine ⟨⟨⟨⟨⟨⟨⟨⟨a, b.1⟩, b.2⟩, by omega⟩, d⟩, e⟩, f⟩, by omega⟩, by omega⟩
  · rintro ⟨⟨⟨⟨⟨⟨⟨⟨a, b⟩, b'⟩, c⟩, d⟩, e⟩, f⟩, g⟩, h⟩
    refine ⟨⟨⟨⟨⟨⟨⟨a, b, b'⟩, by omega⟩, d⟩, e⟩, f⟩, by omega⟩, by omega⟩

/-- What reporting a start comes to, where it does not abort. -/
theorem reportStarted_eq (e : End) (id : Nat) (slot : Slot) (out : List Pdu) (h : reportStarted e id slot out ≠ .abort) :
    reportStarted e id slot out = .ok 0 e out (startEvent e id slot) := by
  have hf : find e.configs id = e.config id := rfl
  simp only [reportStarted, hf] at h
  simp only [reportStarted, startEvent, hf]
  cases hm : e.mask.proc
  · cases hc : e.config id with
    | none => simp
    | some c => cases hp : c.proc <;> simp [heard, hp]
  · cases hc : e.config id with
    | none => simp
    | some c => cases hp : c.proc <;> simp [heard, hp, hc, hm] at h ⊢

/-- A request of the peer to which a reason applies is answered with its code: nothing changes, and the host hears nothing. -/
theorem C104_refused (e : End) (d : Pdu) (h : firstOf (why e d) ≠ 0) :
    incoming e d = .ok 0 e (refusal e (firstOf (why e d)) d) [] := by
  cases d with
  | capsReq c =>
    simp only [why, firstOf] at *
    cases hs : e.hostSupport <;> simp_all [incoming, onCapsReq, refusal, Caps.sent]
  | faeReq =>
    simp only [why, firstOf] at *
    cases hs : e.hostSupport <;> simp_all [incoming, onFaeReq, refusal]
  | configReq id action role s =>
    simp only [incoming, onConfigReq, reqOk_eq]
    simp only [why, firstOf] at *
    cases hs : e.hostSupport
    · simp [refusal, hs]
    · cases ha : acceptable e.caps role s <;> simp_all [refusal]
  | secReq =>
    simp only [why, firstOf] at *
    cases hn : e.encrypted <;> cases hs : e.hostSupport <;> simp_all [incoming, onSecReq, refusal]
  | csReq id slot =>
    have hf : find e.configs id = e.config id := rfl
    simp only [incoming, onCsReq, hf, zeroSlot_eq]
    simp only [why, firstOf] at *
    cases hs : e.hostSupport
    · simp [refusal, hs]
    · cases hc : e.config id with
      | none => simp [refusal, hs, hc]
      | some c =>
        by_cases hi : e.iv = 0
        · simp [refusal, hs, hc, hi]
        · cases hfa : e.fae <;> simp_all [refusal]
  | capsRsp _ _ | faeRsp _ _ | configRsp _ _ | secRsp _ | csRsp _ _ _ | csInd _ _ _ | mapInd _ | termReq _ _ _ | termRsp _ _ _ =>
    exact absurd rfl h

/-- A PDU to which no reason applies is carried out: what is kept, sent and told is what the tables say, unless the controller
aborts (C41 says when). -/
theorem C104_answered (e : End) (d : Pdu) (h : firstOf (why e d) = 0)
    (hn : incoming e d ≠ .abort) : incoming e d = .ok 0 (after e d) (sends e d) (tells e d) := by
  cases d with
  | capsReq c =>
    simp only [why, firstOf] at *
    cases hs : e.hostSupport <;> simp_all [incoming, onCapsReq, after, sends, tells, tell_eq, Caps.sent]
  | capsRsp st c =>
    by_cases h0 : st = 0 <;> simp [incoming, onCapsRsp, after, sends, tells, tell_eq, h0]
  | faeReq =>
    simp only [why, firstOf] at *
    cases hs : e.hostSupport <;> simp_all [incoming, onFaeReq, after, sends, tells, faeTable_eq]
  | faeRsp st t =>
    by_cases h0 : st = 0 <;> simp [incoming, onFaeRsp, after, sends, tells, tell_eq, h0]
  | configReq id action role s =>
    simp only [incoming, onConfigReq, reqOk_eq]
    simp only [why, firstOf] at h
    cases hs : e.hostSupport
    · simp [hs] at h
    · cases ha : acceptable e.caps role s
      · simp [hs, ha] at h
      · by_cases h1 : action = 1
        · subst h1
          simp [after, sends, tells, tell_eq, put, erase, reqSettings, reported, opposite, hs]
        · by_cases h2 : action = 0
          · subst h2
            simp [after, sends, tells, tell_eq, erase, reqSettings, reported, hs]
          · simp [after, sends, tells, tell_eq, reqSettings, reported, h1, h2, hs, beq_false_of_ne h1]
  | configRsp st id =>
    have hf : find e.configs id = e.config id := rfl
    simp only [incoming, onConfigRsp, hf, zeroSettings_eq]
    cases hc : e.config id with
    | none =>
      have hfl : e.configs.filter (fun c => c.id != id) = e.configs := by
        rw [List.filter_eq_self]
        intro c hm
        have := List.find?_eq_none.1 hc c hm
        simpa using this
      by_cases h0 : st = 0 <;> simp [after, sends, tells, tell_eq, hc, h0, hfl]
    | some c =>
      by_cases h0 : st = 0 <;> simp [after, sends, tells, tell_eq, hc, h0, erase]
  | secReq =>
    simp only [why, firstOf] at *
    cases hn' : e.encrypted <;> cases hs : e.hostSupport <;> simp_all [incoming, onSecReq, after, sends, tells, tell_eq]
  | secRsp st =>
    by_cases h0 : st = 0 <;> simp [incoming, onSecRsp, after, sends, tells, tell_eq, h0]
  | csReq id slot =>
    have hf : find e.configs id = e.config id := rfl
    simp only [incoming, onCsReq, hf] at hn ⊢
    simp only [why, firstOf] at h
    cases hs : e.hostSupport
    · simp [hs] at h
    · cases hc : e.config id with
      | none => simp [hs, hc] at h
      | some c =>
        by_cases hi : e.iv = 0
        · simp [hs, hc, hi] at h
        · cases hfa : e.fae with
          | none => simp [hs, hc, hi, hfa] at h
          | some t =>
            cases hcen : e.central
            · simp [hi, after, sends, tells, hcen]
            · simp only [hs, hc, hi, hfa, hcen] at hn ⊢
              simp only [if_false, Bool.true_eq_false, reduceCtorEq] at hn ⊢
              rw [reportStarted_eq e id slot _ hn]
              simp [after, sends, tells, hcen]
  | csRsp st id slot =>
    simp only [incoming, onCsRsp] at hn ⊢
    cases hs : e.hostSupport
    · simp [after, sends, tells, hs]
    · cases hcen : e.central
      · simp [after, sends, tells, hcen]
      · simp only [hs, hcen, Bool.true_eq_false, if_false, if_true] at hn ⊢
        rw [reportStarted_eq e id slot _ hn]
        simp [after, sends, tells, hs, hcen]
  | csInd st id slot =>
    simp only [incoming, onCsInd] at hn ⊢
    cases hs : e.hostSupport
    · simp [after, sends, tells, hs]
    · cases hcen : e.central
      · simp only [hs, hcen, Bool.true_eq_false, if_false, if_true] at hn ⊢
        rw [reportStarted_eq e id slot _ hn]
        simp [after, sends, tells, hs, hcen]
      · simp [after, sends, tells, hcen]
  | mapInd m => rfl
  | termReq id count err =>
    have hf : find e.configs id = e.config id := rfl
    simp only [incoming, onTermReq, termStatus, hf, after, sends, tells, endEvent, tell_eq, zeroSlot_eq]
  | termRsp id count err =>
    simp only [incoming, onTermRsp, after, sends, tells, endEvent, tell_eq, zeroSlot_eq]


/-- The requests a peer waits for an answer to, and the answers that end its waiting. -/
def closes : Pdu → Pdu → Bool
  | .capsReq _, .capsRsp _ _ => true
  | .faeReq, .faeRsp _ _ => true
  | .configReq _ _ _ _, .configRsp _ _ => true
  | .secReq, .secRsp _ => true
  | .csReq _ _, .csRsp _ _ _ => true
  | .csReq _ _, .csInd _ _ _ => true
  | .termReq _ _ _, .termRsp _ _ _ => true
  | _, _ => false

/-- Whether a PDU is a request. -/
def asking : Pdu → Bool
  | .capsReq _ | .faeReq | .configReq _ _ _ _ | .secReq | .csReq _ _ | .termReq _ _ _ => true
  | _ => false

/-- A request is answered once, by an answer of its kind: the peer is never left waiting. -/
theorem C104_one_answer (e : End) (d : Pdu) (h : asking d = true) (hn : incoming e d ≠ .abort) :
    ∃ e' a ev, incoming e d = .ok 0 e' [a] ev ∧ closes d a = true := by
  by_cases h0 : firstOf (why e d) = 0
  · rw [C104_answered e d h0 hn]
    cases d <;> simp only [asking, Bool.false_eq_true] at h <;> simp only [sends]
    case csReq id slot => cases hc : e.central <;> exact ⟨_, _, _, rfl, rfl⟩
    all_goals exact ⟨_, _, _, rfl, rfl⟩
  · rw [C104_refused e d h0]
    cases d <;> simp only [asking, Bool.false_eq_true] at h <;> simp only [refusal]
    case termReq => exact absurd rfl h0
    all_goals exact ⟨_, _, _, rfl, rfl⟩

/-- A request that is refused for a missing key, one that is granted, and one whose configuration is proposed in the way the
emulator accepts. -/
example : firstOf (why { exampleInitiator with hostSupport := true, configs := [⟨1, 0, exampleSettings, false, some exampleProc⟩] } (.csReq 1 noSlot)) = 0x06 ∧
    firstOf (why { exampleInitiator with hostSupport := true } .faeReq) = 0 ∧
    firstOf (why { exampleInitiator with hostSupport := true, caps := { exampleInitiator.caps with roles := 3, modes := 1, rttAa := 1 } }
      (.configReq 1 1 0 { exampleSettings with main := 1, sub := 255, rtt := 0, phy := 1, selection := 1, shape := 0, jump := 2 })) = 0 := by decide +kernel

end Verif.Cs
