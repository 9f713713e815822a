import Verif.Iso.PropsRefuse

/-! # C105: how a stream is reported -/
namespace Verif.Iso

open Verif.Le (mapFind)

theorem latency_eq (p : CisParameters) (ft sdu : Nat) :
    (∀ n, transportLatency p.cigSyncDelay p.isoInterval ft sdu p.framed = .ok n → n < 16777216 →
      sent p ft < 4294967296 ∧ latency p ft sdu = (n : Int)) ∧
    (sent p ft < 4294967296 → 0 ≤ latency p ft sdu → latency p ft sdu < 16777216 →
      transportLatency p.cigSyncDelay p.isoInterval ft sdu p.framed = .ok (latency p ft sdu).toNat) := by
  have hm : ft * (p.isoInterval * 1250) = ft * p.isoInterval * 1250 := (Nat.mul_assoc _ _ _).symm
  have hu : u32 = 4294967296 := rfl
  simp only [transportLatency, sent, latency, hm, hu]
  generalize ft * p.isoInterval * 1250 = x
  cases p.framed
  · simp only [Bool.false_eq_true, if_false]
    constructor
    · intro n h hn
      split at h
      · cases h
      · split at h
        · cases h
        · cases h; omega
    · intro h1 h2 h3
      rw [if_neg (by omega), if_neg (by omega)]
      congr 1; omega
  · simp only [if_true]
    constructor
    · intro n h hn
      split at h
      · cases h
      · split at h
        · cases h
        · cases h; omega
    · intro h1 h2 h3
      rw [if_neg (by omega), if_neg (by omega)]
      congr 1

theorem phyType_eq (n : Nat) : phyType n = if n ∈ [1, 2, 4] then .ok (phyCode n) else .error .panic := by
  rcases n with _ | _ | _ | _ | _ | n
  any_goals rfl

theorem central_fits (h : Nat) (p : CisParameters) :
    (Reportable p → centralEvent h p = .ok (report h p) ∧ (report h p).encodable = true) ∧
    (¬ Reportable p → ∀ e, centralEvent h p = .ok e → p.cigSyncDelay < 16777216 → p.cisSyncDelay < 16777216 → e.encodable = false) := by
  have lc := latency_eq p p.ftC p.sduIntervalC
  have lp := latency_eq p p.ftP p.sduIntervalP
  constructor
  · rintro ⟨h1, h2, h3, h4, h5, h6, h7, h8, h9, h10, h11, h12⟩
    have e1 := lc.2 h3 h5 h6
    have e2 := lp.2 h4 h7 h8
    constructor
    · simp only [centralEvent, e1, e2, phyType_eq, if_pos h1, if_pos h2]; rfl
    · simp only [Established.encodable, Bool.and_eq_true, decide_eq_true_eq]
      simp only [report]
      omega
  · intro hn e he g1 g2
    simp only [centralEvent, phyType_eq] at he
    cases hc : transportLatency p.cigSyncDelay p.isoInterval p.ftC p.sduIntervalC p.framed with
    | error f => rw [hc] at he; cases he
    | ok a =>
      cases hp : transportLatency p.cigSyncDelay p.isoInterval p.ftP p.sduIntervalP p.framed with
      | error f => rw [hc, hp] at he; cases he
      | ok b =>
        rw [hc, hp] at he
        by_cases h1 : p.phyC ∈ [1, 2, 4]
        · by_cases h2 : p.phyP ∈ [1, 2, 4]
          · rw [if_pos h1, if_pos h2] at he
            cases he
            rw [Bool.eq_false_iff]
            intro hen
            simp only [Established.encodable, Bool.and_eq_true, decide_eq_true_eq] at hen
            obtain ⟨⟨⟨⟨⟨k1, k2⟩, k3⟩, k4⟩, k5⟩, k6⟩ := hen
            have q1 := lc.1 a hc k3
            have q2 := lp.1 b hp k4
            exact hn ⟨h1, h2, q1.1, q2.1, by omega, by omega, by omega, by omega, k1, k2, k5, k6⟩
          · rw [if_pos h1, if_neg h2] at he; cases he
        · rw [if_neg h1] at he
          by_cases h2 : p.phyP ∈ [1, 2, 4]
          · rw [if_pos h2] at he; cases he
          · rw [if_neg h2] at he; cases he

theorem peripheral_eq (h : Nat) (p : CisParameters) :
    peripheralEvent h p = (centralEvent h p).map (fun e => { e with bnC := p.bnP, bnP := p.bnC, ftC := p.ftP, ftP := p.ftC, maxPduC := p.maxPduP % 256, maxPduP := p.maxPduC % 256 }) := by
  simp only [peripheralEvent, centralEvent]
  cases transportLatency p.cigSyncDelay p.isoInterval p.ftC p.sduIntervalC p.framed with
  | error f => rfl
  | ok a =>
    cases transportLatency p.cigSyncDelay p.isoInterval p.ftP p.sduIntervalP p.framed with
    | error f => rfl
    | ok b => cases phyType p.phyC <;> cases phyType p.phyP <;> rfl

theorem central_bn {h : Nat} {p : CisParameters} {e : Established} (he : centralEvent h p = .ok e) : e.bnC = p.bnC ∧ e.bnP = p.bnP := by
  simp only [centralEvent] at he
  split at he <;> cases he
  exact ⟨rfl, rfl⟩

/-- The answer of the peer to a stream's request, when no other request waits: the central sends the indication and reports the stream
with the parameters it was created with, or aborts if these do not fit the event. -/
theorem C105_established (env : Env) (s : State) (acl : Nat) (c : Cis) (p : CisParameters)
    (hc : s.cises.find? (fun c => c.acl = some acl ∧ c.role = .central ∧ c.state = .pendingRsp) = some c) (hp : c.params = some p)
    (hq : s.requests = []) :
    (Reportable p → step env s (.llcp acl .cisRsp) = .ok (s.change c.handle (fun c => { c with state := .connected }),
      [.llcp acl (.cisInd p.cigSyncDelay p.cisSyncDelay), .event (.cisEstablished (report c.handle p))])) ∧
    (¬ Reportable p → ∃ f, step env s (.llcp acl .cisRsp) = .error f) := by
  have hw : awaitingRsp s acl = some c := hc
  have hd : dequeue (setCises s (updateCis s.cises c.handle (fun c => { c with state := .connected }))) =
      .ok (s.change c.handle (fun c => { c with state := .connected }), []) := by
    simp only [dequeue, setCises, hq]
    simp only [State.change, updateCis]
    rw [← hq]
  have hf := central_fits c.handle p
  simp only [step, runPdu, cisRsp, hw, hp]
  constructor
  · intro h
    obtain ⟨h1, h2⟩ := hf.1 h
    rw [h1]
    dsimp only
    rw [hd]
    dsimp only
    simp only [send]
    rw [if_pos]
    · rfl
    · obtain ⟨-, -, -, -, -, -, -, -, h9, h10, -, -⟩ := h
      simp only [List.append_nil, List.all_cons, List.all_nil, Bool.and_true, Out.encodable, h2, Bool.and_eq_true, decide_eq_true_eq]
      exact ⟨h9, h10⟩
  · intro h
    cases he : centralEvent c.handle p with
    | error f => exact ⟨f, rfl⟩
    | ok e =>
      dsimp only
      rw [hd]
      dsimp only
      simp only [send]
      refine ⟨.panic, if_neg ?_⟩
      intro hall
      simp only [List.append_nil, List.all_cons, List.all_nil, Bool.and_true, Out.encodable, Bool.and_eq_true, decide_eq_true_eq] at hall
      obtain ⟨⟨g1, g2⟩, g3⟩ := hall
      rw [hf.2 h e he g1 g2] at g3; cases g3

/-- The indication of the central: the peripheral reports the stream it accepted, with the delays of the indication, or aborts. -/
theorem C105_established_peripheral (env : Env) (s : State) (acl a b : Nat) (c : Cis) (p : CisParameters)
    (hc : s.cises.find? (fun c => c.acl = some acl ∧ c.role = .peripheral ∧ c.state = .pendingInd) = some c) (hp : c.params = some p) :
    let p' := { p with cigSyncDelay := a, cisSyncDelay := b }
    (Reportable p' → step env s (.llcp acl (.cisInd a b)) = .ok (s.change c.handle (fun c => { c with state := .connected, params := some p' }),
      [.event (.cisEstablished (reportPeripheral c.handle p'))])) ∧
    (¬ Reportable p' → a < 16777216 → b < 16777216 → ∃ f, step env s (.llcp acl (.cisInd a b)) = .error f) := by
  have hw : awaitingInd s acl = some c := hc
  intro p'
  have hf := central_fits c.handle p'
  simp only [step, runPdu, cisInd, hw, hp]
  rw [show ({ p with cigSyncDelay := a, cisSyncDelay := b } : CisParameters) = p' from rfl, peripheral_eq]
  constructor
  · intro h
    obtain ⟨h1, h2⟩ := hf.1 h
    rw [h1]
    simp only [Except.map, send]
    rw [if_pos]
    · rfl
    · obtain ⟨-, -, -, -, -, -, -, -, -, -, h11, h12⟩ := h
      simp only [Established.encodable, Bool.and_eq_true, decide_eq_true_eq] at h2
      simp only [List.all_cons, List.all_nil, Bool.and_true, Out.encodable, Established.encodable, Bool.and_eq_true, decide_eq_true_eq]
      exact ⟨⟨h2.1.1, h12⟩, h11⟩
  · intro h g1 g2
    cases he : centralEvent c.handle p' with
    | error f => exact ⟨f, rfl⟩
    | ok e =>
      simp only [Except.map, send]
      refine ⟨.panic, if_neg ?_⟩
      intro hall
      have := hf.2 h e he g1 g2
      obtain ⟨b1, b2⟩ := central_bn he
      simp only [List.all_cons, List.all_nil, Bool.and_true, Out.encodable, Established.encodable, Bool.and_eq_true, decide_eq_true_eq] at hall
      rw [Bool.eq_false_iff] at this
      apply this
      simp only [Established.encodable, Bool.and_eq_true, decide_eq_true_eq, b1, b2]
      exact ⟨⟨hall.1.1, hall.2⟩, hall.1.2⟩

/-- The stream of the example, asked for: its parameters fit, and the latencies are 2·10 ms less the SDU interval. -/
example : ∃ c p, (stateAfter (exampleHistory ++ [(fullEnv, .hci (.createCis [(0xE00, 0x10)]))])).cises.find?
      (fun c => c.acl = some 0x10 ∧ c.role = .central ∧ c.state = .pendingRsp) = some c ∧ c.params = some p ∧
      latency p p.ftC p.sduIntervalC = 10000 ∧ p.phyP = 2 := ⟨_, _, rfl, rfl, by decide +kernel, by decide +kernel⟩

end Verif.Iso
