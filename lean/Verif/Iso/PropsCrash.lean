import Verif.Iso.PropsHandles
/-!
# C45: isochronous commands and PDUs do not abort the controller

The full statement is that `step` never returns an error in a reachable state. It holds without conditions for the
commands of `C45_commands`; for the others the theorems `_violated` show how the controller aborts.
-/

namespace Verif.Iso

open Verif.Le

/-- The commands that work on existing groups and streams never abort, whatever their parameters and the history. -/
theorem C45_commands {s : State} (hr : Reachable s) (env : Env) {c : Cmd}
    (hc : (∃ k, c = .removeCig k) ∨ (∃ h, c = .acceptCis h) ∨ (∃ h r, c = .rejectCis h r) ∨
      (∃ h d i l, c = .setupPath h d i l) ∨ (∃ h i o, c = .removePath h i o) ∨ (∃ h r, c = .disconnect h r) ∨
      (∃ b r, c = .terminateBig b r)) :
    ∃ s' outs, step env s (.hci c) = .ok (s', outs) := by
  have hi := reachable_inv hr
  rcases hc with ⟨k, rfl⟩ | ⟨h, rfl⟩ | ⟨h, r, rfl⟩ | ⟨h, d, i, l, rfl⟩ | ⟨h, i, o, rfl⟩ | ⟨h, r, rfl⟩ | ⟨b, r, rfl⟩
  · simp only [step, runCmd, removeCig, answer]
    repeat' split
    all_goals exact ⟨_, _, rfl⟩
  · simp only [step, runCmd, acceptCis, answer]
    split
    · exact ⟨_, _, rfl⟩
    · rename_i c hf
      split
      · exact ⟨_, _, rfl⟩
      · split
        · exact ⟨_, _, rfl⟩
        · rename_i hst
          split
          · rename_i hn
            have := ((hi.cises c (findCis_some hf).1).linked (by intro e; rw [e] at hst; exact hst nofun)).1
            rw [hn] at this; cases this
          · exact ⟨_, _, rfl⟩
  · simp only [step, runCmd, rejectCis, answer]
    split
    · exact ⟨_, _, rfl⟩
    · rename_i c hf
      split
      · exact ⟨_, _, rfl⟩
      · split
        · exact ⟨_, _, rfl⟩
        · rename_i hst
          split
          · rename_i hn
            have := ((hi.cises c (findCis_some hf).1).linked (by intro e; rw [e] at hst; exact hst nofun)).1
            rw [hn] at this; cases this
          · exact ⟨_, _, rfl⟩
  · simp only [step, runCmd, setupPath, answer]
    repeat' split
    all_goals exact ⟨_, _, rfl⟩
  · simp only [step, runCmd, removePath, answer]
    repeat' split
    all_goals exact ⟨_, _, rfl⟩
  · simp only [step, runCmd, disconnect, answer]
    split
    · exact ⟨_, _, rfl⟩
    · rename_i c hf
      split
      · exact ⟨_, _, rfl⟩
      · rename_i hst
        split
        · rename_i hn
          have := ((hi.cises c (findCis_some hf).1).linked (by intro e; rw [e] at hst; exact hst ⟨nofun, nofun⟩)).1
          rw [hn] at this; cases this
        · exact ⟨_, _, rfl⟩
  · simp only [step, runCmd, terminateBig, answer]
    repeat' split
    all_goals exact ⟨_, _, rfl⟩

example : ∃ s' outs, step fullEnv exampleState (.hci (.acceptCis 0xE02)) = .ok (s', outs) ∧
    .llcp 0x11 .cisRsp ∈ outs := ⟨_, _, rfl, by decide +kernel⟩

/-- The loss of a link never aborts, nor does a response, a rejection or an indication that no CIS waits for, nor the
termination of a CIS with an error code that the controller knows. -/
theorem C45_pdus_partial (env : Env) (s : State) (acl : Nat) :
    (∀ reason, (mapFind s.acls acl).isSome → ∃ s' outs, step env s (.removeLink acl reason) = .ok (s', outs)) ∧
    ((∀ c ∈ s.cises, c.acl = some acl → c.state ≠ .pendingRsp) → step env s (.llcp acl .cisRsp) = .ok (s, []) ∧
      ∀ e, step env s (.llcp acl (.rejectExtInd opcodeCisReq e)) = .ok (s, [])) ∧
    ((∀ c ∈ s.cises, c.acl = some acl → c.state ≠ .pendingInd) →
      ∀ a b, step env s (.llcp acl (.cisInd a b)) = .ok (s, [])) ∧
    (∀ a b e, e ∈ errorCodes → ∃ s' outs, step env s (.llcp acl (.terminateInd a b e)) = .ok (s', outs)) := by
  refine ⟨fun reason ha => ?_, fun hn => ?_, fun hn a b => ?_, fun a b e he => ?_⟩
  · simp only [step, removeLink]
    rw [if_neg (by cases h : mapFind s.acls acl <;> simp_all)]
    exact ⟨_, _, rfl⟩
  · have : awaitingRsp s acl = none := by
      unfold awaitingRsp
      rw [List.find?_eq_none]
      intro c hc
      simp only [decide_eq_true_eq]
      exact fun h => hn c hc h.1 h.2.2
    refine ⟨?_, fun e => ?_⟩
    · simp only [step, runPdu, cisRsp, this]
    · simp only [step, runPdu, rejectExtInd, this]
      rw [if_neg (by simp)]
  · have : awaitingInd s acl = none := by
      unfold awaitingInd
      rw [List.find?_eq_none]
      intro c hc
      simp only [decide_eq_true_eq]
      exact fun h => hn c hc h.1 h.2.2
    simp only [step, runPdu, cisInd, this]
  · simp only [step, runPdu, terminateInd]
    split
    · exact ⟨_, _, rfl⟩
    · rw [if_pos he]; exact ⟨_, _, rfl⟩

/-! ## How the controller aborts -/

/-- The central after a CIG with one CIS has been configured. -/
def oneCis (sduC sduP : Nat) (framed : Bool) (c : CisConfig) : State :=
  stateAfter [(fullEnv, .addLink 0x10 .central), (fullEnv, .hci (.setCig 3 sduC sduP framed 20 20 [⟨1, c⟩]))]

/-- LE Create CIS aborts if the legal maximum SDU size needs more than 15 PDUs. -/
theorem C45_large_sdu_violated : ∃ s, Reachable s ∧ s.cises.map (·.handle) = [0xE00] ∧
    step fullEnv s (.hci (.createCis [(0xE00, 0x10)])) = .error .panic :=
  ⟨oneCis 10000 10000 false { maxSduC := 3766, maxSduP := 100, phyC := 1, phyP := 1 }, stateAfter_reachable _,
    by decide +kernel, rfl⟩

/-- LE Create CIS aborts for a CIS without data in either direction. -/
theorem C45_no_data_violated : ∃ s, Reachable s ∧ s.cises.map (·.handle) = [0xE00] ∧
    step fullEnv s (.hci (.createCis [(0xE00, 0x10)])) = .error .panic :=
  ⟨oneCis 10000 10000 false { maxSduC := 0, maxSduP := 0, phyC := 1, phyP := 1 }, stateAfter_reachable _,
    by decide +kernel, rfl⟩

/-- LE Create CIS aborts if the SDU interval of a direction without data, which is not validated, exceeds 20 bits. -/
theorem C45_interval_violated : ∃ s, Reachable s ∧ s.cises.map (·.handle) = [0xE00] ∧
    step fullEnv s (.hci (.createCis [(0xE00, 0x10)])) = .error .panic :=
  ⟨oneCis 10000 0x100000 true { maxSduC := 100, maxSduP := 0, phyC := 1, phyP := 1 }, stateAfter_reachable _,
    by decide +kernel, rfl⟩

/-- A command that does not decode, such as one with an undefined value of an enumeration, aborts in every state, as
do a control PDU with any other opcode, a malformed one, and a rejection of another procedure. -/
theorem C45_undecodable_violated (env : Env) (s : State) (acl : Nat) :
    step env s (.hci .malformed) = .error .panic ∧ step env s (.llcp acl .other) = .error .panic ∧
    step env s (.llcp acl .malformed) = .error .panic ∧
    ∀ o e, o ≠ opcodeCisReq → step env s (.llcp acl (.rejectExtInd o e)) = .error .panic := by
  refine ⟨rfl, rfl, rfl, fun o e ho => ?_⟩
  simp only [step, runPdu, rejectExtInd]
  rw [if_pos ho]

/-- One host aborts the controller of the other: it disconnects a CIS with the reason 0x29 (Pairing with Unit Key Not
Supported), which the specification allows, and its peer does not know the code. -/
theorem C45_disconnect_reason_violated : ∃ s sP : State, Reachable s ∧ Reachable sP ∧
    (∃ s' outs, step fullEnv s (.hci (.disconnect 0xE00 0x29)) = .ok (s', outs) ∧
      .llcp 0x10 (.terminateInd 1 1 0x29) ∈ outs) ∧
    step fullEnv sP (.llcp 0x20 (.terminateInd 1 1 0x29)) = .error .panic := by
  refine ⟨stateAfter [(fullEnv, .addLink 0x10 .central),
      (fullEnv, .hci (.setCig 1 10000 10000 false 20 20 [⟨1, { maxSduC := 100, maxSduP := 50, phyC := 1, phyP := 1 }⟩])),
      (fullEnv, .hci (.createCis [(0xE00, 0x10)])), (fullEnv, .llcp 0x10 .cisRsp)],
    stateAfter [(fullEnv, .addLink 0x20 .peripheral), (fullEnv, .llcp 0x20 (.cisReq exampleReq)),
      (fullEnv, .hci (.acceptCis 0xE00)), (fullEnv, .llcp 0x20 (.cisInd 10000 10000))],
    stateAfter_reachable _, stateAfter_reachable _, ⟨_, _, rfl, by decide +kernel⟩, rfl⟩

/-- A peer that requests a CIS with an undefined PHY, and completes it when the host has accepted, aborts the
controller. -/
theorem C45_phy_violated : ∃ s : State, Reachable s ∧ s.cises.map (·.state) = [.pendingInd] ∧
    step fullEnv s (.llcp 0x20 (.cisInd 10000 10000)) = .error .panic :=
  ⟨stateAfter [(fullEnv, .addLink 0x20 .peripheral), (fullEnv, .llcp 0x20 (.cisReq { exampleReq with phyC := 0 })),
    (fullEnv, .hci (.acceptCis 0xE00))], stateAfter_reachable _, by decide +kernel, rfl⟩

/-- A peer that completes a CIS with a delay that is shorter than the SDU interval makes the latency underflow. -/
theorem C45_latency_violated : ∃ s : State, Reachable s ∧ s.cises.map (·.state) = [.pendingInd] ∧
    step fullEnv s (.llcp 0x20 (.cisInd 0 0)) = .error .overflow :=
  ⟨stateAfter [(fullEnv, .addLink 0x20 .peripheral),
    (fullEnv, .llcp 0x20 (.cisReq { exampleReq with sduIntervalC := 20000 })),
    (fullEnv, .hci (.acceptCis 0xE00))], stateAfter_reachable _, by decide +kernel, rfl⟩

end Verif.Iso
