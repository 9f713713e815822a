import Verif.Br.TalkLemmas
import Verif.Br.PropsPair
import Verif.Br.PropsFail
/-! # C119 Two devices agree about their voice connection -/
namespace Verif.Br
open Verif.Sco (ConnParams LinkParams)

/-- **C119**, of hosts that are patient: whatever two devices did, in whatever order their packets arrived, when none is on its way both
have nothing with each other, or one asked and the other's host is to answer, or both have one connection with the same parameters.
Without the patience this does not hold, see the examples below; a host may reset, end the link to the other device, and lose it too. -/
theorem C119_agree_partial (x y : Nat) (hx : x ≠ 0) (hy : y ≠ 0) (i j : Info) (p q : Nat) (n : Net)
    (hr : TalkReach PatientNet (Ctl.fresh x i p) (Ctl.fresh y j q) n) (hs : Settled n) : Agree n := by
  obtain ⟨h1, h2, v, w, h3, h4, h5⟩ := talk_reach hx hy hr
  obtain ⟨h6, h7⟩ := hs
  rw [h1] at h6
  rw [h2] at h7
  rw [h6, h7] at h5
  unfold Agree
  rw [h1, h2]
  rcases rel_settled h5 with ⟨rfl, rfl⟩ | ⟨rfl, rfl⟩ | ⟨rfl, rfl⟩ | ⟨l, rfl, rfl⟩
  · exact .inl ⟨h3.talks, h4.talks⟩
  · exact .inr (.inl ⟨h3.talks, h4.talks⟩)
  · exact .inr (.inr (.inl ⟨h3.talks, h4.talks⟩))
  · exact .inr (.inr (.inr ⟨l, h3.talks, h4.talks⟩))

/-! ## Histories -/

instance (s : Ctl) (coming : List Word) (c : Cmd) : Decidable (PatientHost s coming c) := by
  cases c <;> unfold PatientHost <;> infer_instance

instance (n : Net) (now : Nat) (x : NAct) : Decidable (PatientNet n now x) := by
  cases x <;> unfold PatientNet <;> (try unfold InTime) <;> infer_instance

instance (n : Net) : Decidable (Settled n) := by unfold Settled; infer_instance

/-- Whether the hosts are patient in a history. -/
def patientRun (n : Net) : List (Nat × NAct) → Bool
  | [] => true
  | (now, x) :: xs => decide (PatientNet n now x) && (match nstep n now x with
    | none => true
    | some (n', _, _) => patientRun n' xs)

theorem reach_run {a b : Ctl} {n n' : Net} (h0 : TalkReach PatientNet a b n) (xs : List (Nat × NAct)) (hp : patientRun n xs = true) {ea eb : List Ev}
    (h : nrun n xs = some (n', ea, eb)) : TalkReach PatientNet a b n' := by
  induction xs generalizing n ea eb with
  | nil => cases h; exact h0
  | cons x xs ih =>
    obtain ⟨now, x⟩ := x
    simp only [nrun] at h
    simp only [patientRun, Bool.and_eq_true, decide_eq_true_eq] at hp
    split at h
    · cases h
    · rename_i n1 ea1 eb1 h1
      rw [h1] at hp
      rw [Option.map_eq_some_iff] at h
      obtain ⟨⟨n2, ea2, eb2⟩, h2, h3⟩ := h
      cases h3
      exact ih (h0.step hp.1 h1) hp.2 h2

/-- A asks B, which accepts. -/
def call : List (Nat × NAct) :=
  [(2000000000, .hostA (.setupSync 0 voice false)), (2000000001, .arriveB), (2000000002, .hostB (.acceptSync 0xA voice)), (2000000003, .arriveA)]

/-- Both ask at once, and neither gets what it asked for; then B asks again. -/
def glare : List (Nat × NAct) :=
  [(2000000000, .hostA (.setupSync 0 voice false)), (2000000001, .hostB (.setupSync 0 voice false)), (2000000002, .arriveB), (2000000003, .arriveA),
   (2000000004, .arriveA), (2000000005, .arriveB), (2000000006, .hostB (.setupSync 0 voice false)), (2000000007, .arriveA)]

/-- What the two devices of the examples have with each other, and what is on its way. -/
def between (xs : List (Nat × NAct)) : Option (List Conn.ScoState × List Conn.ScoState × List Word × List Word) :=
  (nrun exampleNet xs).map (fun r => ((callsWith r.1.a 0xB).map (·.state), (callsWith r.1.b 0xA).map (·.state), words 0xA r.1.toA, words 0xB r.1.toB))

/-- The hosts are patient in these, a connection is made, and one is offered. -/
example : patientRun exampleNet (courtship ++ call) = true ∧ between (courtship ++ call) = some ([.opened], [.opened], [], []) ∧
    patientRun exampleNet (courtship ++ glare) = true ∧ between (courtship ++ glare) = some ([.sentEsco], [.pending], [], []) := by
  refine ⟨by decide +kernel, by decide +kernel, by decide +kernel, by decide +kernel⟩

/-- In between the two do not agree. -/
example : between (courtship ++ call.take 3) = some ([.pending], [.opened], [.yes ⟨108, 0, 540, 540, 2, true⟩], []) := by
  decide +kernel

/-- Such a history reaches a state as in the theorem. -/
example : ∃ n ea eb, nrun exampleNet (courtship ++ call) = some (n, ea, eb) ∧
    TalkReach PatientNet (Ctl.fresh 0xA exampleInfo 1) (Ctl.fresh 0xB exampleInfo 1) n := by
  have h : (nrun exampleNet (courtship ++ call)).isSome = true := by decide +kernel
  obtain ⟨⟨n, ea, eb⟩, h⟩ := Option.isSome_iff_exists.1 h
  exact ⟨n, ea, eb, h, reach_run .start _ (by decide +kernel) h⟩

/-- Both end the connection at once, and A asks for a new one before B's end arrives. -/
def crossing : List (Nat × NAct) :=
  [(2000000004, .hostA (.disconnect 256 0x13)), (2000000005, .hostB (.disconnect 256 0x13)), (2000000006, .hostA (.setupSync 0 voice false)),
   (2000000007, .arriveB), (2000000008, .arriveA), (2000000009, .arriveB)]

/-- **C119, false in part.** When both hosts end a connection at once, and one of them asks for the next, the end of the old one ends the
new request: nothing is on its way, A has nothing, and B's host is asked about a connection that nobody wants. -/
theorem C119_crossing_violated : ∃ n ea eb, nrun exampleNet (courtship ++ call ++ crossing) = some (n, ea, eb) ∧ Settled n ∧ ¬Agree n := by
  have h : (nrun exampleNet (courtship ++ call ++ crossing)).isSome = true := by decide +kernel
  have hall : ((nrun exampleNet (courtship ++ call ++ crossing)).all (fun r => decide (Settled r.1) && decide (callsWith r.1.a r.1.b.addr = []) &&
      decide (callsWith r.1.b r.1.a.addr ≠ []))) = true := by decide +kernel
  obtain ⟨⟨n, ea, eb⟩, h⟩ := Option.isSome_iff_exists.1 h
  rw [h] at hall
  simp only [Option.all_some, Bool.and_eq_true, decide_eq_true_eq] at hall
  obtain ⟨⟨h1, h2⟩, h3⟩ := hall
  refine ⟨n, ea, eb, h, h1, ?_⟩
  rintro (⟨-, h4⟩ | ⟨⟨c, h4, -⟩, -⟩ | ⟨⟨c, h4, -⟩, -⟩ | ⟨l, ⟨c, h4, -⟩, -⟩)
  · exact h3 h4
  all_goals (rw [h2] at h4; cases h4)

/-- A accepts what it asked for itself. -/
def selfService : List (Nat × NAct) :=
  [(2000000000, .hostA (.setupSync 0 voice false)), (2000000001, .arriveB), (2000000002, .hostA (.acceptSync 0xB voice)), (2000000003, .arriveB)]

/-- **C119, false in part.** A host that accepts its own request has a connection, and so has the other device, whose host was asked and did
not answer. -/
theorem C119_consent_violated : between (courtship ++ selfService) = some ([.opened], [.opened], [], []) ∧
    ∀ x ∈ courtship ++ selfService, ∀ a p, x.2 ≠ .hostB (.acceptSync a p) := by
  refine ⟨by decide +kernel, ?_⟩
  intro x hx a p h
  simp [courtship, selfService] at hx
  rcases hx with rfl | rfl | rfl | rfl | rfl | rfl | rfl | rfl | rfl | rfl | rfl | rfl | rfl | rfl | rfl | rfl | rfl | rfl <;> cases h

end Verif.Br
