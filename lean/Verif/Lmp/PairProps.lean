import Verif.Lmp.ExploreLemmas

/-!
# C34: two devices running the pairing procedures reach the same verdict

Theorems about every fair schedule: every order of ticks, packet arrivals and host commands in which each
kind of event happens again and again. Nothing is assumed about the features of the two devices, their IO
capabilities, out-of-band flags, authentication requirements and the answers of the two users, except
where a hypothesis says so.

Not every authentication ends: `C34_hangs_violated` lists the answers with which a procedure waits for
good, and `C34_concludes_iff` says that these are the only ones.
-/

namespace Verif.Lmp

private theorem no_oob {p q : Params} (h : outOfBand p q = false) : p.oob = .notPresent ∧ q.oob = .notPresent := by
  simpa [outOfBand] using h

theorem authMethod_eq (p q : Params) : authMethod p q =
    if outOfBand p q then .outOfBand
    else if entry p q then .passkeyEntry
    else if protection p q && comparing p.io q.io then .userConfirm
    else .justWork := by
  obtain ⟨i, o, a⟩ := p
  obtain ⟨i', o', a'⟩ := q
  cases h : outOfBand ⟨i, o, a⟩ ⟨i', o', a'⟩
  · obtain ⟨h1, h2⟩ := no_oob h
    simp only at h1 h2
    subst h1 h2
    clear h
    cases a <;> cases a' <;> cases i <;> cases i' <;> rfl
  · rw [if_pos rfl, authMethod, if_pos]
    simpa [outOfBand] using h

private theorem typing_kbd {i r : IoCap} (h : typing i r = true) : i = .keyboardOnly ∨ r = .keyboardOnly := by
  cases i <;> cases r <;> simp_all [typing]

private theorem mid_explores {p q : Params} {ua ub : User} (fa fb : Feats) (curve b : Bool)
    (hoob : p.oob ≠ .notPresent → ua.oob = true)
    (hkbd : bothType p q = true → ua.passkey = true ∧ ub.passkey = true) :
    explore (hosts ua ub)
      (goodIs (pairedI (consent p q ua ub) (keyTypeOf (authenticated p q) curve))
        (pairedR (consent p q ua ub) (keyTypeOf (authenticated p q) curve)))
      300 (midState fa fb (plan p q) curve (lastOf b)) = true := by
  obtain ⟨lk, pin, io, c, ps, o⟩ := ua
  obtain ⟨lk', pin', io', c', ps', o'⟩ := ub
  simp only at hoob hkbd
  cases h1 : outOfBand p q
  · obtain ⟨hp, hq⟩ := no_oob h1
    cases h2 : entry p q
    · -- numeric comparison or just works
      have hc : consent p q ⟨lk, pin, io, c, ps, o⟩ ⟨lk', pin', io', c', ps', o'⟩ = (c && c') := by
        simp [consent, h1, h2]
      cases h3 : protection p q && comparing p.io q.io
      · have hm : authMethod p q = .justWork := by simp [authMethod_eq, h1, h2, h3]
        have ha : authenticated p q = false := by
          simp only [authenticated, entry, h1, Bool.not_false, Bool.true_and, Bool.false_or] at h2 ⊢
          rw [Bool.and_or_distrib_left, h2, h3]; rfl
        have := rest_numeric fa fb true (p.io = .keyboardOnly) (q.io = .keyboardOnly) (p.oob ≠ .notPresent)
          (q.oob ≠ .notPresent) curve b io io' lk pin c ps o lk' pin' c' ps' o'
        rw [hc, ha, plan, hm]
        cases curve <;> exact this
      · have hm : authMethod p q = .userConfirm := by simp [authMethod_eq, h1, h2, h3]
        have ha : authenticated p q = true := by
          simp only [authenticated, h1, Bool.false_or]
          rw [Bool.and_or_distrib_left, h3, Bool.or_true]
        have := rest_numeric fa fb false (p.io = .keyboardOnly) (q.io = .keyboardOnly) (p.oob ≠ .notPresent)
          (q.oob ≠ .notPresent) curve b io io' lk pin c ps o lk' pin' c' ps' o'
        rw [hc, ha, plan, hm]
        cases curve <;> exact this
    · -- passkey entry
      have hm : authMethod p q = .passkeyEntry := by simp [authMethod_eq, h1, h2]
      have h2' := h2
      simp only [entry, h1, Bool.not_false, Bool.true_and, Bool.and_eq_true] at h2'
      have ha : authenticated p q = true := by simp [authenticated, h1, h2'.1, h2'.2]
      rw [ha, plan, hm]
      simp only [consent, h1, h2, bothType] at hkbd ⊢
      by_cases hi : p.io = .keyboardOnly
      · by_cases hr : q.io = .keyboardOnly
        · obtain ⟨rfl, rfl⟩ := hkbd (by simp [hi, hr])
          simp only [hi, hr, decide_true, ne_eq, not_true, decide_false, Bool.or_true, Bool.and_true]
          have := rest_passkey_both fa fb (p.oob ≠ .notPresent) (q.oob ≠ .notPresent) curve b io io'
            lk pin c o lk' pin' c' o'
          cases curve <;> exact this
        · simp only [hi, hr, decide_true, ne_eq, not_true, not_false_eq_true, decide_false, Bool.false_or, Bool.true_or,
            Bool.and_true]
          have := rest_passkey_I fa fb (p.oob ≠ .notPresent) (q.oob ≠ .notPresent) curve b io io'
            lk pin c ps o lk' pin' c' ps' o'
          cases curve <;> exact this
      · have hr : q.io = .keyboardOnly := (typing_kbd h2'.2).resolve_left hi
        simp only [hi, hr, decide_true, ne_eq, not_true, not_false_eq_true, decide_false, Bool.false_or, Bool.true_or,
            Bool.true_and]
        have := rest_passkey_R fa fb (p.oob ≠ .notPresent) (q.oob ≠ .notPresent) curve b io io'
            lk pin c ps o lk' pin' c' ps' o'
        cases curve <;> exact this
  · have hm : authMethod p q = .outOfBand := by simp [authMethod_eq, h1]
    have ha : authenticated p q = true := by simp [authenticated, h1]
    have hc : consent p q ⟨lk, pin, io, c, ps, o⟩ ⟨lk', pin', io', c', ps', o'⟩ = true := by simp [consent, h1]
    have := rest_oob fa fb (p.io = .keyboardOnly) (q.io = .keyboardOnly) (p.oob ≠ .notPresent)
      (q.oob ≠ .notPresent) curve b io io' lk pin c ps o lk' pin' c' ps' o' (by simpa using hoob)
    rw [hc, ha, plan, hm]
    cases curve <;> exact this

/-- **C34, simple pairing.** Both hosts have enabled Secure Simple Pairing and the initiator has no key
for the link yet. Whatever the IO capabilities, out-of-band flags, authentication requirements and answers
are, with the two exceptions in the hypotheses (see `C34_hangs_violated`), on every fair schedule both
procedures finish. If the users consent, both hosts get one successful Simple Pairing Complete and one Link
Key Notification with the same key type, the one that the specification lays down. Otherwise both get one
Simple Pairing Complete with a failure, and no key. -/
theorem C34_simple_pairing_partial {fa fb : Feats} {ua ub : User} {p q : Params}
    (hssp : bothSimplePairing fa fb = true) (hkey : ua.linkKey = false)
    (hp : ua.io = some p) (hq : ub.io = some q)
    (hoob : p.oob ≠ .notPresent → ua.oob = true)
    (hkbd : bothType p q = true → ua.passkey = true ∧ ub.passkey = true)
    {σ : Nat → Act} (fair : Fair σ) :
    EndsWith fa fb ua ub σ
      (pairedI (consent p q ua ub) (keyTypeOf (authenticated p q) (bothSecureConnections fa fb)))
      (pairedR (consent p q ua ub) (keyTypeOf (authenticated p q) (bothSecureConnections fa fb))) := by
  have mid := fun cur b => mid_explores fa fb cur b hoob hkbd
  obtain ⟨⟨s, sc, x⟩, w1, w2⟩ := fa
  obtain ⟨⟨s', sc', y⟩, w3, w4⟩ := fb
  obtain ⟨lk, pin, io, c, ps, o⟩ := ua
  obtain ⟨lk', pin', io', c', ps', o'⟩ := ub
  simp only [bothSimplePairing, Bool.and_eq_true] at hssp
  obtain ⟨rfl, rfl⟩ := hssp
  simp only at hkey hp hq
  subst hkey hp hq
  cases sc
  · refine ends_of_explore (k := 308) ?_ fair
    rw [prefix_no_sc]
    exact mid false false
  · refine ends_of_explore (k := 310) ?_ fair
    rw [prefix_sc]
    simp only [bothSecureConnections, Bool.true_and]
    exact mid sc' true

/-- **C34, a stored key.** The initiator's host has a link key. No pairing takes place and no key is
made, on any fair schedule; the authentication succeeds if and only if the responder's host has a key as
well. (Whether the two keys are the same is not looked at by the code.) -/
theorem C34_stored_key (fa fb : Feats) {ua ub : User} (hkey : ua.linkKey = true) {σ : Nat → Act} (fair : Fair σ) :
    EndsWith fa fb ua ub σ ⟨[], [], [if ub.linkKey then .success else .pinOrKeyMissing]⟩ ⟨[], [], []⟩ := by
  obtain ⟨lk, pin, io, c, ps, o⟩ := ua
  obtain ⟨lk', pin', io', c', ps', o'⟩ := ub
  simp only at hkey
  subst hkey
  exact ends_of_explore (run_key fa fb io io' pin c ps o lk' pin' c' ps' o') fair

/-- **C34, the initiator refuses.** The initiator's host answers the IO capability request negatively:
its host gets the failure; the responder has not been told of anything, and its host sees nothing. -/
theorem C34_initiator_refuses {fa fb : Feats} {ua : User} (ub : User)
    (hssp : bothSimplePairing fa fb = true) (hkey : ua.linkKey = false) (hio : ua.io = none)
    {σ : Nat → Act} (fair : Fair σ) :
    EndsWith fa fb ua ub σ ⟨[.authenticationFailure], [], [.authenticationFailure]⟩ ⟨[], [], []⟩ := by
  obtain ⟨⟨s, sc, x⟩, w1, w2⟩ := fa
  obtain ⟨⟨s', sc', y⟩, w3, w4⟩ := fb
  obtain ⟨lk, pin, io, c, ps, o⟩ := ua
  obtain ⟨lk', pin', io', c', ps', o'⟩ := ub
  simp only [bothSimplePairing, Bool.and_eq_true] at hssp
  obtain ⟨rfl, rfl⟩ := hssp
  simp only at hkey hio
  subst hkey hio
  exact ends_of_explore (run_refused x y sc sc' w1 w2 w3 w4 io' pin c ps o lk' pin' c' ps' o') fair

/-- **C34, legacy pairing.** One of the hosts has not enabled Secure Simple Pairing, and both users give a
PIN: both hosts get a combination key. (The code does not compare the PINs.) -/
theorem C34_legacy_partial {fa fb : Feats} {ua ub : User}
    (hssp : bothSimplePairing fa fb = false) (hkey : ua.linkKey = false) (hpa : ua.pin = true) (hpb : ub.pin = true)
    {σ : Nat → Act} (fair : Fair σ) :
    EndsWith fa fb ua ub σ ⟨[], [.combination], [.success]⟩ ⟨[], [.combination], []⟩ := by
  obtain ⟨⟨s, sc, x⟩, w1, w2⟩ := fa
  obtain ⟨⟨s', sc', y⟩, w3, w4⟩ := fb
  obtain ⟨lk, pin, io, c, ps, o⟩ := ua
  obtain ⟨lk', pin', io', c', ps', o'⟩ := ub
  simp only at hkey hpa hpb
  subst hkey hpa hpb
  cases s
  · exact ends_of_explore (run_legacy_local x sc w1 w2 _ io io' c ps o lk' c' ps' o') fair
  · obtain rfl : s' = false := by simpa [bothSimplePairing] using hssp
    exact ends_of_explore (run_legacy_remote x y sc sc' w1 w2 w3 w4 io io' c ps o lk' c' ps' o') fair

/-- **C34, the rest of the cases: the code violates the property.** The answers with which an
authentication does not end, on any fair schedule: a procedure of one of the devices waits for good, for
something that will not come. They are: a negative PIN reply on either side; a negative IO capability reply
on the responder's side; a negative reply of the initiator's host to the request for out-of-band data; a
negative passkey reply on either side when both users type the passkey. -/
theorem C34_hangs_violated {fa fb : Feats} {ua ub : User} (h : ¬ Concludes fa fb ua ub)
    {σ : Nat → Act} (fair : Fair σ) : Hangs fa fb ua ub σ := by
  obtain ⟨⟨s, sc, x⟩, w1, w2⟩ := fa
  obtain ⟨⟨s', sc', y⟩, w3, w4⟩ := fb
  obtain ⟨lk, pin, io, c, ps, o⟩ := ua
  obtain ⟨lk', pin', io', c', ps', o'⟩ := ub
  cases lk with
  | true => exact absurd (Or.inl rfl) h
  | false => ?_
  cases hssp : bothSimplePairing ⟨⟨s, sc, x⟩, w1, w2⟩ ⟨⟨s', sc', y⟩, w3, w4⟩ with
  | false =>
    have hpin : (pin && pin') = false := by
      cases hp : pin && pin' with
      | false => rfl
      | true =>
        simp only [Bool.and_eq_true] at hp
        exact absurd (Or.inr (Or.inl ⟨hssp, hp.1, hp.2⟩)) h
    cases s
    · exact hangs_of_explore (stuck_legacy_local x sc w1 w2 _ io io' pin pin' c ps o lk' c' ps' o' hpin) fair
    · obtain rfl : s' = false := by simpa [bothSimplePairing] using hssp
      exact hangs_of_explore (stuck_legacy_remote x y sc sc' w1 w2 w3 w4 io io' pin pin' c ps o lk' c' ps' o' hpin) fair
  | true =>
    have hs := hssp
    simp only [bothSimplePairing, Bool.and_eq_true] at hs
    obtain ⟨rfl, rfl⟩ := hs
    cases io with
    | none => exact absurd (Or.inr (Or.inr (Or.inl ⟨hssp, rfl⟩))) h
    | some p =>
    cases io' with
    | none => exact hangs_of_explore (stuck_io x y sc sc' w1 w2 w3 w4 p pin c ps o lk' pin' c' ps' o') fair
    | some q =>
    have mid : ∀ curve b, explore (hosts ⟨false, pin, some p, c, ps, o⟩ ⟨lk', pin', some q, c', ps', o'⟩) stuck 300
        (midState ⟨⟨true, sc, x⟩, w1, w2⟩ ⟨⟨true, sc', y⟩, w3, w4⟩ (plan p q) curve (lastOf b)) = true := by
      intro curve b
      by_cases ho : p.oob ≠ .notPresent ∧ o = false
      · obtain ⟨h1, rfl⟩ := ho
        have hm : authMethod p q = .outOfBand := by
          have : outOfBand p q = true := by simp [outOfBand, h1]
          simp [authMethod_eq, this]
        rw [plan, hm]
        simp only [h1, ne_eq, not_false_eq_true, decide_true]
        exact stuck_oob _ _ _ _ _ _ _ _ _ _ _ _ _ _ _ _ _ _
      · by_cases hk : bothType p q = true ∧ (ps && ps') = false
        · obtain ⟨h1, h2⟩ := hk
          simp only [bothType, Bool.and_eq_true, decide_eq_true_eq] at h1
          obtain ⟨⟨h1, h3⟩, h4⟩ := h1
          have hm : authMethod p q = .passkeyEntry := by
            have : outOfBand p q = false := by
              simp only [entry, Bool.and_eq_true, Bool.not_eq_true'] at h1
              exact h1.1.1
            simp [authMethod_eq, this, h1]
          rw [plan, hm]
          simp only [h3, h4, decide_true]
          exact stuck_passkey _ _ _ _ _ _ _ _ _ _ _ _ _ _ _ _ _ _ h2
        · refine absurd (Or.inr (Or.inr (Or.inr ⟨hssp, p, q, rfl, rfl, fun h1 => ?_, fun h1 => ?_⟩))) h
          · cases o with
            | true => rfl
            | false => exact absurd ⟨h1, rfl⟩ ho
          · cases h2 : ps && ps' with
            | true => simpa using h2
            | false => exact absurd ⟨h1, h2⟩ hk
    cases sc
    · refine hangs_of_explore (k := 308) ?_ fair
      rw [prefix_no_sc]
      exact mid false false
    · refine hangs_of_explore (k := 310) ?_ fair
      rw [prefix_sc]
      exact mid sc' true

private theorem ends_not_hangs {fa fb : Feats} {ua ub : User} {σ : Nat → Act} {va vb : Verdict}
    (h1 : EndsWith fa fb ua ub σ va vb) (h2 : Hangs fa fb ua ub σ) : False := by
  obtain ⟨n, h1⟩ := h1
  obtain ⟨n', s, h2, h3⟩ := h2
  obtain ⟨s', hr, ha, hb, -⟩ := h1 (n + n') (Nat.le_add_right _ _)
  rw [h2 (n + n') (Nat.le_add_left _ _)] at hr
  cases hr
  exact h3 ⟨ha, hb⟩

/-- **C34, in short.** On every fair schedule, an authentication comes to an end exactly with the answers
of `Concludes`. -/
theorem C34_concludes_iff (fa fb : Feats) (ua ub : User) {σ : Nat → Act} (fair : Fair σ) :
    (∃ va vb, EndsWith fa fb ua ub σ va vb) ↔ Concludes fa fb ua ub := by
  constructor
  · rintro ⟨va, vb, h⟩
    refine Classical.byContradiction (fun hc => ends_not_hangs h (C34_hangs_violated hc fair))
  · intro h
    cases hk : ua.linkKey with
    | true => exact ⟨_, _, C34_stored_key fa fb hk fair⟩
    | false =>
      rcases h with h | ⟨h, h1, h2⟩ | ⟨h, h1⟩ | ⟨h, p, q, h1, h2, h3, h4⟩
      · rw [hk] at h; simp at h
      · exact ⟨_, _, C34_legacy_partial h hk h1 h2 fair⟩
      · exact ⟨_, _, C34_initiator_refuses ub h hk h1 fair⟩
      · exact ⟨_, _, C34_simple_pairing_partial h hk h1 h2 h3 h4 fair⟩

/-- **C34, agreement.** When it comes to an end and the initiator's host did not refuse to pair before
the responder heard of it, the two hosts have got the same Simple Pairing Complete events and the same
types of link keys. -/
theorem C34_agreement_partial {fa fb : Feats} {ua ub : User} (h : Concludes fa fb ua ub)
    (hio : ua.io = none → ua.linkKey = true ∨ bothSimplePairing fa fb = false)
    {σ : Nat → Act} (fair : Fair σ) :
    ∃ va vb, EndsWith fa fb ua ub σ va vb ∧ va.pairings = vb.pairings ∧ va.keys = vb.keys := by
  cases hk : ua.linkKey with
  | true => exact ⟨_, _, C34_stored_key fa fb hk fair, rfl, rfl⟩
  | false =>
    rcases h with h | ⟨h, h1, h2⟩ | ⟨h, h1⟩ | ⟨h, p, q, h1, h2, h3, h4⟩
    · rw [hk] at h; simp at h
    · exact ⟨_, _, C34_legacy_partial h hk h1 h2 fair, rfl, rfl⟩
    · rcases hio h1 with h' | h'
      · rw [hk] at h'; simp at h'
      · rw [h] at h'; simp at h'
    · refine ⟨_, _, C34_simple_pairing_partial h hk h1 h2 h3 h4 fair, ?_, ?_⟩ <;>
        cases consent p q ua ub <;> rfl

/-! ## The hypotheses are met -/

/-- A fair schedule: the six kinds of events in turn. -/
def roundRobin (n : Nat) : Act :=
  match n % 6 with
  | 0 => .tickA | 1 => .arriveB | 2 => .tickB | 3 => .arriveA | 4 => .sendA | _ => .sendB

theorem roundRobin_fair : Fair roundRobin := by
  intro x n
  cases x
  · exact ⟨6 * n, by omega, by simp [roundRobin]⟩
  · exact ⟨6 * n + 2, by omega, by simp [roundRobin, Nat.add_mod]⟩
  · exact ⟨6 * n + 3, by omega, by simp [roundRobin, Nat.add_mod]⟩
  · exact ⟨6 * n + 1, by omega, by simp [roundRobin, Nat.add_mod]⟩
  · exact ⟨6 * n + 4, by omega, by simp [roundRobin, Nat.add_mod]⟩
  · exact ⟨6 * n + 5, by omega, by simp [roundRobin, Nat.add_mod]⟩

def exFeats (ssp sc : Bool) : Feats := ⟨⟨ssp, sc, false⟩, ⟨false, false, true⟩, ⟨false, false, false⟩⟩
def exUser (io : Option Params) : User := ⟨false, true, io, true, true, true⟩

/-- A phone and a keyboard: the passkey is typed on the responder's side. -/
example : EndsWith (exFeats true true) (exFeats true true)
    (exUser (some ⟨.displayYesNo, .notPresent, .generalMitm⟩)) (exUser (some ⟨.keyboardOnly, .notPresent, .general⟩))
    roundRobin ⟨[.success], [.authenticatedP256], [.success]⟩ ⟨[.success], [.authenticatedP256], []⟩ :=
  C34_simple_pairing_partial (p := ⟨.displayYesNo, .notPresent, .generalMitm⟩) (q := ⟨.keyboardOnly, .notPresent, .general⟩)
    rfl rfl rfl rfl (by decide) (by decide) roundRobin_fair

/-- Numeric comparison: the responder's user says no. -/
example : EndsWith (exFeats true true) (exFeats true false)
    (exUser (some ⟨.displayYesNo, .notPresent, .generalMitm⟩))
    { exUser (some ⟨.displayYesNo, .notPresent, .general⟩) with confirm := false }
    roundRobin ⟨[.authenticationFailure], [], [.authenticationFailure]⟩ ⟨[.authenticationFailure], [], []⟩ :=
  C34_simple_pairing_partial (p := ⟨.displayYesNo, .notPresent, .generalMitm⟩) (q := ⟨.displayYesNo, .notPresent, .general⟩)
    rfl rfl rfl rfl (by decide) (by decide) roundRobin_fair

/-- The user of the responder has no PIN to give. -/
example : Hangs (exFeats false false) (exFeats true true) (exUser none) { exUser none with pin := false } roundRobin :=
  C34_hangs_violated (by simp [Concludes, exUser, bothSimplePairing, exFeats]) roundRobin_fair

/-- The responder's host refuses to pair. -/
example : Hangs (exFeats true false) (exFeats true true) (exUser (some ⟨.displayYesNo, .notPresent, .generalMitm⟩))
    (exUser none) roundRobin :=
  C34_hangs_violated (by simp [Concludes, exUser, bothSimplePairing, exFeats]) roundRobin_fair

/-- Two keyboards, and the initiator's user gives up. -/
example : Hangs (exFeats true false) (exFeats true true)
    { exUser (some ⟨.keyboardOnly, .notPresent, .generalMitm⟩) with passkey := false }
    (exUser (some ⟨.keyboardOnly, .notPresent, .generalMitm⟩)) roundRobin :=
  C34_hangs_violated (by simp [Concludes, exUser, bothSimplePairing, exFeats, bothType, entry, outOfBand, protection, typing, asksProtection])
    roundRobin_fair

end Verif.Lmp
