import Verif.Lmp.PairProps

/-!
# C57, C58: encryption, and requests from both sides

The same two devices as for C34, with other commands of the two hosts to begin with.
-/

namespace Verif.Lmp

/-- A connected pair of devices whose hosts are about to send these commands. -/
def Duo.startWith (fa fb : Feats) (ca cb : List Kind) : Duo :=
  ⟨⟨freshLink fa, [], ca.map (fun k => ⟨k, 1, noParams⟩), []⟩, ⟨freshLink fb, [], cb.map (fun k => ⟨k, 1, noParams⟩), []⟩⟩

/-- Encryption Change events: `true` is AES-CCM. -/
def Ev.encryption? : Ev → Option Bool | .encryptionChange aes => some aes | _ => none
def Dev.encryptions (d : Dev) : List Bool := d.log.filterMap Ev.encryption?

/-- From some point of the schedule on, the two devices have come to a rest, and `C` holds. -/
def Settles (ua ub : User) (s0 : Duo) (σ : Nat → Act) (C : Duo → Prop) : Prop :=
  ∃ n, ∀ m, n ≤ m → ∃ s, s0.run ua ub ((List.range m).map σ) = some s ∧ s.a.AtRest ∧ s.b.AtRest ∧ C s

/-- Both hosts and both controllers support Secure Connections. -/
def aesOnBoth (fa fb : Feats) : Bool := fa.page1.b3 && fb.page1.b3 && fa.page2.b8 && fb.page2.b8

/-! ## Explorations -/

private def startsM (fa fb : Feats) (ca cb : List Kind) : MSys :=
  ⟨⟨procedures fa, ca.map (fun k => ⟨k, 1, noParams⟩), [], 0, []⟩, ⟨procedures fb, cb.map (fun k => ⟨k, 1, noParams⟩), [], 0, []⟩⟩

private def quietAnd (c : MSys → Bool) (s : MSys) : Bool := s.a.quiet && s.b.quiet && c s

private theorem settles_of_explore {fa fb : Feats} {ca cb : List Kind} {ua ub : User} {c : MSys → Bool} {C : Duo → Prop}
    {k : Nat} (h : explore (hosts ua ub) (quietAnd c) k (startsM fa fb ca cb) = true)
    (hc : ∀ s x, AbsDev s.a x.a → AbsDev s.b x.b → c x = true → C s) {σ : Nat → Act} (fair : Fair σ) :
    Settles ua ub (Duo.startWith fa fb ca cb) σ C := by
  have rel : Rel ua ub (quietAnd c) k (Duo.startWith fa fb ca cb) (startsM fa fb ca cb) :=
    ⟨h, ⟨rfl, rfl, rfl, rfl, rfl⟩, ⟨rfl, rfl, rfl, rfl, rfl⟩⟩
  obtain ⟨n, s, x, k', hat, hrel, hd⟩ := fair_dead (s0 := Duo.startWith fa fb ca cb) fair k _ 0 _ _ rfl rel rfl
  have hg := explore_stuck hrel.ok hd.moves
  simp only [quietAnd, Bool.and_eq_true] at hg
  refine ⟨n, fun m hm => ⟨s, ?_, atRest_of hrel.a hd.wireA hg.1.1, atRest_of hrel.b hd.wireB hg.1.2, hc s x hrel.a hrel.b hg.2⟩⟩
  have := dead_stays hat hd (m - n)
  rwa [Nat.add_sub_cancel' hm] at this

private theorem encryptions_of {d : Dev} {m : MSide} (h : AbsDev d m) : d.encryptions = m.log.filterMap Ev.encryption? := by
  unfold Dev.encryptions
  rw [h.log, filterMap_verdict Ev.encryption?]
  intro e he
  cases e <;> first | rfl | (simp [Ev.encryption?] at he)

private def encIs (v : Bool) (s : MSys) : Bool :=
  decide (s.a.log.filterMap Ev.encryption? = [v]) && decide (s.b.log.filterMap Ev.encryption? = [v])

private theorem enc_explores (s1 s2 s3 s4 x1 x2 x3 x4 y1 y2 y3 y4 : Bool) (w w' : Word) (p q : Option Params)
    (lk pin c ps o lk' pin' c' ps' o' : Bool) :
    explore (hosts ⟨lk, pin, p, c, ps, o⟩ ⟨lk', pin', q, c', ps', o'⟩) (quietAnd (encIs (s1 && s3 && s2 && s4))) 60
      (startsM ⟨⟨x1, s1, x2⟩, ⟨x3, x4, s2⟩, w⟩ ⟨⟨y1, s3, y2⟩, ⟨y3, y4, s4⟩, w'⟩ [.setConnectionEncryption] []) = true := by
  cases s1 <;> cases s2 <;> cases s3 <;> cases s4 <;> kernel_rfl

/-- **C57.** A host asks for encryption of a link. Whatever the features of the two devices are, on every
fair schedule both procedures finish, and both hosts get exactly one Encryption Change event with the same
cipher: AES-CCM if and only if both hosts and both controllers support Secure Connections. -/
theorem C57_encryption_partial (fa fb : Feats) (ua ub : User) {σ : Nat → Act} (fair : Fair σ) :
    Settles ua ub (.startWith fa fb [.setConnectionEncryption] []) σ
      (fun s => s.a.encryptions = [aesOnBoth fa fb] ∧ s.b.encryptions = [aesOnBoth fa fb]) := by
  obtain ⟨⟨x1, s1, x2⟩, ⟨x3, x4, s2⟩, w⟩ := fa
  obtain ⟨⟨y1, s3, y2⟩, ⟨y3, y4, s4⟩, w'⟩ := fb
  obtain ⟨lk, pin, p, c, ps, o⟩ := ua
  obtain ⟨lk', pin', q, c', ps', o'⟩ := ub
  refine settles_of_explore (enc_explores s1 s2 s3 s4 x1 x2 x3 x4 y1 y2 y3 y4 w w' p q lk pin c ps o lk' pin' c' ps' o') ?_ fair
  intro s x ha hb h
  simp only [encIs, Bool.and_eq_true, decide_eq_true_eq] at h
  exact ⟨by rw [encryptions_of ha]; exact h.1, by rw [encryptions_of hb]; exact h.2⟩

/-- Both devices in step: commands, ticks, arrivals. -/
def lockstep (n : Nat) : Act :=
  match n % 6 with
  | 0 => .sendA | 1 => .sendB | 2 => .tickA | 3 => .tickB | 4 => .arriveA | _ => .arriveB

theorem lockstep_fair : Fair lockstep := by
  intro x n
  cases x
  · exact ⟨6 * n + 2, by omega, by simp [lockstep, Nat.add_mod]⟩
  · exact ⟨6 * n + 3, by omega, by simp [lockstep, Nat.add_mod]⟩
  · exact ⟨6 * n + 4, by omega, by simp [lockstep, Nat.add_mod]⟩
  · exact ⟨6 * n + 5, by omega, by simp [lockstep, Nat.add_mod]⟩
  · exact ⟨6 * n, by omega, by simp [lockstep]⟩
  · exact ⟨6 * n + 1, by omega, by simp [lockstep, Nat.add_mod]⟩

/-- A device at the end of a schedule, as far as it can be computed. -/
structure Outcome where
  encryptions : List Bool
  pairings : List Status
  auths : List Status
  busy : List Bool
  queue : List Lmp
  deriving DecidableEq, Repr

def Dev.outcome (d : Dev) : Outcome :=
  ⟨d.encryptions, d.pairings, d.auths, (d.link.procs.getD []).map Proc.busy, d.link.queue⟩

def outcomeOf (ua ub : User) (s0 : Duo) (acts : List Act) : Option (Outcome × Outcome) :=
  (s0.run ua ub acts).map (fun s => (s.a.outcome, s.b.outcome))

private def idle5 : List Bool := [false, false, false, false, false]

/-- **C57 is violated when both hosts ask at once.** Two devices that support Secure Connections
throughout. Each runs two encryption procedures, and each procedure takes the next features response,
whichever page it is about: page 1 for page 2. Both hosts are told that the link is encrypted with E0. -/
theorem C57_both_hosts_violated :
    aesOnBoth (exFeats true true) (exFeats true true) = true ∧
    outcomeOf (exUser none) (exUser none)
      (.startWith (exFeats true true) (exFeats true true) [.setConnectionEncryption] [.setConnectionEncryption])
      ((List.range 120).map lockstep) =
      some (⟨[false, false], [], [], idle5, []⟩, ⟨[false, false], [], [], idle5, []⟩) := by
  decide +kernel

/-! ## C58 -/

private def authIs (v v' : Status) (s : MSys) : Bool :=
  decide (s.a.log.filterMap Ev.auth? = [v]) && decide (s.b.log.filterMap Ev.auth? = [v'])

private theorem auths_of {d : Dev} {m : MSide} (h : AbsDev d m) : d.auths = m.log.filterMap Ev.auth? := by
  unfold Dev.auths
  rw [h.log, filterMap_verdict Ev.auth?]
  intro e he
  cases e <;> first | rfl | (simp [Ev.auth?] at he)

set_option maxRecDepth 20000 in
private theorem auth_explores (fa fb : Feats) (p q : Option Params) (pin c ps o pin' c' ps' o' : Bool) :
    explore (hosts ⟨true, pin, p, c, ps, o⟩ ⟨true, pin', q, c', ps', o'⟩) (quietAnd (authIs .success .success)) 60
      (startsM fa fb [.authenticationRequested] [.authenticationRequested]) = true := by
  kernel_rfl

/-- **C58, with keys.** Both hosts ask for authentication at about the same time and both have a key: on
every fair schedule both procedures finish and both hosts get one Authentication Complete with success. -/
theorem C58_stored_keys_partial (fa fb : Feats) {ua ub : User} (ha : ua.linkKey = true) (hb : ub.linkKey = true)
    {σ : Nat → Act} (fair : Fair σ) :
    Settles ua ub (.startWith fa fb [.authenticationRequested] [.authenticationRequested]) σ
      (fun s => s.a.auths = [.success] ∧ s.b.auths = [.success]) := by
  obtain ⟨lk, pin, p, c, ps, o⟩ := ua
  obtain ⟨lk', pin', q, c', ps', o'⟩ := ub
  simp only at ha hb
  subst ha hb
  refine settles_of_explore (auth_explores fa fb p q pin c ps o pin' c' ps' o') ?_ fair
  intro s x ha hb h
  simp only [authIs, Bool.and_eq_true, decide_eq_true_eq] at h
  exact ⟨by rw [auths_of ha]; exact h.1, by rw [auths_of hb]; exact h.2⟩

private def stuckAt (q : Lmp) : Outcome := ⟨[], [], [], [true, true, false, false, false], [q]⟩

private def Dev.abs (d : Dev) : MSide :=
  ⟨d.link.procs.getD [], d.link.slot.toList ++ d.host, d.link.queue ++ d.wire, 0, d.log.filter Ev.verdict⟩

/-- Nothing is on the way and no procedure can move. -/
private def Duo.frozen (s : Duo) : Bool :=
  s.a.wire.isEmpty && s.b.wire.isEmpty && s.a.host.isEmpty && s.b.host.isEmpty &&
  s.a.link.procs.isSome && s.b.link.procs.isSome &&
  decide ((s.a.link.procs.getD []).length = 5) && decide ((s.b.link.procs.getD []).length = 5) &&
  (MSys.moves ⟨s.a.abs, s.b.abs⟩).isEmpty

private theorem frozen_stays {ua ub : User} {s0 s : Duo} {σ : Nat → Act} {n : Nat}
    (h : s0.run ua ub ((List.range n).map σ) = some s) (hf : s.frozen = true) :
    ∀ m, n ≤ m → s0.run ua ub ((List.range m).map σ) = some s := by
  simp only [Duo.frozen, Bool.and_eq_true, List.isEmpty_iff, decide_eq_true_eq] at hf
  obtain ⟨⟨⟨⟨⟨⟨⟨⟨h1, h2⟩, h3⟩, h4⟩, h5⟩, h6⟩, h7⟩, h8⟩, h9⟩ := hf
  have abs : ∀ d : Dev, d.link.procs.isSome = true → (d.link.procs.getD []).length = 5 → AbsDev d d.abs := by
    intro d hd hl
    obtain ⟨ps, hps⟩ := Option.isSome_iff_exists.1 hd
    exact ⟨by simp [Dev.abs, hps], hl, rfl, rfl, rfl⟩
  have rel : Rel ua ub (fun _ => true) 1 s ⟨s.a.abs, s.b.abs⟩ := by
    refine ⟨?_, abs _ h5 h7, abs _ h6 h8⟩
    simp only [explore, h9]
  rcases progress rel with ⟨x, s', k', m', -, hrel, hlt⟩ | hd
  · rcases hlt with hlt | ⟨-, hlt⟩
    · have : k' = 0 := by omega
      subst this
      have := hrel.ok
      simp [explore] at this
    · simp [Duo.rest, h1, h2, h3, h4] at hlt
  · intro m hm
    have := dead_stays (s0 := s0) h hd (m - n)
    rwa [Nat.add_sub_cancel' hm] at this

private theorem stays_of {ua ub : User} {s0 : Duo} {σ : Nat → Act} {n : Nat} {oa ob : Outcome}
    (h : (s0.run ua ub ((List.range n).map σ)).map (fun s => (s.frozen, s.a.outcome, s.b.outcome)) = some (true, oa, ob)) :
    ∃ s, (∀ m, n ≤ m → s0.run ua ub ((List.range m).map σ) = some s) ∧ s.a.outcome = oa ∧ s.b.outcome = ob := by
  cases hr : s0.run ua ub ((List.range n).map σ) with
  | none => rw [hr] at h; cases h
  | some s =>
    rw [hr] at h
    simp only [Option.map_some, Option.some.injEq, Prod.mk.injEq] at h
    exact ⟨s, frozen_stays hr h.1, h.2.1, h.2.2⟩

/-- **C58 is violated without keys.** Two devices whose users consent to everything; both hosts ask for
authentication at once, on the fair schedule `lockstep`. With legacy pairing both devices end up for good
with two procedures that wait while a challenge of the peer lies in the queue; with simple pairing, while a
DHKey check lies there. Neither host ever gets an Authentication Complete. -/
theorem C58_both_pair_violated :
    (∃ s, (∀ m, 120 ≤ m → (Duo.startWith (exFeats false false) (exFeats false false) [.authenticationRequested]
        [.authenticationRequested]).run (exUser none) (exUser none) ((List.range m).map lockstep) = some s) ∧
      s.a.outcome = stuckAt .auRand ∧ s.b.outcome = stuckAt .auRand) ∧
    (∃ s, (∀ m, 300 ≤ m → (Duo.startWith (exFeats true true) (exFeats true true) [.authenticationRequested]
        [.authenticationRequested]).run (exUser (some ⟨.displayYesNo, .notPresent, .generalMitm⟩))
          (exUser (some ⟨.displayYesNo, .notPresent, .generalMitm⟩)) ((List.range m).map lockstep) = some s) ∧
      s.a.outcome = stuckAt .dhkeyCheck ∧ s.b.outcome = stuckAt .dhkeyCheck) := by
  constructor
  · exact stays_of (by decide +kernel)
  · exact stays_of (by decide +kernel)

end Verif.Lmp
