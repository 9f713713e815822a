import Verif.Lmp.Pair

/-!
# What pairing should come to

The outcome of an authentication between two devices, in terms of what the two hosts and users answer.
-/

namespace Verif.Lmp

/-- Both hosts have enabled Secure Simple Pairing. -/
def bothSimplePairing (fa fb : Feats) : Bool := fa.page1.b0 && fb.page1.b0

/-- Both hosts have enabled Secure Connections. -/
def bothSecureConnections (fa fb : Feats) : Bool := fa.page1.b3 && fb.page1.b3

/-- Out-of-band data is on hand on one of the sides. -/
def outOfBand (p q : Params) : Bool := p.oob ≠ .notPresent || q.oob ≠ .notPresent

/-- The requirements that ask for protection against a man in the middle (Bluetooth Core, Vol 4, Part E,
7.1.29). -/
def asksProtection : AuthReq → Bool
  | .noBondingMitm | .dedicatedMitm | .generalMitm => true
  | .noBonding | .dedicated | .general => false

/-- One of the sides asks for protection against a man in the middle. -/
def protection (p q : Params) : Bool := asksProtection p.auth || asksProtection q.auth

/-- The IO capabilities let one user type a number the other device shows (or both type it): Bluetooth
Core, Vol 3, Part C, table 5.7. -/
def typing : IoCap → IoCap → Bool
  | .keyboardOnly, .displayOnly | .keyboardOnly, .displayYesNo | .keyboardOnly, .keyboardOnly => true
  | .displayOnly, .keyboardOnly | .displayYesNo, .keyboardOnly => true
  | _, _ => false

/-- The IO capabilities let both users compare a number: the same table. -/
def comparing : IoCap → IoCap → Bool
  | .displayYesNo, .displayYesNo => true
  | _, _ => false

/-- A number is typed on one of the sides. -/
def entry (p q : Params) : Bool := !outOfBand p q && protection p q && typing p.io q.io

/-- Is the link key an authenticated one? -/
def authenticated (p q : Params) : Bool :=
  outOfBand p q || (protection p q && (typing p.io q.io || comparing p.io q.io))

/-- The type of the link key (Bluetooth Core, Vol 3, Part C, 5.2.2.6). -/
def keyTypeOf (auth p256 : Bool) : KeyType :=
  match auth, p256 with
  | true, true => .authenticatedP256
  | true, false => .authenticatedP192
  | false, true => .unauthenticatedP256
  | false, false => .unauthenticatedP192

/-- The users who are asked say yes. With out-of-band data nobody is asked anything but the data. -/
def consent (p q : Params) (ua ub : User) : Bool :=
  if outOfBand p q then true
  else if entry p q then (p.io ≠ .keyboardOnly || ua.passkey) && (q.io ≠ .keyboardOnly || ub.passkey)
  else ua.confirm && ub.confirm

/-- What a host sees of an authentication. -/
structure Verdict where
  pairings : List Status
  keys : List KeyType
  auths : List Status
  deriving DecidableEq, Repr

def Dev.verdict (d : Dev) : Verdict := ⟨d.pairings, d.keys, d.auths⟩

/-- What the initiator's host sees of simple pairing. -/
def pairedI (ok : Bool) (t : KeyType) : Verdict :=
  if ok then ⟨[.success], [t], [.success]⟩ else ⟨[.authenticationFailure], [], [.authenticationFailure]⟩

/-- What the responder's host sees of simple pairing. -/
def pairedR (ok : Bool) (t : KeyType) : Verdict :=
  if ok then ⟨[.success], [t], []⟩ else ⟨[.authenticationFailure], [], []⟩

def Dev.AtRest (d : Dev) : Prop := d.Idle ∧ d.Finished

/-- Each of the six kinds of events happens again and again. -/
def Fair (σ : Nat → Act) : Prop := ∀ x n, ∃ m, n ≤ m ∧ σ m = x

/-- From some point of the schedule on, the two devices have come to a rest, without a panic, with these
verdicts. -/
def EndsWith (fa fb : Feats) (ua ub : User) (σ : Nat → Act) (va vb : Verdict) : Prop :=
  ∃ n, ∀ m, n ≤ m → ∃ s, (Duo.start fa fb).run ua ub ((List.range m).map σ) = some s ∧
    s.a.AtRest ∧ s.b.AtRest ∧ s.a.verdict = va ∧ s.b.verdict = vb

/-- From some point of the schedule on, nothing moves any more although one of the devices is not at rest:
a procedure waits for good. -/
def Hangs (fa fb : Feats) (ua ub : User) (σ : Nat → Act) : Prop :=
  ∃ n s, (∀ m, n ≤ m → (Duo.start fa fb).run ua ub ((List.range m).map σ) = some s) ∧ ¬(s.a.AtRest ∧ s.b.AtRest)

/-- Both users type the number. -/
def bothType (p q : Params) : Bool := entry p q && decide (p.io = .keyboardOnly) && decide (q.io = .keyboardOnly)

/-- The answers with which an authentication comes to an end. -/
def Concludes (fa fb : Feats) (ua ub : User) : Prop :=
  ua.linkKey = true ∨
  (bothSimplePairing fa fb = false ∧ ua.pin = true ∧ ub.pin = true) ∨
  (bothSimplePairing fa fb = true ∧ ua.io = none) ∨
  (bothSimplePairing fa fb = true ∧ ∃ p q, ua.io = some p ∧ ub.io = some q ∧
    (p.oob ≠ .notPresent → ua.oob = true) ∧ (bothType p q = true → ua.passkey = true ∧ ub.passkey = true))

end Verif.Lmp
