import Verif.Pol.Model
import Verif.Br.Spec
/-!
# What the commands about a connection may ask

The ranges are those of the Bluetooth Core Specification, vol. 4, part E.
-/
namespace Verif.Pol

/-- 7.2.10, 7.2.12: role switch, hold mode, sniff mode; every other bit is reserved. -/
def LegalPolicy (v : Nat) : Prop := v < 8

/-- 7.2.6: no traffic, best effort, guaranteed. -/
def LegalService (v : Nat) : Prop := v ≤ 2

/-- 7.2.14: the latency is between 2 and 0xFFFE slots, the timeouts at most 0xFFFE. -/
def LegalSubrating (latency remote loc : Nat) : Prop := 2 ≤ latency ∧ latency ≤ 65534 ∧ remote ≤ 65534 ∧ loc ≤ 65534

/-- 7.8.33: 27 to 251 octets and 328 to 17040 microseconds. -/
def LegalDataLength (octets time : Nat) : Prop := 27 ≤ octets ∧ octets ≤ 251 ∧ 328 ≤ time ∧ time ≤ 17040

/-- 7.8.117: the PHYs are numbered from 1 to 4. -/
def LegalPowerPhy (phy : Nat) : Prop := 1 ≤ phy ∧ phy ≤ 4

/-- 7.8.121: 0 disables and 1 enables the reports. -/
def LegalReporting (loc remote : Nat) : Prop := loc ≤ 1 ∧ remote ≤ 1

/-- 7.2.6: zero and all ones stand for "no preference"; the value the controller has for that case is `d`. -/
def granted (asked d : Nat) : Nat := if asked = 0 ∨ asked = 4294967295 then d else asked

instance (v) : Decidable (LegalPolicy v) := inferInstanceAs (Decidable (_ < _))
instance (v) : Decidable (LegalService v) := inferInstanceAs (Decidable (_ ≤ _))
instance (a b c) : Decidable (LegalSubrating a b c) := inferInstanceAs (Decidable (_ ∧ _))
instance (a b) : Decidable (LegalDataLength a b) := inferInstanceAs (Decidable (_ ∧ _))

/-- The part of an action that concerns the rest of the BR/EDR controller. -/
def part : PAct → Option Br.Act
  | .host (.base c) => some (.cmd c)
  | .bredr x => some x
  | _ => none

/-- Nobody uses the empty address. -/
def PNamed (a : PAct) : Prop := ∀ x, part a = some x → Br.Named x

/-- The BR/EDR connection a command names. -/
def aclHandle : PCmd → Option Nat
  | .base (.writePolicy h _) => some h
  | .packetType h _ => some h
  | .changeKey h => some h
  | .hold h _ _ => some h
  | .sniff h _ _ _ _ => some h
  | .exitSniff h => some h
  | .qos h _ _ _ _ _ => some h
  | .role h => some h
  | .readPolicy h => some h
  | .flow h _ _ _ _ _ _ => some h
  | .subrating h _ _ _ => some h
  | .keySize h => some h
  | .supervision h _ => some h
  | _ => none

/-- The LE connection a command names. -/
def leHandle : PCmd → Option Nat
  | .lePhy h => some h
  | .leDataLength h _ _ => some h
  | .lePower h _ => some h
  | .leReporting h _ _ => some h
  | _ => none

/-- What the controller replies to a command. -/
def answer (p : P) (c : PCmd) : Reply :=
  match command p 0 c with
  | some o => o.reply
  | none => ⟨0xff, []⟩

/-- The host has a BR/EDR connection with this handle: the controller knows its role in it. -/
def Connected (p : P) (h : Nat) : Prop := (answer p (.role h)).status = 0

/-- The host has an LE connection with this handle: the controller knows its PHYs. -/
def LeConnected (p : P) (h : Nat) : Prop := (answer p (.lePhy h)).status = 0

/-- The peer of a connection. -/
def peerOf (p : P) (h : Nat) : Option Nat := (p.c.acl.find? (fun e => e.1 = h)).map (fun e => e.2.addr)

/-- A state in the life of a controller. -/
def Reach (p : P) : Prop :=
  ∃ addr info iac as l, (∀ x ∈ as, PNamed x.2) ∧ prun (P.fresh (Br.Ctl.fresh addr info iac)) as = some (p, l)

/-- Something is so at every moment of a history. -/
def Always (p : P) (as : List (Nat × PAct)) (Q : P → Prop) : Prop :=
  ∀ pre post p' l, as = pre ++ post → prun p pre = some (p', l) → Q p'

/-- The RSSI a packet says: ACL data from `peer` to `me` or to all. -/
def heard (me peer : Nat) : PAct → Option Nat
  | .bredr (.packet src dst r (.acl _ _ _)) => if src = peer ∧ (dst = me ∨ dst = 0) then some r else none
  | _ => none

/-- The RSSI of data on an LE connection. -/
def heardLe (h : Nat) : PAct → Option Nat
  | .le (.data k r) => if k = h then some r else none
  | _ => none

/-- The PHYs an LE connection is given. -/
def physOf (h : Nat) : PAct → Option (Nat × Nat)
  | .le (.up k tx rx) => if k = h then some (tx, rx) else none
  | .le (.phys k tx rx) => if k = h then some (tx, rx) else none
  | _ => none

/-- The last of the values in a history, `r` if there is none. -/
def lastHeard {α : Type} (f : PAct → Option α) (r : α) (as : List (Nat × PAct)) : α := ((as.filterMap (fun x => f x.2)).getLast?).getD r

/-- How often out of band data was read. -/
def reads (as : List (Nat × PAct)) : Nat := (as.filter (fun x => x.2 = .host .oob ∨ x.2 = .host .oobExtended)).length

/-- A Reset command. -/
def isReset (a : PAct) : Prop := part a = some (.cmd .reset)

instance (p h) : Decidable (Connected p h) := inferInstanceAs (Decidable (_ = _))
instance (p h) : Decidable (LeConnected p h) := inferInstanceAs (Decidable (_ = _))
instance (a) : Decidable (isReset a) := inferInstanceAs (Decidable (_ = _))

end Verif.Pol
