import Verif.Ll.Model
/-!
# Resolvable private addresses: specification (C32)

Volume 6 Part B § 1.3.2.2 of the Core specification: the two most significant bits of
a resolvable private address are `01`, the next 22 bits are random and neither all
zeros nor all ones, and the 24 least significant bits are the hash of the upper 24
bits under the key.
-/

namespace Verif.Ll
open Verif.Le

/-- `a` has the form of a resolvable private address of the key `irk`. -/
def RpaOf (ah : Hash) (irk : Irk) (a : Address) : Prop :=
  a.toNat / 2 ^ 46 = 1 ∧ a.toNat % 2 ^ 24 = (ah irk (BitVec.ofNat 24 (a.toNat / 2 ^ 24))).toNat

/-- The 22 random bits. -/
def randomPart (a : Address) : Nat := a.toNat / 2 ^ 24 % 2 ^ 22

/-- The addresses a step generates come from `generate_rpa`. -/
def Genuine (ah : Hash) (rnd : Irk → Address) : Prop := ∃ d, rnd = makeRpa ah d

/-- All addresses generated by an operation come from `generate_rpa`. -/
def Op.Genuine (ah : Hash) : Op → Prop
  | .cmd (.createConnection rnd ..) => Ll.Genuine ah rnd
  | .cmd (.extendedCreateConnection rnd ..) => Ll.Genuine ah rnd
  | .cmd (.setAdvertisingEnable _ rnd _) => ∀ i, Ll.Genuine ah (rnd i)
  | .cmd (.setExtAdvertisingEnable _ rnd _ _) => ∀ i, Ll.Genuine ah (rnd i)
  | .receive rnd _ _ => Ll.Genuine ah rnd
  | _ => True

end Verif.Ll
