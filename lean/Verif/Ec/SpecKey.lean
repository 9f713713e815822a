import Verif.Ec.Model
import Verif.Ec.Spec

/-!
# Specification of key octets

`fromSignedLe` is two's complement, least significant octet first: how a receiver reads a
coordinate.
-/

namespace Verif.Ec

/-- The numbers whose octets, as `to_bytes` writes them, are read back by `to_point` as the same
number: the non-negative ones with a clear top bit, and the negative ones that need all octets. -/
def Fits (n : Nat) (v : Int) : Prop :=
  (0 ≤ v ∧ 2 * v < 256 ^ n) ∨ (-(256 ^ n) ≤ 2 * v ∧ 2 * v < -(256 ^ (n - 1)))

instance (n : Nat) (v : Int) : Decidable (Fits n v) := by unfold Fits; infer_instance

/-- The octets of a key carry the two coordinates: each half, read as a two's complement number, is
the coordinate exactly if the coordinate fits. -/
def Carries (n : Nat) (octets : List Octet) (x y : Int) : Prop :=
  octets.length = 2 * n ∧ (fromSignedLe (octets.take n) = x ↔ Fits n x) ∧
    (fromSignedLe (octets.drop n) = y ↔ Fits n y)

/-- The octets of a public key, as a receiver reads them, are the coordinates of a point. -/
def Denotes (d : Domain) (n : Nat) (octets : List Octet) (Q : d.curve.Point) : Prop :=
  octets.length = 2 * n ∧
    d.IsPoint (fromSignedLe (octets.take n)) (fromSignedLe (octets.drop n)) Q

/-- A private key of the right size with a positive value. -/
def ValidKey (n : Nat) (key : List Octet) : Prop := key.length = n ∧ 1 ≤ fromSignedLe key

/-- The value of a private key. -/
def keyValue (key : List Octet) : Nat := (fromSignedLe key).toNat

end Verif.Ec
