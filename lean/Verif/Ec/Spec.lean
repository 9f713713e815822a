import Mathlib.AlgebraicGeometry.EllipticCurve.Affine.Point
import Mathlib.Algebra.Field.ZMod
import Mathlib.Tactic.LinearCombination
import Verif.Ec.Primes

/-!
# Specification: the groups P-192 and P-256

The curves of FIPS 186-4, D.1.2, as Mathlib elliptic curves over the prime field: the points form
a commutative group under Mathlib's addition (`WeierstrassCurve.Affine.Point`), and the public key
of a private key `k` is `k • G`.  Nothing here refers to the model.
-/

namespace Verif.Ec

/-- Domain parameters of FIPS 186-4, D.1.2: the prime modulus, the coefficient `b`, the base point
and its order. -/
structure Domain where
  p : Nat
  b : Nat
  gx : Nat
  gy : Nat
  n : Nat

/-- Curve P-192, FIPS 186-4, D.1.2.1. -/
def nist192 : Domain where
  p := 6277101735386680763835789423207666416083908700390324961279
  b := 0x64210519e59c80e70fa7e9ab72243049feb8deecc146b9b1
  gx := 0x188da80eb03090f67cbf20eb43a18800f4ff0afd82ff1012
  gy := 0x07192b95ffc8da78631011ed6b24cdd573f977a11e794811
  n := 6277101735386680763835789423176059013767194773182842284081

/-- Curve P-256, FIPS 186-4, D.1.2.3. -/
def nist256 : Domain where
  p := 115792089210356248762697446949407573530086143415290314195533631308867097853951
  b := 0x5ac635d8aa3a93e7b3ebbd55769886bc651d06b0cc53b0f63bce3c3e27d2604b
  gx := 0x6b17d1f2e12c4247f8bce6e563a440f277037d812deb33a0f4a13945d898c296
  gy := 0x4fe342e2fe1a7f9b8ee7eb4a7c0f9e162bce33576b315ececbb6406837bf51f5
  n := 115792089210356248762697446949407573529996955224135760342422259061068512044369

/-- The curve y² = x³ − 3x + b over the integers modulo `p`. -/
def Domain.curve (d : Domain) : WeierstrassCurve.Affine (ZMod d.p) :=
  { a₁ := 0, a₂ := 0, a₃ := 0, a₄ := -3, a₆ := d.b }

instance : Fact (Nat.Prime nist192.p) := ⟨prime_p192⟩
instance : Fact (Nat.Prime nist256.p) := ⟨prime_p256⟩

/-- The base point of P-192 is on the curve. -/
theorem g192_on : nist192.curve.Nonsingular (nist192.gx : ZMod nist192.p) nist192.gy := by
  have h0 : ((nist192.gy ^ 2 + 3 * nist192.gx : ℕ) : ZMod nist192.p) =
      ((nist192.gx ^ 3 + nist192.b : ℕ) : ZMod nist192.p) := by
    rw [ZMod.natCast_eq_natCast_iff]
    unfold Nat.ModEq
    decide +kernel
  have h1 : ((2 * nist192.gy : ℕ) : ZMod nist192.p) ≠ 0 := by
    rw [Ne, ZMod.natCast_eq_zero_iff]
    decide +kernel
  push_cast at h0 h1
  rw [WeierstrassCurve.Affine.nonsingular_iff, WeierstrassCurve.Affine.equation_iff]
  refine ⟨?_, Or.inr ?_⟩
  · simp only [Domain.curve]
    linear_combination h0
  · simp only [Domain.curve]
    intro e
    apply h1
    linear_combination e

/-- The base point of P-256 is on the curve. -/
theorem g256_on : nist256.curve.Nonsingular (nist256.gx : ZMod nist256.p) nist256.gy := by
  have h0 : ((nist256.gy ^ 2 + 3 * nist256.gx : ℕ) : ZMod nist256.p) =
      ((nist256.gx ^ 3 + nist256.b : ℕ) : ZMod nist256.p) := by
    rw [ZMod.natCast_eq_natCast_iff]
    unfold Nat.ModEq
    decide +kernel
  have h1 : ((2 * nist256.gy : ℕ) : ZMod nist256.p) ≠ 0 := by
    rw [Ne, ZMod.natCast_eq_zero_iff]
    decide +kernel
  push_cast at h0 h1
  rw [WeierstrassCurve.Affine.nonsingular_iff, WeierstrassCurve.Affine.equation_iff]
  refine ⟨?_, Or.inr ?_⟩
  · simp only [Domain.curve]
    linear_combination h0
  · simp only [Domain.curve]
    intro e
    apply h1
    linear_combination e

/-- The base point of P-192. -/
def g192 : nist192.curve.Point := .some nist192.gx nist192.gy g192_on

/-- The base point of P-256. -/
def g256 : nist256.curve.Point := .some nist256.gx nist256.gy g256_on

/-- A finite point of the curve with given coordinates. -/
def Domain.IsPoint (d : Domain) (x y : ZMod d.p) (Q : d.curve.Point) : Prop :=
  ∃ h : d.curve.Nonsingular x y, Q = .some x y h

end Verif.Ec
