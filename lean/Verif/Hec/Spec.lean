import Mathlib.Algebra.Polynomial.Div
import Mathlib.Algebra.Field.ZMod
/-! # What C16 talks about: Bluetooth Core, Vol 2, Part B, 7.1.1, as polynomials over GF(2) -/

namespace Verif.Hec
open Polynomial

/-- The generator, `(D + 1)(D⁷ + D⁴ + D³ + D² + 1)`. -/
noncomputable def generator : (ZMod 2)[X] := (X + 1) * (X ^ 7 + X ^ 4 + X ^ 3 + X ^ 2 + 1)

/-- A bit as a coefficient. -/
def coef (b : Bool) : ZMod 2 := if b then 1 else 0

/-- The polynomial whose coefficients are given, highest degree first. -/
noncomputable def ofBits : List Bool → (ZMod 2)[X]
  | [] => 0
  | b :: bs => C (coef b) * X ^ bs.length + ofBits bs

/-- The first `n` bits of a word, least significant first: the order of transmission. -/
def bitsLsb (n w : Nat) : List Bool := (List.range n).map w.testBit

/-- The last `n` bits of a word, most significant first. -/
def bitsMsb (n w : Nat) : List Bool := ((List.range n).map w.testBit).reverse

end Verif.Hec
