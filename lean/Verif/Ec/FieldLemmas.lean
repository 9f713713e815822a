import Mathlib.AlgebraicGeometry.EllipticCurve.Affine.Point
import Mathlib.Tactic.LinearCombination
import Mathlib.Tactic.FieldSimp

/-!
# The Jacobian formulas compute the group law

Over any field, for a curve y² = x³ − 3x + b.
-/

namespace Verif.Ec

open WeierstrassCurve.Affine

variable {F : Type} [Field F] [DecidableEq F]

/-- Doubling in Jacobian coordinates. -/
theorem dbl_field (W : WeierstrassCurve.Affine F) (ha1 : W.a₁ = 0) (ha2 : W.a₂ = 0) (ha3 : W.a₃ = 0)
    (ha4 : W.a₄ = -3) {X Y z : F} (h : W.Nonsingular X Y) (h2Y : 2 * Y ≠ 0) {x y : F}
    (hx : x = X * z ^ 2) (hy : y = Y * z ^ 3) {s m rx ry rz : F} (hs : s = 4 * x * y ^ 2)
    (hm : m = 3 * x ^ 2 + (-3) * z ^ 4) (hrx : rx = m ^ 2 - 2 * s)
    (hry : ry = m * (s - rx) - 8 * y ^ 4) (hrz : rz = 2 * y * z) :
    ∃ X3 Y3 h3, Point.some X Y h + Point.some X Y h = Point.some X3 Y3 h3 ∧
      rx = X3 * rz ^ 2 ∧ ry = Y3 * rz ^ 3 := by
  have hneg : Y ≠ W.negY X Y := by
    unfold negY
    rw [ha1, ha3]
    intro e
    apply h2Y
    linear_combination e
  refine ⟨_, _, _, Point.add_self_of_Y_ne hneg, ?_⟩
  set l := W.slope X X Y Y with hl
  have hslope : l * (2 * Y) = 3 * X ^ 2 - 3 := by
    rw [hl, slope_of_Y_ne rfl hneg, ha1, ha2, ha4]
    have e : Y - W.negY X Y = 2 * Y := by
      unfold negY
      rw [ha1, ha3]
      ring
    rw [e, div_mul_cancel₀ _ h2Y]
    ring
  have hm' : m = l * rz := by
    rw [hm, hrz, hx, hy]
    linear_combination (-z ^ 4) * hslope
  have hX : rx = W.addX X X l * rz ^ 2 := by
    rw [hrx, hs, hm', hx, hrz, hy]
    simp only [addX, ha1, ha2]
    ring
  refine ⟨hX, ?_⟩
  rw [hry, hX, hs, hm', hx, hrz, hy]
  simp only [addY, negY, negAddY, addX, ha1, ha2, ha3]
  ring

/-- Adding two points whose first coordinates differ, in Jacobian coordinates. -/
theorem add_field (W : WeierstrassCurve.Affine F) (ha1 : W.a₁ = 0) (ha2 : W.a₂ = 0) (ha3 : W.a₃ = 0)
    {X1 Y1 z1 X2 Y2 z2 : F} (g1 : W.Nonsingular X1 Y1) (g2 : W.Nonsingular X2 Y2) (hne : X1 ≠ X2)
    {x1 y1 x2 y2 : F} (hx1 : x1 = X1 * z1 ^ 2) (hy1 : y1 = Y1 * z1 ^ 3) (hx2 : x2 = X2 * z2 ^ 2)
    (hy2 : y2 = Y2 * z2 ^ 3) {u1 u2 s1 s2 h r h3 u1h2 x3 y3 z3 : F}
    (hu1 : u1 = x1 * z2 ^ 2) (hu2 : u2 = x2 * z1 ^ 2) (hs1 : s1 = y1 * z2 ^ 3)
    (hs2 : s2 = y2 * z1 ^ 3) (hh : h = u2 - u1) (hr : r = s2 - s1) (hh3 : h3 = h ^ 3)
    (huh : u1h2 = u1 * h ^ 2) (hx3 : x3 = r ^ 2 - h3 - 2 * u1h2)
    (hy3 : y3 = r * (u1h2 - x3) - s1 * h3) (hz3 : z3 = h * z1 * z2) :
    ∃ X3 Y3 k, Point.some X1 Y1 g1 + Point.some X2 Y2 g2 = Point.some X3 Y3 k ∧
      x3 = X3 * z3 ^ 2 ∧ y3 = Y3 * z3 ^ 3 := by
  refine ⟨_, _, _, Point.add_of_X_ne hne, ?_⟩
  set l := W.slope X1 X2 Y1 Y2 with hl
  have hslope : l * (X1 - X2) = Y1 - Y2 := by
    rw [hl, slope_of_X_ne hne, div_mul_cancel₀ _ (sub_ne_zero.2 hne)]
  have hhe : h = (X2 - X1) * z1 ^ 2 * z2 ^ 2 := by rw [hh, hu1, hu2, hx1, hx2]; ring
  have hr' : r = l * z3 := by
    rw [hr, hz3, hhe, hs1, hs2, hy1, hy2]
    linear_combination (z1 ^ 3 * z2 ^ 3) * hslope
  have hX : x3 = W.addX X1 X2 l * z3 ^ 2 := by
    rw [hx3, hh3, huh, hr', hu1, hx1, hz3, hhe]
    simp only [addX, ha1, ha2]
    ring
  refine ⟨hX, ?_⟩
  rw [hy3, hX, hh3, huh, hr', hu1, hx1, hs1, hy1, hz3, hhe]
  simp only [addY, negY, negAddY, addX, ha1, ha2, ha3]
  ring

end Verif.Ec
