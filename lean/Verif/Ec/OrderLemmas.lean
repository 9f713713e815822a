import Verif.Ec.GroupLemmas
import Mathlib.GroupTheory.OrderOfElement

/-!
# The order of the base points
-/

namespace Verif.Ec

open WeierstrassCurve.Affine

/-- A base point that the kernel can compute with: the multiplication by `n - 1` never adds points
with equal first coordinates, and gives the opposite of the base point. -/
theorem order_of_check (d : Domain) [Fact (Nat.Prime d.p)] {c : Curve} (hc : c.p = d.p)
    (h2 : 2 < d.p) (hn : d.n.Prime) (fuel : Nat) (P : Pt) (x y z : Int)
    (hns : d.curve.Nonsingular (d.gx : ZMod d.p) d.gy)
    (hP : Rep d P (.some _ _ hns)) (hok : mulOk c fuel .inf P (d.n - 1) = true)
    (hres : mulLoop c fuel .inf P ((d.n - 1 : Nat) : Int) = .fin x y z)
    (hx : (x - d.gx * z ^ 2) % d.p = 0) (hy : (y + d.gy * z ^ 3) % d.p = 0) :
    d.n • (Point.some _ _ hns) = 0 ∧
      ∀ m : Nat, 0 < m → m < d.n → m • (Point.some _ _ hns) ≠ 0 := by
  have hrep := mulOk_rep d hc h2 (Q := .some _ _ hns) fuel .inf P (d.n - 1) 0 0 (by simp [Rep])
    (by simpa using hP) hok
  rw [hres] at hrep
  simp only [pow_zero, one_mul, zero_add] at hrep
  obtain ⟨-, hz, X, Y, h, hQ, ex, ey⟩ := hrep
  have hX : X = d.gx := by
    have := (ZMod.intCast_zmod_eq_zero_iff_dvd _ d.p).2 (Int.dvd_of_emod_eq_zero hx)
    push_cast at this
    rw [ex, ← sub_mul] at this
    rcases mul_eq_zero.1 this with h | h
    · exact sub_eq_zero.1 h
    · exact absurd ((pow_eq_zero_iff (by decide)).1 h) hz
  have hY : Y = -d.gy := by
    have := (ZMod.intCast_zmod_eq_zero_iff_dvd _ d.p).2 (Int.dvd_of_emod_eq_zero hy)
    push_cast at this
    rw [ey, ← add_mul] at this
    rcases mul_eq_zero.1 this with h | h
    · exact eq_neg_of_add_eq_zero_left h
    · exact absurd ((pow_eq_zero_iff (by decide)).1 h) hz
  have hneg : (d.n - 1) • (Point.some _ _ hns) = -(Point.some _ _ hns) := by
    rw [hQ, Point.neg_some]
    subst hX hY
    congr 1
    simp [negY, curve_a1, curve_a3]
  have h0 : d.n • (Point.some _ _ hns) = 0 := by
    have : d.n = (d.n - 1) + 1 := by have := hn.pos; omega
    rw [this, add_nsmul, hneg, one_nsmul, neg_add_cancel]
  have : Fact d.n.Prime := ⟨hn⟩
  have hord := addOrderOf_eq_prime h0 (Point.some_ne_zero hns)
  refine ⟨h0, ?_⟩
  intro m hm hlt he
  have := addOrderOf_dvd_of_nsmul_eq_zero he
  rw [hord] at this
  have := Nat.le_of_dvd hm this
  omega

/-- The multiples of a multiple. -/
theorem order_multiple (d : Domain) [Fact (Nat.Prime d.p)] (hn : d.n.Prime) {G : d.curve.Point}
    (hG : d.n • G = 0) (hG0 : G ≠ 0) (b : Nat) (hb : 0 < b) (hbn : b < d.n) :
    ∀ m : Nat, 0 < m → m < d.n → m • (b • G) ≠ 0 := by
  intro m hm hlt he
  have : Fact d.n.Prime := ⟨hn⟩
  have hord := addOrderOf_eq_prime hG hG0
  rw [← mul_nsmul'] at he
  have := addOrderOf_dvd_of_nsmul_eq_zero he
  rw [hord, hn.dvd_mul] at this
  rcases this with h | h
  · have := Nat.le_of_dvd hm h; omega
  · have := Nat.le_of_dvd hb h; omega

theorem rep_g192 : Rep nist192 (base p192) g192 := by
  refine ⟨by decide +kernel, by simp, _, _, g192_on, rfl, ?_, ?_⟩
  · have : p192.gx = (nist192.gx : Int) := by decide +kernel
    rw [this]; simp
  · have : p192.gy = (nist192.gy : Int) := by decide +kernel
    rw [this]; simp

theorem rep_g256 : Rep nist256 (base p256) g256 := by
  refine ⟨by decide +kernel, by simp, _, _, g256_on, rfl, ?_, ?_⟩
  · have : p256.gx = (nist256.gx : Int) := by decide +kernel
    rw [this]; simp
  · have : p256.gy = (nist256.gy : Int) := by decide +kernel
    rw [this]; simp

/-- The coordinates of a finite model point. -/
def Pt.coords : Pt → Int × Int × Int
  | .inf => (0, 0, 0)
  | .fin x y z => (x, y, z)

theorem eq_coords {P : Pt} (h : P ≠ .inf) : P = .fin P.coords.1 P.coords.2.1 P.coords.2.2 := by
  cases P with
  | inf => exact absurd rfl h
  | fin x y z => rfl

set_option maxRecDepth 20000 in
theorem order_g192 :
    nist192.n • g192 = 0 ∧ ∀ m : Nat, 0 < m → m < nist192.n → m • g192 ≠ 0 :=
  order_of_check nist192 (c := p192) (by decide +kernel) (by decide +kernel) prime_n192 200 (base p192)
    _ _ _ g192_on rep_g192 (by decide +kernel) (eq_coords (by decide +kernel)) (by decide +kernel)
    (by decide +kernel)

set_option maxRecDepth 20000 in
theorem order_g256 :
    nist256.n • g256 = 0 ∧ ∀ m : Nat, 0 < m → m < nist256.n → m • g256 ≠ 0 :=
  order_of_check nist256 (c := p256) (by decide +kernel) (by decide +kernel) prime_n256 260 (base p256)
    _ _ _ g256_on rep_g256 (by decide +kernel) (eq_coords (by decide +kernel)) (by decide +kernel)
    (by decide +kernel)

end Verif.Ec
