import Verif.Ec.Model
import Verif.Ec.Spec
import Verif.Ec.FieldLemmas

/-!
# The model's point arithmetic computes the group law

`Rep d P Q`: the model's point `P`, in Jacobian coordinates, stands for the point `Q` of the curve.
-/

namespace Verif.Ec

open WeierstrassCurve.Affine

theorem curve_a1 (d : Domain) : d.curve.a₁ = 0 := rfl
theorem curve_a2 (d : Domain) : d.curve.a₂ = 0 := rfl
theorem curve_a3 (d : Domain) : d.curve.a₃ = 0 := rfl
theorem curve_a4 (d : Domain) : d.curve.a₄ = -3 := rfl

/-- The remainder of `BigInt` is congruent to the dividend. -/
theorem cast_tmod (p : Nat) (a : Int) : ((a.tmod p : Int) : ZMod p) = (a : ZMod p) := by
  have h := Int.tmod_add_mul_tdiv a p
  have : (a : ZMod p) = ((a.tmod p + p * a.tdiv p : Int) : ZMod p) := by rw [h]
  rw [this]
  push_cast
  simp

/-- The remainder of `BigInt` is smaller than the modulus. -/
theorem tmod_abs_lt (p : Nat) (hp : 0 < p) (a : Int) : |a.tmod p| < p := by
  have h1 := Int.tmod_lt_of_pos a (show (0 : Int) < p by exact_mod_cast hp)
  have h2 := Int.lt_tmod_of_pos a (show (0 : Int) < p by exact_mod_cast hp)
  exact abs_lt.2 ⟨h2, h1⟩

/-- The model's point `P` stands for the point `Q` of the curve: Jacobian coordinates, and a second
coordinate in the range where the test of `double` for zero is the test for zero in the field. -/
def Rep (d : Domain) (P : Pt) (Q : d.curve.Point) : Prop :=
  match P with
  | .inf => Q = 0
  | .fin x y z => |y| < d.p ∧ (z : ZMod d.p) ≠ 0 ∧
      ∃ X Y h, Q = .some X Y h ∧ (x : ZMod d.p) = X * (z : ZMod d.p) ^ 2 ∧
        (y : ZMod d.p) = Y * (z : ZMod d.p) ^ 3

/-- Two model points have different first coordinates, or one is at infinity. -/
def Safe (d : Domain) (P P' : Pt) : Prop :=
  match P, P' with
  | .fin x1 _ z1, .fin x2 _ z2 =>
    (x1 : ZMod d.p) * (z2 : ZMod d.p) ^ 2 ≠ (x2 : ZMod d.p) * (z1 : ZMod d.p) ^ 2
  | _, _ => True

theorem eq_zero_of_cast {p : Nat} {y : Int} (h : |y| < p) (h0 : (y : ZMod p) = 0) : y = 0 := by
  rw [ZMod.intCast_zmod_eq_zero_iff_dvd] at h0
  exact Int.eq_zero_of_abs_lt_dvd h0 h

section
variable (d : Domain) [Fact (Nat.Prime d.p)]

theorem two_ne (h2 : 2 < d.p) : (2 : ZMod d.p) ≠ 0 := by
  intro h
  have h' : ((2 : ℕ) : ZMod d.p) = 0 := by exact_mod_cast h
  rw [ZMod.natCast_eq_zero_iff] at h'
  have := Nat.le_of_dvd (by omega) h'
  omega

theorem dbl_rep {c : Curve} (hc : c.p = d.p) (h2 : 2 < d.p) {P : Pt} {Q : d.curve.Point}
    (h : Rep d P Q) : Rep d (dbl c P) (Q + Q) := by
  cases P with
  | inf =>
    simp only [Rep] at h
    simp [dbl, Rep, h]
  | fin x y z =>
    obtain ⟨hyb, hz, X, Y, hns, hQ, hx, hy⟩ := h
    subst hQ
    simp only [dbl]
    by_cases hy0 : y = 0
    · rw [if_pos hy0]
      simp only [Rep]
      have hY : Y = 0 := by
        rw [hy0] at hy
        simp only [Int.cast_zero] at hy
        have := hy.symm
        rcases mul_eq_zero.1 this with h | h
        · exact h
        · exact absurd (pow_eq_zero_iff (by decide)|>.1 h) hz
      apply Point.add_self_of_Y_eq
      simp [negY, curve_a1, curve_a3, hY]
    · rw [if_neg hy0]
      have hyc : (y : ZMod d.p) ≠ 0 := fun h => hy0 (eq_zero_of_cast hyb h)
      have hYne : Y ≠ 0 := by
        rintro rfl
        rw [zero_mul] at hy
        exact hyc hy
      have h2Y : 2 * Y ≠ 0 := mul_ne_zero (two_ne d h2) hYne
      obtain ⟨X3, Y3, h3, hsum, hX, hYY⟩ := dbl_field d.curve (curve_a1 d) (curve_a2 d) (curve_a3 d)
        (curve_a4 d) hns h2Y hx hy rfl rfl rfl rfl rfl
      simp only [Rep, hc]
      refine ⟨tmod_abs_lt _ (by omega) _, ?_, X3, Y3, h3, hsum, ?_, ?_⟩
      · rw [cast_tmod]
        push_cast
        exact mul_ne_zero (mul_ne_zero (two_ne d h2) hyc) hz
      · simp only [cast_tmod]
        push_cast
        exact hX
      · simp only [cast_tmod]
        push_cast
        exact hYY

theorem add_rep {c : Curve} (hc : c.p = d.p) (h2 : 2 < d.p) {P P' : Pt} {Q Q' : d.curve.Point}
    (h : Rep d P Q) (h' : Rep d P' Q') (hs : Safe d P P') : Rep d (add c P P') (Q + Q') := by
  cases P with
  | inf =>
    simp only [Rep] at h
    simp [add, h, h']
  | fin x1 y1 z1 =>
    cases P' with
    | inf =>
      simp only [Rep] at h'
      subst h'
      rw [add_zero]
      exact h
    | fin x2 y2 z2 =>
      obtain ⟨-, hz1, X1, Y1, g1, hQ1, hx1, hy1⟩ := h
      obtain ⟨-, hz2, X2, Y2, g2, hQ2, hx2, hy2⟩ := h'
      subst hQ1; subst hQ2
      simp only [Safe] at hs
      have hX : X1 ≠ X2 := by
        rintro rfl
        apply hs
        rw [hx1, hx2]
        ring
      have hu : (x1 * z2 ^ 2).tmod c.p ≠ (x2 * z1 ^ 2).tmod c.p := by
        intro e
        apply hs
        have e' := congrArg (fun t : Int => (t : ZMod d.p)) e
        simp only [hc, cast_tmod] at e'
        push_cast at e'
        exact e'
      simp only [add]
      rw [if_neg hu]
      obtain ⟨X3, Y3, h3, hsum, hX3, hY3⟩ := add_field d.curve (curve_a1 d) (curve_a2 d) (curve_a3 d)
        g1 g2 hX hx1 hy1 hx2 hy2 rfl rfl rfl rfl rfl rfl rfl rfl rfl rfl rfl
      simp only [Rep, hc]
      refine ⟨tmod_abs_lt _ (by omega) _, ?_, X3, Y3, h3, hsum, ?_, ?_⟩
      · simp only [cast_tmod, Int.cast_mul, Int.cast_sub]
        push_cast
        exact mul_ne_zero (mul_ne_zero (sub_ne_zero.2 (Ne.symm hs)) hz1) hz2
      · simp only [cast_tmod, Int.cast_mul, Int.cast_sub, Int.cast_pow]
        push_cast
        exact hX3
      · simp only [cast_tmod, Int.cast_mul, Int.cast_sub, Int.cast_pow]
        push_cast
        exact hY3

theorem safe_of_ne {P P' : Pt} {Q Q' : d.curve.Point} (h : Rep d P Q) (h' : Rep d P' Q')
    (h1 : Q ≠ Q') (h2 : Q ≠ -Q') : Safe d P P' := by
  cases P with
  | inf => trivial
  | fin x1 y1 z1 =>
    cases P' with
    | inf => trivial
    | fin x2 y2 z2 =>
      obtain ⟨-, hz1, X1, Y1, g1, hQ1, hx1, hy1⟩ := h
      obtain ⟨-, hz2, X2, Y2, g2, hQ2, hx2, hy2⟩ := h'
      simp only [Safe]
      intro e
      rw [hx1, hx2] at e
      have : X1 = X2 := by
        have hne : (z1 : ZMod d.p) ^ 2 * (z2 : ZMod d.p) ^ 2 ≠ 0 :=
          mul_ne_zero (pow_ne_zero _ hz1) (pow_ne_zero _ hz2)
        apply mul_right_cancel₀ hne
        linear_combination e
      subst hQ1; subst hQ2
      rcases (Point.X_eq_iff (h₁ := g1) (h₂ := g2)).1 this with h | h
      · exact h1 h
      · exact h2 h

/-- The loop of the multiplication, for a point all of whose multiples below `N` are not zero. -/
theorem mulLoop_rep {c : Curve} (hc : c.p = d.p) (h2 : 2 < d.p) {Q : d.curve.Point} {N : Nat}
    (hN : ∀ m : Nat, 0 < m → m < N → m • Q ≠ 0) (fuel : Nat) (R A : Pt) (i m j : Nat)
    (hR : Rep d R (m • Q)) (hA : Rep d A ((2 ^ j) • Q)) (hm : m < 2 ^ j) (hi : i < 2 ^ fuel)
    (hb : m + 2 ^ j * i < N) : Rep d (mulLoop c fuel R A i) ((m + 2 ^ j * i) • Q) := by
  induction fuel generalizing R A i m j with
  | zero =>
    have : i = 0 := by simpa using hi
    subst this
    simpa [mulLoop] using hR
  | succ n ih =>
    unfold mulLoop
    by_cases hi0 : i = 0
    · subst hi0
      simpa using hR
    · rw [if_neg (by exact_mod_cast hi0)]
      have hdiv : (i : Int).tdiv 2 = ((i / 2 : Nat) : Int) := rfl
      rw [hdiv]
      have hA' : Rep d (dbl c A) ((2 ^ (j + 1)) • Q) := by
        have := dbl_rep d hc h2 hA
        rwa [← two_nsmul, ← mul_nsmul', ← pow_succ'] at this
      have hi' : i / 2 < 2 ^ n := by rw [pow_succ] at hi; omega
      have hpow : 2 ^ (j + 1) = 2 * 2 ^ j := pow_succ' 2 j
      by_cases hodd : i % 2 = 1
      · rw [if_pos (by omega)]
        have hieq : i = 2 * (i / 2) + 1 := by omega
        have hsum : m + 2 ^ j * i = (m + 2 ^ j) + 2 ^ (j + 1) * (i / 2) := by
          rw [hpow]
          conv_lhs => rw [hieq]
          ring
        rw [hsum] at hb ⊢
        refine ih _ _ _ _ _ ?_ hA' (by omega) hi' hb
        rw [add_nsmul]
        refine add_rep d hc h2 hR hA ?_
        by_cases hm0 : m = 0
        · subst hm0
          rw [zero_nsmul] at hR
          cases R with
          | inf => trivial
          | fin x y z =>
            obtain ⟨-, -, X, Y, h, e, -⟩ := hR
            exact absurd e.symm (Point.some_ne_zero h)
        · have hle : m + 2 ^ j < N := lt_of_le_of_lt (Nat.le_add_right _ _) hb
          apply safe_of_ne d hR hA
          · intro e
            refine hN (2 ^ j - m) (by omega) (by omega) ?_
            have : (2 ^ j - m) • Q + m • Q = m • Q := by
              rw [← add_nsmul, e]
              congr 1
              omega
            exact add_eq_right.1 this
          · intro e
            refine hN (m + 2 ^ j) (by omega) hle ?_
            rw [add_nsmul, e]
            exact neg_add_cancel _
      · rw [if_neg (by omega)]
        have hieq : i = 2 * (i / 2) := by omega
        have hsum : m + 2 ^ j * i = m + 2 ^ (j + 1) * (i / 2) := by
          rw [hpow]
          conv_lhs => rw [hieq]
          ring
        rw [hsum] at hb ⊢
        exact ih _ _ _ _ _ hR hA' (by omega) hi' hb

theorem mul_rep {c : Curve} (hc : c.p = d.p) (h2 : 2 < d.p) {P : Pt} {Q : d.curve.Point} {N : Nat}
    (hN : ∀ m : Nat, 0 < m → m < N → m • Q ≠ 0) (hP : Rep d P Q) (k : Nat) (hk : k < N) :
    Rep d (mul c P k) (k • Q) := by
  have := mulLoop_rep d hc h2 hN (k.log2 + 2) .inf P k 0 0 (by simp [Rep]) (by simpa using hP)
    (by simp) (by
      have := Nat.lt_log2_self (n := k)
      calc k < 2 ^ (k.log2 + 1) := this
        _ ≤ 2 ^ (k.log2 + 2) := Nat.pow_le_pow_right (by decide) (by omega)) (by simpa using hk)
  simpa [mul] using this

/-- Every addition of the multiplication adds points with different first coordinates: a check the
kernel can run. -/
def mulOk (c : Curve) : Nat → Pt → Pt → Nat → Bool
  | 0, _, _, i => i == 0
  | n + 1, R, A, i =>
    if i = 0 then true
    else if i % 2 = 1 then
      (match R, A with
        | .fin x1 _ z1, .fin x2 _ z2 => (x1 * z2 ^ 2 - x2 * z1 ^ 2) % c.p != 0
        | _, _ => true) && mulOk c n (add c R A) (dbl c A) (i / 2)
    else mulOk c n R (dbl c A) (i / 2)

theorem mulOk_rep {c : Curve} (hc : c.p = d.p) (h2 : 2 < d.p) {Q : d.curve.Point} (fuel : Nat)
    (R A : Pt) (i m j : Nat) (hR : Rep d R (m • Q)) (hA : Rep d A ((2 ^ j) • Q))
    (hok : mulOk c fuel R A i = true) : Rep d (mulLoop c fuel R A i) ((m + 2 ^ j * i) • Q) := by
  induction fuel generalizing R A i m j with
  | zero =>
    have : i = 0 := by simpa [mulOk] using hok
    subst this
    simpa [mulLoop] using hR
  | succ n ih =>
    unfold mulLoop
    unfold mulOk at hok
    by_cases hi0 : i = 0
    · subst hi0
      simpa using hR
    · rw [if_neg (by exact_mod_cast hi0)]
      rw [if_neg hi0] at hok
      have hdiv : (i : Int).tdiv 2 = ((i / 2 : Nat) : Int) := rfl
      rw [hdiv]
      have hA' : Rep d (dbl c A) ((2 ^ (j + 1)) • Q) := by
        have := dbl_rep d hc h2 hA
        rwa [← two_nsmul, ← mul_nsmul', ← pow_succ'] at this
      have hpow : 2 ^ (j + 1) = 2 * 2 ^ j := pow_succ' 2 j
      by_cases hodd : i % 2 = 1
      · rw [if_pos (by omega)]
        rw [if_pos hodd, Bool.and_eq_true] at hok
        have hieq : i = 2 * (i / 2) + 1 := by omega
        have hsum : m + 2 ^ j * i = (m + 2 ^ j) + 2 ^ (j + 1) * (i / 2) := by
          rw [hpow]
          conv_lhs => rw [hieq]
          ring
        rw [hsum]
        refine ih _ _ _ _ _ ?_ hA' hok.2
        rw [add_nsmul]
        refine add_rep d hc h2 hR hA ?_
        have h1 := hok.1
        cases R with
        | inf => trivial
        | fin x1 y1 z1 =>
          cases A with
          | inf => trivial
          | fin x2 y2 z2 =>
            simp only [Safe]
            intro e
            have : ((x1 * z2 ^ 2 - x2 * z1 ^ 2 : Int) : ZMod d.p) = 0 := by
              push_cast
              rw [e, sub_self]
            rw [ZMod.intCast_zmod_eq_zero_iff_dvd, ← hc] at this
            have := Int.emod_eq_zero_of_dvd this
            simp [this] at h1
      · rw [if_neg (by omega)]
        rw [if_neg hodd] at hok
        have hieq : i = 2 * (i / 2) := by omega
        have hsum : m + 2 ^ j * i = m + 2 ^ (j + 1) * (i / 2) := by
          rw [hpow]
          conv_lhs => rw [hieq]
          ring
        rw [hsum]
        exact ih _ _ _ _ _ hR hA' hok

end

end Verif.Ec
