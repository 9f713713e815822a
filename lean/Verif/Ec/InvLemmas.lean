import Verif.Ec.GroupLemmas

/-!
# Modular inverses and affine coordinates
-/

namespace Verif.Ec

open WeierstrassCurve.Affine

/-- The extended Euclidean loop keeps the greatest common divisor of the pair, and keeps each
remainder congruent to its coefficient times `x`. -/
theorem egcdLoop_spec (m x : Int) (n : Nat) (r s : Int × Int) (hn : r.1.natAbs < n)
    (h1 : m ∣ r.1 - s.1 * x) (h2 : m ∣ r.2 - s.2 * x) :
    (egcdLoop n r s).1.natAbs = Int.gcd r.1 r.2 ∧
      m ∣ (egcdLoop n r s).1 - (egcdLoop n r s).2 * x := by
  induction n generalizing r s with
  | zero => omega
  | succ n ih =>
    obtain ⟨r0, r1⟩ := r
    obtain ⟨s0, s1⟩ := s
    simp only [egcdLoop] at *
    by_cases h0 : r0 = 0
    · rw [if_pos h0]
      subst h0
      exact ⟨by simp, h2⟩
    · rw [if_neg h0]
      have hrem : r1 - r1.tdiv r0 * r0 = r1.tmod r0 := by
        have := Int.tmod_add_mul_tdiv r1 r0
        linarith [mul_comm r0 (r1.tdiv r0)]
      have hlt : (r1 - r1.tdiv r0 * r0).natAbs < n := by
        rw [hrem, Int.natAbs_tmod]
        have := Nat.mod_lt r1.natAbs (Int.natAbs_pos.2 h0)
        omega
      have hd : m ∣ (r1 - r1.tdiv r0 * r0) - (s1 - r1.tdiv r0 * s0) * x := by
        have := Int.dvd_sub h2 (Dvd.dvd.mul_left h1 (r1.tdiv r0))
        convert this using 1
        ring
      have := ih (r1 - r1.tdiv r0 * r0, r0) (s1 - r1.tdiv r0 * s0, s0) hlt hd h1
      refine ⟨?_, this.2⟩
      rw [this.1, hrem]
      simp only [Int.gcd_def, Int.natAbs_tmod]
      exact (Nat.gcd_rec _ _).symm

/-- `mod_inv` finds the inverse of every number that is not a multiple of the prime. -/
theorem modInv_some (p : Nat) (hp : p.Prime) (z : Int) (hz : (z : ZMod p) ≠ 0) :
    ∃ i, modInv z p = some i ∧ (i : ZMod p) * (z : ZMod p) = 1 := by
  have hs := egcdLoop_spec p z ((p : Int).natAbs + 1) (p, z) (0, 1) (by simp) (by simp) (by simp)
  have hg : Int.gcd (p : Int) z = 1 := by
    rw [Int.gcd_def, Int.natAbs_natCast]
    refine (Nat.Prime.coprime_iff_not_dvd hp).2 ?_
    intro hd
    apply hz
    rw [ZMod.intCast_zmod_eq_zero_iff_dvd]
    exact Int.natCast_dvd.2 hd
  simp only [hg] at hs
  set e := egcdLoop ((p : Int).natAbs + 1) (p, z) (0, 1) with he
  have hcong : ((e.1 : Int) : ZMod p) = (e.2 : ZMod p) * (z : ZMod p) := by
    have := (ZMod.intCast_zmod_eq_zero_iff_dvd _ p).2 hs.2
    push_cast at this
    exact sub_eq_zero.1 this
  unfold modInv egcd
  simp only [← he]
  by_cases h0 : 0 ≤ e.1
  · rw [if_pos h0]
    have h1 : e.1 = 1 := by omega
    rw [if_pos h1]
    refine ⟨_, rfl, ?_⟩
    rw [cast_tmod, ← hcong, h1]
    simp
  · rw [if_neg h0]
    have h1 : e.1 = -1 := by omega
    rw [if_pos (by simp [h1])]
    refine ⟨_, rfl, ?_⟩
    rw [cast_tmod]
    push_cast
    rw [neg_mul, ← hcong, h1]
    simp

/-- A finite point has affine coordinates, and they are those of the point it stands for. -/
theorem toAffine_rep (d : Domain) [Fact (Nat.Prime d.p)] {c : Curve} (hc : c.p = d.p) {P : Pt}
    {Q : d.curve.Point} (h : Rep d P Q) (hQ : Q ≠ 0) :
    ∃ x y : Int, toAffine c P = .ok (some (x, y)) ∧ |x| < d.p ∧ |y| < d.p ∧ d.IsPoint x y Q := by
  have hp : d.p.Prime := Fact.out
  cases P with
  | inf => exact absurd h hQ
  | fin x y z =>
    obtain ⟨-, hz, X, Y, hns, hQ', hx, hy⟩ := h
    obtain ⟨i, hi, hiz⟩ := modInv_some d.p hp z hz
    refine ⟨(x * i ^ 2).tmod d.p, (y * i ^ 3).tmod d.p, ?_, tmod_abs_lt _ hp.pos _,
      tmod_abs_lt _ hp.pos _, ?_⟩
    · simp only [toAffine, hc, hi]
    · have ex : (((x * i ^ 2).tmod d.p : Int) : ZMod d.p) = X := by
        rw [cast_tmod]
        push_cast
        rw [hx]
        have : X * (z : ZMod d.p) ^ 2 * (i : ZMod d.p) ^ 2 = X * ((i : ZMod d.p) * z) ^ 2 := by ring
        rw [this, hiz]
        ring
      have ey : (((y * i ^ 3).tmod d.p : Int) : ZMod d.p) = Y := by
        rw [cast_tmod]
        push_cast
        rw [hy]
        have : Y * (z : ZMod d.p) ^ 3 * (i : ZMod d.p) ^ 3 = Y * ((i : ZMod d.p) * z) ^ 3 := by ring
        rw [this, hiz]
        ring
      rw [ex, ey]
      exact ⟨hns, hQ'⟩

end Verif.Ec
