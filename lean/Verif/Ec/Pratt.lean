import Mathlib.NumberTheory.LucasPrimality
import Mathlib.Algebra.BigOperators.Associated

/-!
# Primality certificates

Lucas' criterion with the powers computed by repeated squaring, so that the kernel can check the
certificates of the moduli and group orders of the two curves.
-/

namespace Verif.Ec

/-- `a ^ e % m` by repeated squaring; the first argument bounds the number of bits of `e`. -/
def powMod : Nat → Nat → Nat → Nat → Nat
  | 0, _, _, m => 1 % m
  | n + 1, a, e, m =>
    if e % 2 = 1 then a * powMod n (a * a % m) (e / 2) m % m
    else powMod n (a * a % m) (e / 2) m

theorem powMod_eq (n a e m : Nat) (he : e < 2 ^ n) : powMod n a e m = a ^ e % m := by
  induction n generalizing a e with
  | zero =>
    have : e = 0 := by simpa using he
    subst this; simp [powMod]
  | succ n ih =>
    have he2 : e / 2 < 2 ^ n := by
      rw [pow_succ] at he; omega
    have hsq : (a * a % m) ^ (e / 2) % m = (a * a) ^ (e / 2) % m := by
      rw [← Nat.pow_mod]
    unfold powMod
    rw [ih _ _ he2, hsq]
    split
    · next h =>
      have : e = 2 * (e / 2) + 1 := by omega
      conv_rhs => rw [this, pow_succ, pow_mul, pow_two]
      rw [Nat.mul_mod, Nat.mod_mod, ← Nat.mul_mod, Nat.mul_comm]
    · next h =>
      have : e = 2 * (e / 2) := by omega
      conv_rhs => rw [this, pow_mul, pow_two]

theorem pow_eq_one_iff (n a e m : Nat) (hm : 1 < m) (he : e < 2 ^ n) :
    ((a : ZMod m) ^ e = 1) ↔ powMod n a e m = 1 := by
  rw [powMod_eq _ _ _ _ he]
  have h1 : ((a : ZMod m) ^ e) = ((a ^ e : ℕ) : ZMod m) := by push_cast; rfl
  rw [h1, ← Nat.cast_one, ZMod.natCast_eq_natCast_iff]
  unfold Nat.ModEq
  rw [Nat.mod_eq_of_lt hm]

/-- A prime certificate: a factorisation of `p - 1` into primes, and a generator. -/
theorem pratt (p a n : Nat) (fs : List Nat) (hp : 1 < p) (hn : p < 2 ^ n)
    (hfs : ∀ q ∈ fs, q.Prime) (hprod : fs.prod = p - 1) (h1 : powMod n a (p - 1) p = 1)
    (h2 : (fs.all fun q => powMod n a ((p - 1) / q) p != 1) = true) : p.Prime := by
  refine lucas_primality p a ((pow_eq_one_iff n a _ p hp (by omega)).2 h1) ?_
  intro q hq hqd hpow
  rw [← hprod] at hqd
  obtain ⟨r, hr, hqr⟩ := (Nat.Prime.prime hq).dvd_prod_iff.1 hqd
  have : q = r := (Nat.prime_dvd_prime_iff_eq hq (hfs r hr)).1 hqr
  subst this
  have hlt : (p - 1) / q < 2 ^ n := lt_of_le_of_lt (Nat.div_le_self _ _) (by omega)
  have := List.all_eq_true.1 h2 q hr
  simp [(pow_eq_one_iff n a _ p hp hlt).1 hpow] at this

end Verif.Ec
