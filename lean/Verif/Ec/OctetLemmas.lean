import Verif.Ec.SpecKey
import Mathlib.Tactic.Ring
import Mathlib.Tactic.Linarith
import Mathlib.Data.Int.ModEq

/-!
# Octets of signed numbers
-/

namespace Verif.Ec

theorem leOfNat_length (n v : Nat) : (leOfNat n v).length = n := by
  induction n generalizing v with
  | zero => rfl
  | succ n ih => simp [leOfNat, ih]

theorem natOfLe_leOfNat (n v : Nat) : natOfLe (leOfNat n v) = v % 256 ^ n := by
  induction n generalizing v with
  | zero => simp [leOfNat, natOfLe, Nat.mod_one]
  | succ n ih =>
    have h1 : (UInt8.ofNat v).toNat = v % 256 := by simp
    rw [leOfNat, natOfLe, ih, h1, pow_succ', Nat.mod_mul]

theorem natOfLe_lt (bs : List Octet) : natOfLe bs < 256 ^ bs.length := by
  induction bs with
  | nil => simp [natOfLe]
  | cons b bs ih =>
    have := b.toNat_lt
    simp only [natOfLe, List.length_cons, pow_succ']
    omega

theorem natOfLe_append (a b : List Octet) :
    natOfLe (a ++ b) = natOfLe a + 256 ^ a.length * natOfLe b := by
  induction a with
  | nil => simp [natOfLe]
  | cons x a ih => simp only [List.cons_append, natOfLe, ih, List.length_cons, pow_succ']; ring

theorem natOfLe_zeros (n : Nat) : natOfLe (List.replicate n 0) = 0 := by
  induction n with
  | zero => rfl
  | succ n ih => simp [List.replicate_succ, natOfLe, ih]

theorem natOfLe_take (bs : List Octet) (n : Nat) (h : n ≤ bs.length) :
    natOfLe (bs.take n) = natOfLe bs % 256 ^ n := by
  have e : natOfLe bs = natOfLe (bs.take n) + 256 ^ n * natOfLe (bs.drop n) := by
    conv_lhs => rw [← List.take_append_drop n bs, natOfLe_append]
    rw [List.length_take, min_eq_left h]
  have hlt := natOfLe_lt (bs.take n)
  rw [List.length_take, min_eq_left h] at hlt
  rw [e, Nat.add_mul_mod_self_left, Nat.mod_eq_of_lt hlt]

theorem resize_length (n : Nat) (bs : List Octet) : (resize n bs).length = n := by
  simp [resize]
  omega

theorem natOfLe_resize_short (n : Nat) (bs : List Octet) (h : bs.length ≤ n) :
    natOfLe (resize n bs) = natOfLe bs := by
  have e : resize n bs = bs ++ List.replicate (n - bs.length) 0 := by
    unfold resize
    apply List.take_of_length_le
    simp
    omega
  rw [e, natOfLe_append, natOfLe_zeros]
  simp

theorem natOfLe_resize_long (n : Nat) (bs : List Octet) (h : n ≤ bs.length) :
    natOfLe (resize n bs) = natOfLe bs % 256 ^ n := by
  have e : resize n bs = bs.take n := by
    unfold resize
    rw [Nat.sub_eq_zero_of_le h]
    simp
  rw [e, natOfLe_take _ _ h]

theorem fromSignedLe_range (bs : List Octet) :
    -(256 ^ bs.length) ≤ 2 * fromSignedLe bs ∧ 2 * fromSignedLe bs < 256 ^ bs.length := by
  have h := natOfLe_lt bs
  have h' : (natOfLe bs : Int) < 256 ^ bs.length := by exact_mod_cast h
  unfold fromSignedLe
  split
  · next h1 =>
    have h1' : 2 * (natOfLe bs : Int) < 256 ^ bs.length := by exact_mod_cast h1
    have : (0 : Int) < 256 ^ bs.length := by positivity
    constructor <;> omega
  · next h1 =>
    have h1' : (256 : Int) ^ bs.length ≤ 2 * (natOfLe bs : Int) := by exact_mod_cast not_lt.1 h1
    constructor <;> omega

theorem signedLen_pos (v : Int) : 0 < signedLen v := by
  unfold signedLen
  simp only
  split <;> split <;> omega

/-- A natural number below half of `256 ^ n` has fewer than `8 n` bits. -/
theorem log2_octets (m n : Nat) (hm : m ≠ 0) : (m.log2 + 1) / 8 + 1 ≤ n ↔ 2 * m < 256 ^ n := by
  have e : 256 ^ n = 2 ^ (8 * n) := by rw [pow_mul]; norm_num
  have h1 : 2 * m < 2 ^ (8 * n) ↔ m.log2 + 1 < 8 * n := by
    rw [← Nat.log2_two_mul hm]
    rw [Nat.log2_lt (by omega)]
  rw [e, h1]
  omega

/-- The octets needed by a number. -/
theorem signedLen_le (v : Int) (n : Nat) (hn : 0 < n) :
    signedLen v ≤ n ↔ -(256 ^ n) ≤ 2 * v ∧ 2 * v < 256 ^ n := by
  have hpos : (256 : Int) ≤ 256 ^ n := by
    have : (256 : Nat) ^ 1 ≤ 256 ^ n := Nat.pow_le_pow_right (by decide) hn
    exact_mod_cast this
  unfold signedLen
  by_cases h0 : 0 ≤ v
  · simp only [h0, if_true]
    by_cases hm : v.toNat = 0
    · rw [if_pos hm]
      constructor
      · intro _; constructor <;> omega
      · intro _; omega
    · rw [if_neg hm, log2_octets _ _ hm]
      constructor
      · intro h
        have h' : (2 * (v.toNat : Int)) < 256 ^ n := by exact_mod_cast h
        constructor <;> omega
      · intro h
        have : ((2 * v.toNat : Nat) : Int) < ((256 ^ n : Nat) : Int) := by push_cast; omega
        exact_mod_cast this
  · simp only [h0, if_false]
    by_cases hm : (-v - 1).toNat = 0
    · rw [if_pos hm]
      constructor
      · intro _; constructor <;> omega
      · intro _; omega
    · rw [if_neg hm, log2_octets _ _ hm]
      constructor
      · intro h
        have h' : (2 * ((-v - 1).toNat : Int)) < 256 ^ n := by exact_mod_cast h
        have heven : (2 : Int) ∣ 256 ^ n := dvd_pow (by decide) (by omega)
        constructor <;> omega
      · intro h
        have : ((2 * (-v - 1).toNat : Nat) : Int) < ((256 ^ n : Nat) : Int) := by push_cast; omega
        exact_mod_cast this

theorem toSignedLe_length (v : Int) : (toSignedLe v).length = signedLen v := leOfNat_length _ _

theorem natOfLe_toSignedLe (v : Int) : (natOfLe (toSignedLe v) : Int) = v % 256 ^ signedLen v := by
  unfold toSignedLe
  rw [natOfLe_leOfNat]
  have hp : (0 : Int) < 256 ^ signedLen v := by positivity
  have h1 := Int.emod_nonneg v hp.ne'
  have h2 := Int.emod_lt_of_pos v hp
  have : (v % 256 ^ signedLen v).toNat < 256 ^ signedLen v := by
    have : ((v % 256 ^ signedLen v).toNat : Int) < ((256 ^ signedLen v : Nat) : Int) := by
      push_cast; omega
    exact_mod_cast this
  rw [Nat.mod_eq_of_lt this]
  omega

/-- What the reader of octets makes of a number below `256 ^ n`. -/
theorem fromSignedLe_of (bs : List Octet) (v : Int) (h : (natOfLe bs : Int) = v % 256 ^ bs.length)
    (h1 : -(256 ^ bs.length) ≤ 2 * v) (h2 : 2 * v < 256 ^ bs.length) : fromSignedLe bs = v := by
  unfold fromSignedLe
  generalize hN : (256 : Int) ^ bs.length = N at *
  have hN' : ((256 ^ bs.length : Nat) : Int) = N := by rw [← hN]; push_cast; rfl
  have hpos : 0 < N := by rw [← hN]; positivity
  by_cases h0 : 0 ≤ v
  · rw [Int.emod_eq_of_lt h0 (by omega)] at h
    rw [if_pos (by have : ((2 * natOfLe bs : Nat) : Int) < ((256 ^ bs.length : Nat) : Int) := by
                    { push_cast; rw [hN, h]; exact h2 }
                   exact_mod_cast this)]
    exact h
  · have e : v % N = v + N := by
      have := Int.emod_eq_of_lt (a := v + N) (b := N) (by omega) (by omega)
      rw [Int.add_emod_right] at this
      exact this
    rw [e] at h
    rw [if_neg (by
      intro hc
      have : ((2 * natOfLe bs : Nat) : Int) < ((256 ^ bs.length : Nat) : Int) := by exact_mod_cast hc
      push_cast at this
      rw [hN, h] at this
      omega), h]
    omega

theorem fromSignedLe_toSignedLe (v : Int) : fromSignedLe (toSignedLe v) = v := by
  have h := (signedLen_le v (signedLen v) (signedLen_pos v)).1 (le_refl _)
  apply fromSignedLe_of
  · rw [natOfLe_toSignedLe, toSignedLe_length]
  · rw [toSignedLe_length]; exact h.1
  · rw [toSignedLe_length]; exact h.2

/-- **The octets of a coordinate are read back as the same number exactly for the numbers that
fit.** -/
theorem roundTrip_iff (n : Nat) (hn : 0 < n) (v : Int) :
    fromSignedLe (resize n (toSignedLe v)) = v ↔ Fits n v := by
  have hlen : (resize n (toSignedLe v)).length = n := resize_length _ _
  have hrange := fromSignedLe_range (resize n (toSignedLe v))
  rw [hlen] at hrange
  have hL := natOfLe_toSignedLe v
  constructor
  · intro h
    rw [h] at hrange
    by_cases h0 : 0 ≤ v
    · exact Or.inl ⟨h0, hrange.2⟩
    · refine Or.inr ⟨hrange.1, ?_⟩
      by_contra hge
      -- a negative number that needs fewer octets is padded with zeros
      have hn1 : 1 < n := by
        by_contra hc
        have : n = 1 := by omega
        subst this
        simp at hge
        omega
      have hshort : signedLen v ≤ n - 1 := by
        rw [signedLen_le v (n - 1) (by omega)]
        refine ⟨by omega, ?_⟩
        have : (0 : Int) < 256 ^ (n - 1) := by positivity
        omega
      have hnat := natOfLe_resize_short n (toSignedLe v) (by rw [toSignedLe_length]; omega)
      have hlt := natOfLe_lt (toSignedLe v)
      rw [toSignedLe_length] at hlt
      have hle : 256 ^ signedLen v ≤ 256 ^ (n - 1) := Nat.pow_le_pow_right (by decide) hshort
      have hpn : 256 ^ n = 256 * 256 ^ (n - 1) := by
        rw [← pow_succ']
        congr 1
        omega
      unfold fromSignedLe at h
      rw [hnat, hlen, if_pos (by omega)] at h
      omega
  · rintro (⟨h0, h1⟩ | ⟨h0, h1⟩)
    · have hs : signedLen v ≤ n := (signedLen_le v n hn).2 ⟨by
        have : (0 : Int) < 256 ^ n := by positivity
        omega, h1⟩
      apply fromSignedLe_of
      · rw [natOfLe_resize_short n _ (by rw [toSignedLe_length]; exact hs), hL, hlen]
        have hb := (signedLen_le v _ (signedLen_pos v)).1 (le_refl _)
        rw [Int.emod_eq_of_lt h0 (by omega), Int.emod_eq_of_lt h0 (by omega)]
      · rw [hlen]
        have : (0 : Int) < 256 ^ n := by positivity
        omega
      · rw [hlen]; exact h1
    · have hpn : (0 : Int) < 256 ^ (n - 1) := by positivity
      have hs : signedLen v ≤ n := (signedLen_le v n hn).2 ⟨h0, by
        have : (0 : Int) < 256 ^ n := by positivity
        omega⟩
      have hs' : n ≤ signedLen v := by
        by_contra hc
        by_cases hn1 : 1 < n
        · have := (signedLen_le v (n - 1) (by omega)).1 (by omega)
          omega
        · have := signedLen_pos v
          omega
      have hs2 : signedLen v = n := by omega
      apply fromSignedLe_of
      · rw [natOfLe_resize_short n _ (by rw [toSignedLe_length]; exact hs), hL, hlen, hs2]
      · rw [hlen]; exact h0
      · rw [hlen]
        have : (0 : Int) < 256 ^ n := by positivity
        omega

end Verif.Ec
