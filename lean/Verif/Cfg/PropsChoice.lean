import Verif.Cfg.Lemmas
/-! # C87: a controller reports the features its configuration asks for -/
namespace Verif.Cfg
open Verif.Hci (Preset)

theorem bit_of_pow {k n : Nat} : (2 ^ k).testBit n = decide (k = n) := Nat.testBit_two_pow

theorem bit_set {mask k n : Nat} {b : Bool} (h : mask < 2 ^ 64) (hk : k < 64) :
    (setFeature mask (2 ^ k) b).testBit n = if n = k then b else mask.testBit n := by
  have ones : ∀ n, (0xffffffffffffffff : Nat).testBit n = decide (n < 64) := by
    intro n
    show (2 ^ 64 - 1).testBit n = _
    rw [Nat.testBit_two_pow_sub_one]
  cases b with
  | true =>
    simp only [setFeature, if_true, Nat.testBit_or, bit_of_pow]
    by_cases hn : n = k
    · simp [hn]
    · simp [hn, Ne.symm hn]
  | false =>
    simp only [setFeature, Bool.false_eq_true, if_false, Nat.testBit_and, Nat.testBit_xor, bit_of_pow, ones]
    by_cases hn : n = k
    · subst hn
      simp [hk]
    · by_cases h64 : n < 64
      · simp [hn, Ne.symm hn, h64]
      · have : mask.testBit n = false :=
          Nat.testBit_lt_two_pow (Nat.lt_of_lt_of_le h (Nat.pow_le_pow_right (by decide) (by omega)))
        simp [hn, this]

theorem set_lt {mask k : Nat} {b : Bool} (h : mask < 2 ^ 64) (hk : k < 64) : setFeature mask (2 ^ k) b < 2 ^ 64 := by
  cases b with
  | true => exact Nat.or_lt_two_pow h (Nat.pow_lt_pow_right (by decide) hk)
  | false => exact Nat.lt_of_le_of_lt Nat.and_le_left h

theorem bit_optional {mask k n : Nat} {o : Option Bool} (h : mask < 2 ^ 64) (hk : k < 64) :
    (optional o (2 ^ k) mask).testBit n = if n = k then o.getD (mask.testBit n) else mask.testBit n := by
  cases o with
  | none => simp [optional]
  | some b => simp only [optional, Option.getD_some]; exact bit_set h hk

theorem optional_lt {mask k : Nat} {o : Option Bool} (h : mask < 2 ^ 64) (hk : k < 64) : optional o (2 ^ k) mask < 2 ^ 64 := by
  cases o with
  | none => exact h
  | some b => exact set_lt h hk

theorem said_none {a b c d e f g h i : Option Bool} {n : Nat} (hn : n ∉ [6, 8, 11, 12, 13, 28, 29, 33, 37, 46]) :
    said a b c d e f g h i n = none := by
  unfold said
  split <;> first | rfl | exact absurd (by decide) hn

theorem bit_features (c : Choice) {mask : Nat} (h : mask < 2 ^ 64) (n : Nat) : (features c mask).testBit n =
    (said c.extended c.periodic c.privacy c.phy2m c.coded c.iso c.subrating c.sounding c.power n).getD (mask.testBit n) := by
  have e : features c mask = optional c.power (2 ^ 33) (optional c.sounding (2 ^ 46) (optional c.subrating (2 ^ 37)
      (optional c.iso (2 ^ 29) (optional c.iso (2 ^ 28) (optional c.coded (2 ^ 11) (optional c.phy2m (2 ^ 8)
        (optional c.privacy (2 ^ 6) (optional c.periodic (2 ^ 13) (optional c.extended (2 ^ 12) mask))))))))) := rfl
  have h0 := optional_lt (k := 12) (o := c.extended) h (by decide)
  have h1 := optional_lt (k := 13) (o := c.periodic) h0 (by decide)
  have h2 := optional_lt (k := 6) (o := c.privacy) h1 (by decide)
  have h3 := optional_lt (k := 8) (o := c.phy2m) h2 (by decide)
  have h4 := optional_lt (k := 11) (o := c.coded) h3 (by decide)
  have h5 := optional_lt (k := 28) (o := c.iso) h4 (by decide)
  have h6 := optional_lt (k := 29) (o := c.iso) h5 (by decide)
  have h7 := optional_lt (k := 37) (o := c.subrating) h6 (by decide)
  have h8 := optional_lt (k := 46) (o := c.sounding) h7 (by decide)
  rw [e, bit_optional h8 (by decide), bit_optional h7 (by decide), bit_optional h6 (by decide), bit_optional h5 (by decide),
    bit_optional h4 (by decide), bit_optional h3 (by decide), bit_optional h2 (by decide), bit_optional h1 (by decide),
    bit_optional h0 (by decide), bit_optional h (by decide)]
  clear e h0 h1 h2 h3 h4 h5 h6 h7 h8
  by_cases a6 : n = 6
  · subst a6; rfl
  by_cases a8 : n = 8
  · subst a8; rfl
  by_cases a11 : n = 11
  · subst a11; rfl
  by_cases a12 : n = 12
  · subst a12; rfl
  by_cases a13 : n = 13
  · subst a13; rfl
  by_cases a28 : n = 28
  · subst a28; rfl
  by_cases a29 : n = 29
  · subst a29; rfl
  by_cases a33 : n = 33
  · subst a33; rfl
  by_cases a37 : n = 37
  · subst a37; rfl
  by_cases a46 : n = 46
  · subst a46; rfl
  rw [said_none (by simp [a6, a8, a11, a12, a13, a28, a29, a33, a37, a46])]
  simp only [a6, a8, a11, a12, a13, a28, a29, a33, a37, a46, if_false, Option.getD_none]

theorem base_lt (p : Preset) : (base p).leFeatures < 2 ^ 64 := by cases p <;> decide +kernel

/-- C87. Whatever the preset and whatever the configuration says of the nine features, the controller reports an LE
feature if the configuration turns it on, or says nothing and the preset has it. -/
theorem C87_features (p : Preset) (c : Choice) (n : Nat) : (construct p c).view.ll n =
    (said c.extended c.periodic c.privacy c.phy2m c.coded c.iso c.subrating c.sounding c.power n).getD ((base p).view.ll n) :=
  bit_features c (base_lt p) n

/-- C87. The configuration changes neither the features of the link manager nor the version nor the transports. -/
theorem C87_rest (p : Preset) (c : Choice) : (construct p c).view.lmp = (base p).view.lmp ∧
    (construct p c).lmpVersion = (base p).lmpVersion ∧ (construct p c).br = (base p).br ∧
    (construct p c).le = (base p).le ∧ (construct p c).roles = (base p).roles := ⟨rfl, rfl, rfl, rfl, rfl⟩

/-- C87. The PHYs the controller accepts in commands are LE 1M, and LE 2M and LE Coded as the configuration says. -/
theorem C87_phys (p : Preset) (c : Choice) (n : Nat) : (construct p c).phys.testBit n =
    (n == 0 || n == 1 && c.phy2m.getD ((base p).view.ll 8) || n == 2 && c.coded.getD ((base p).view.ll 11)) := by
  have h8 := C87_features p c 8
  have h11 := C87_features p c 11
  simp only [said] at h8 h11
  rw [← h8, ← h11, ← ll_le2mPhy, ← ll_leCodedPhy]
  have key : ∀ a b : Bool, (1 ||| (if a then 2 else 0) ||| (if b then 4 else 0)).testBit n = (n == 0 || n == 1 && a || n == 2 && b) := by
    intro a b
    match n with
    | 0 => revert a b; decide
    | 1 => revert a b; decide
    | 2 => revert a b; decide
    | n + 3 =>
      have h8 : ∀ a b : Bool, 1 ||| (if a then 2 else 0) ||| (if b then 4 else 0) < 2 ^ 3 := by decide
      rw [Nat.testBit_lt_two_pow (Nat.lt_of_lt_of_le (h8 a b) (Nat.pow_le_pow_right (by decide) (by omega)))]
      rfl
  exact key _ _

/-- C87. Without a preset the controller has all nine features. -/
theorem C87_default (n : Nat) (h : n ∈ [6, 8, 11, 12, 13, 28, 29, 33, 37, 46]) : (base .default).view.ll n = true := by
  revert n
  decide +kernel

/-- The Intel preset with LL privacy turned off and LE Coded turned on. -/
example : let c : Choice := ⟨none, none, some false, none, some true, none, none, none, none⟩
    (construct .intel c).view.ll 6 = false ∧ (construct .intel c).view.ll 11 = true ∧
    (construct .intel c).view.ll 8 = true ∧ (construct .intel c).view.ll 46 = false := by decide +kernel

end Verif.Cfg
