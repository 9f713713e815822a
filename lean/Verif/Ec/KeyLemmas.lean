import Verif.Ec.InvLemmas
import Verif.Ec.OrderLemmas
import Verif.Ec.OctetLemmas

/-!
# Public keys and shared keys, for any curve whose parameters fit together
-/

namespace Verif.Ec

open WeierstrassCurve.Affine

/-- The constants of the code fit the domain parameters of the standard. -/
structure Setup (c : Curve) (d : Domain) [Fact (Nat.Prime d.p)] (G : d.curve.Point) : Prop where
  hp : c.p = d.p
  h2 : 2 < d.p
  hn : d.n.Prime
  hbase : Rep d (base c) G
  hG : d.n • G = 0
  horder : ∀ m : Nat, 0 < m → m < d.n → m • G ≠ 0
  hsize : 0 < c.keySize
  hnsize : 256 ^ c.keySize ≤ 2 * d.n
  hpsize : 256 ^ c.keySize < 2 * d.p

theorem setup192 : Setup p192 nist192 g192 where
  hp := by decide +kernel
  h2 := by decide +kernel
  hn := prime_n192
  hbase := rep_g192
  hG := order_g192.1
  horder := order_g192.2
  hsize := by decide +kernel
  hnsize := by decide +kernel
  hpsize := by decide +kernel

theorem setup256 : Setup p256 nist256 g256 where
  hp := by decide +kernel
  h2 := by decide +kernel
  hn := prime_n256
  hbase := rep_g256
  hG := order_g256.1
  horder := order_g256.2
  hsize := by decide +kernel
  hnsize := by decide +kernel
  hpsize := by decide +kernel

section
variable {c : Curve} {d : Domain} [Fact (Nat.Prime d.p)] {G : d.curve.Point}

theorem carries_resize (n : Nat) (hn : 0 < n) (x y : Int) :
    Carries n (resize n (toSignedLe x) ++ resize n (toSignedLe y)) x y := by
  have hx := resize_length n (toSignedLe x)
  have hy := resize_length n (toSignedLe y)
  refine ⟨by simp [hx, hy]; omega, ?_, ?_⟩
  · have : List.take n (resize n (toSignedLe x) ++ resize n (toSignedLe y)) =
        resize n (toSignedLe x) := by
      rw [List.take_append_of_le_length (by omega), List.take_of_length_le (by omega)]
    rw [this]
    exact roundTrip_iff n hn x
  · have : List.drop n (resize n (toSignedLe x) ++ resize n (toSignedLe y)) =
        resize n (toSignedLe y) := by
      rw [List.drop_append_of_le_length (by omega), List.drop_of_length_le (by omega)]
      rfl
    rw [this]
    exact roundTrip_iff n hn y

theorem keyValue_spec (S : Setup c d G) {key : List Octet} (h : ValidKey c.keySize key) :
    fromSignedLe key = (keyValue key : Int) ∧ 0 < keyValue key ∧ keyValue key < d.n := by
  obtain ⟨hl, h1⟩ := h
  have hr := fromSignedLe_range key
  rw [hl] at hr
  have he : fromSignedLe key = (keyValue key : Int) := by unfold keyValue; omega
  have hs : ((256 ^ c.keySize : Nat) : Int) ≤ ((2 * d.n : Nat) : Int) := by exact_mod_cast S.hnsize
  push_cast at hs
  refine ⟨he, by omega, by omega⟩

/-- A point that is a non-zero multiple of the base point, multiplied by a private key. -/
theorem multiple_octets (S : Setup c d G) {key : List Octet} (hk : ValidKey c.keySize key) {P : Pt}
    {b : Nat} (hb : 0 < b) (hbn : b < d.n) (hP : Rep d P (b • G)) :
    ∃ x y : Int, toBytes c (mul c P (fromSignedLe key)) =
        .ok (resize c.keySize (toSignedLe x) ++ resize c.keySize (toSignedLe y)) ∧
      |x| < d.p ∧ |y| < d.p ∧ d.IsPoint x y ((keyValue key * b) • G) := by
  obtain ⟨hv, hpos, hlt⟩ := keyValue_spec S hk
  have hG0 : G ≠ 0 := by
    have := S.horder 1 (by omega) S.hn.one_lt
    rwa [one_nsmul] at this
  have hord := order_multiple d S.hn S.hG hG0 b hb hbn
  have hrep := mul_rep d S.hp S.h2 hord hP (keyValue key) hlt
  obtain ⟨x, y, ha, hx, hy, hpt⟩ := toAffine_rep d S.hp hrep (hord _ hpos hlt)
  refine ⟨x, y, ?_, hx, hy, ?_⟩
  · rw [hv]
    simp only [toBytes, ha]
  · rwa [mul_nsmul']

theorem derive_octets (S : Setup c d G) {key : List Octet} (hk : ValidKey c.keySize key) :
    ∃ x y : Int, derive c key =
        .ok (resize c.keySize (toSignedLe x) ++ resize c.keySize (toSignedLe y)) ∧
      |x| < d.p ∧ |y| < d.p ∧ d.IsPoint x y (keyValue key • G) := by
  have := multiple_octets S hk (b := 1) (by omega) S.hn.one_lt (P := base c)
    (by rw [one_nsmul]; exact S.hbase)
  rw [mul_one] at this
  exact this

theorem toPoint_rep (S : Setup c d G) {pub : List Octet} {Q : d.curve.Point}
    (h : Denotes d c.keySize pub Q) : Rep d (toPoint pub) Q := by
  obtain ⟨hl, hns, hQ⟩ := h
  have hhalf : pub.length / 2 = c.keySize := by omega
  unfold toPoint
  rw [hhalf]
  have hlen : (pub.drop c.keySize).length = c.keySize := by simp; omega
  have hr := fromSignedLe_range (pub.drop c.keySize)
  rw [hlen] at hr
  have hs : ((256 ^ c.keySize : Nat) : Int) < ((2 * d.p : Nat) : Int) := by exact_mod_cast S.hpsize
  push_cast at hs
  refine ⟨abs_lt.2 ⟨by omega, by omega⟩, by simp, _, _, hns, hQ, by simp, by simp⟩

theorem sharedSecret_octets (S : Setup c d G) {key pub : List Octet} (hk : ValidKey c.keySize key)
    {b : Nat} (hb : 0 < b) (hbn : b < d.n) (hpub : Denotes d c.keySize pub (b • G)) :
    ∃ x y : Int, sharedSecret c key pub =
        .ok (resize c.keySize (toSignedLe x) ++ resize c.keySize (toSignedLe y)) ∧
      |x| < d.p ∧ |y| < d.p ∧ d.IsPoint x y ((keyValue key * b) • G) :=
  multiple_octets S hk hb hbn (toPoint_rep S hpub)

theorem isPoint_congr {x y x' y' : Int} {Q : d.curve.Point} (h : d.IsPoint x y Q)
    (h' : d.IsPoint x' y' Q) : (x : ZMod d.p) = x' ∧ (y : ZMod d.p) = y' := by
  obtain ⟨g, rfl⟩ := h
  obtain ⟨g', e⟩ := h'
  injection e with e1 e2
  exact ⟨e1, e2⟩

theorem eq_of_sign {p : Nat} {x x' : Int} (hx : |x| < p) (hx' : |x'| < p)
    (h : (x : ZMod p) = x') (hs : 0 ≤ x ↔ 0 ≤ x') : x = x' := by
  rw [abs_lt] at hx hx'
  rw [ZMod.intCast_eq_intCast_iff] at h
  have hd : (p : Int) ∣ x - x' := (Int.modEq_iff_dvd.1 h.symm)
  have : |x - x'| < p := by
    rw [abs_lt]
    by_cases h0 : 0 ≤ x
    · have := hs.1 h0
      omega
    · have : ¬ 0 ≤ x' := fun h => h0 (hs.2 h)
      omega
  have := Int.eq_zero_of_abs_lt_dvd hd this
  omega

end

/-- The outcomes of key generation. -/
theorem generate_cases (c : Curve) (hs : 0 < c.keySize) (random : List Octet)
    (hr : random.length = c.keySize) :
    (2 * fromSignedLe random = -(256 ^ c.keySize) ∧ generate c random = .panic) ∨
      (2 * fromSignedLe random ≠ -(256 ^ c.keySize) ∧
        ∃ key, generate c random = .ok key ∧ ValidKey c.keySize key ∧
          fromSignedLe key = if fromSignedLe random = 0 then 1 else |fromSignedLe random|) := by
  have hrange := fromSignedLe_range random
  rw [hr] at hrange
  unfold generate
  generalize fromSignedLe random = v at *
  have h256 : (256 : Int) ≤ 256 ^ c.keySize := by
    have : (256 : Nat) ^ 1 ≤ 256 ^ c.keySize := Nat.pow_le_pow_right (by decide) hs
    exact_mod_cast this
  have hk : (if (if v < 0 then -v else v) < 1 then 1 else (if v < 0 then -v else v)) =
      if v = 0 then 1 else |v| := by
    by_cases h0 : v < 0
    · rw [if_pos h0, if_neg (by omega), if_neg (by omega), abs_of_neg h0]
    · rw [if_neg h0, abs_of_nonneg (by omega)]
      by_cases h1 : v = 0
      · rw [if_pos (by omega), if_pos h1]
      · rw [if_neg (by omega), if_neg h1]
  simp only [hk]
  generalize hK : (if v = 0 then 1 else |v|) = K
  have hK1 : 1 ≤ K ∧ K ≤ max 1 |v| := by
    rw [← hK]
    split
    · exact ⟨le_refl _, le_max_left _ _⟩
    · next h => exact ⟨Int.one_le_abs h, le_max_right _ _⟩
  by_cases hbad : 2 * v = -(256 ^ c.keySize)
  · refine Or.inl ⟨hbad, ?_⟩
    have hKv : K = -v := by
      rw [← hK, if_neg (by omega), abs_of_neg (by omega)]
    rw [if_pos]
    rw [toSignedLe_length]
    by_contra hc
    have := (signedLen_le K c.keySize hs).1 (by omega)
    omega
  · refine Or.inr ⟨hbad, ?_⟩
    have hlt : 2 * K < 256 ^ c.keySize := by
      have : |v| < 256 ^ c.keySize - |v| := by
        rcases abs_cases v with ⟨e, _⟩ | ⟨e, _⟩ <;> omega
      rcases le_max_iff.1 hK1.2 with h | h <;> omega
    have hlen := (signedLen_le K c.keySize hs).2 ⟨by omega, hlt⟩
    rw [if_neg (by rw [toSignedLe_length]; omega)]
    have hrt : fromSignedLe (resize c.keySize (toSignedLe K)) = K :=
      (roundTrip_iff c.keySize hs K).2 (Or.inl ⟨by omega, hlt⟩)
    exact ⟨_, rfl, ⟨resize_length _ _, by rw [hrt]; exact hK1.1⟩, hrt⟩

end Verif.Ec
