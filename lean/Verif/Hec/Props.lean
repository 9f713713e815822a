import Verif.Hec.Model
import Verif.Hec.Spec
import Mathlib.Tactic.Ring
import Mathlib.Tactic.LinearCombination
import Mathlib.Tactic.ComputeDegree
/-! # C16: the baseband header error check -/

namespace Verif.Hec
open Polynomial

theorem lift8 {P : UInt8 → Prop} (h : ∀ n : Fin 256, P (UInt8.ofNat n)) (v : UInt8) : P v := by
  have := h ⟨v.toNat, v.toNat_lt⟩
  simpa using this

/-- The register read as a polynomial: the least significant bit is the coefficient of `X⁷`. -/
noncomputable def regPoly (v : UInt8) : (ZMod 2)[X] := ofBits (bitsLsb 8 v.toNat)

theorem step_bits (v : UInt8) : ∀ b : Bool,
    let c := (v.toNat.testBit 0) != b
    bitsLsb 8 (hecStep v b).toNat =
      [v.toNat.testBit 1 != c, v.toNat.testBit 2, v.toNat.testBit 3 != c, v.toNat.testBit 4,
       v.toNat.testBit 5, v.toNat.testBit 6 != c, v.toNat.testBit 7 != c, c] := by
  revert v
  apply lift8
  decide +kernel

theorem two_eq_zero : (2 : (ZMod 2)[X]) = 0 := by
  have : (2 : ZMod 2) = 0 := by decide
  have h2 : (2 : (ZMod 2)[X]) = C (2 : ZMod 2) := rfl
  rw [h2, this, C_0]

theorem coef_bne (a b : Bool) : coef (a != b) = coef a + coef b := by
  cases a <;> cases b <;> decide

theorem generator_eq : generator = X ^ 8 + X ^ 7 + X ^ 5 + X ^ 2 + X + 1 := by
  unfold generator
  linear_combination (X ^ 4 + X ^ 3) * two_eq_zero

theorem generator_monic : generator.Monic := by
  rw [generator_eq]; monicity!

theorem generator_degree : generator.degree = 8 := by
  rw [generator_eq]
  have : (1 : ZMod 2) ≠ 0 := by decide
  compute_degree!

theorem regPoly_eq (v : UInt8) : regPoly v = C (coef (v.toNat.testBit 0)) * X ^ 7 + C (coef (v.toNat.testBit 1)) * X ^ 6 +
    C (coef (v.toNat.testBit 2)) * X ^ 5 + C (coef (v.toNat.testBit 3)) * X ^ 4 + C (coef (v.toNat.testBit 4)) * X ^ 3 +
    C (coef (v.toNat.testBit 5)) * X ^ 2 + C (coef (v.toNat.testBit 6)) * X + C (coef (v.toNat.testBit 7)) := by
  unfold regPoly
  have : bitsLsb 8 v.toNat = [v.toNat.testBit 0, v.toNat.testBit 1, v.toNat.testBit 2, v.toNat.testBit 3,
    v.toNat.testBit 4, v.toNat.testBit 5, v.toNat.testBit 6, v.toNat.testBit 7] := rfl
  rw [this]
  simp only [ofBits, List.length_cons, List.length_nil]
  ring

theorem regPoly_degree (v : UInt8) : (regPoly v).degree < 8 := by
  rw [regPoly_eq]
  refine lt_of_le_of_lt (b := ((7 : ℕ) : WithBot ℕ)) ?_ (by norm_cast)
  compute_degree
  norm_cast

/-- A step of the register is a division step. -/
theorem regPoly_step (v : UInt8) (b : Bool) :
    regPoly (hecStep v b) + generator * C (coef ((v.toNat.testBit 0) != b)) =
      X * regPoly v + C (coef b) * X ^ 8 := by
  have h := step_bits v b
  simp only at h
  have h1 : regPoly (hecStep v b) = ofBits [v.toNat.testBit 1 != ((v.toNat.testBit 0) != b), v.toNat.testBit 2,
      v.toNat.testBit 3 != ((v.toNat.testBit 0) != b), v.toNat.testBit 4,
      v.toNat.testBit 5, v.toNat.testBit 6 != ((v.toNat.testBit 0) != b),
      v.toNat.testBit 7 != ((v.toNat.testBit 0) != b), ((v.toNat.testBit 0) != b)] := by
    unfold regPoly; rw [h]
  rw [h1, regPoly_eq, generator_eq]
  simp only [ofBits, List.length_cons, List.length_nil, coef_bne, C_add]
  have h2 := two_eq_zero
  linear_combination (X ^ 7 + X ^ 5 + X ^ 2 + X + 1) *
    (C (coef (v.toNat.testBit 0)) + C (coef b)) * h2

theorem ofBits_append (a b : List Bool) : ofBits (a ++ b) = ofBits a * X ^ b.length + ofBits b := by
  induction a with
  | nil => simp [ofBits]
  | cons x a ih =>
    simp only [List.cons_append, ofBits, ih, List.length_append, pow_add]
    ring

theorem testBit_shift (w : UInt32) (i : Nat) : (w >>> 1).toNat.testBit i = w.toNat.testBit (i + 1) := by
  rw [UInt32.toNat_shiftRight]
  simp [Nat.testBit_shiftRight, Nat.add_comm]

theorem bitsLsb_succ (n : Nat) (w : UInt32) :
    bitsLsb (n + 1) w.toNat = w.toNat.testBit 0 :: bitsLsb n (w >>> 1).toNat := by
  simp only [bitsLsb, List.range_succ_eq_map, List.map_cons, List.map_map]
  congr 1
  apply List.map_congr_left
  intro i _
  exact (testBit_shift w i).symm

theorem bit0 (w : UInt32) : (decide (w &&& 1 = 1)) = w.toNat.testBit 0 := by
  have h : (w &&& 1).toNat = w.toNat % 2 := by
    rw [UInt32.toNat_and]; exact Nat.and_one_is_mod _
  rw [Nat.testBit_zero]
  congr 1
  apply propext
  constructor
  · intro e; rw [← h, e]; rfl
  · intro e; apply UInt32.toNat.inj; rw [h, e]; rfl

theorem loop_poly (n : Nat) : ∀ (v : UInt8) (d : UInt32), ∃ q : (ZMod 2)[X],
    regPoly (hecLoop n v d) + generator * q = regPoly v * X ^ n + ofBits (bitsLsb n d.toNat) * X ^ 8 := by
  induction n with
  | zero => intro v d; exact ⟨0, by simp [hecLoop, bitsLsb, ofBits]⟩
  | succ n ih =>
    intro v d
    obtain ⟨q, hq⟩ := ih (hecStep v (d &&& 1 = 1)) (d >>> 1)
    have hs := regPoly_step v (d &&& 1 = 1)
    refine ⟨q + C (coef ((v.toNat.testBit 0) != (decide (d &&& 1 = 1)))) * X ^ n, ?_⟩
    rw [hecLoop, bitsLsb_succ]
    simp only [ofBits]
    have hl : (bitsLsb n (d >>> 1).toNat).length = n := by simp [bitsLsb]
    rw [hl, ← bit0]
    linear_combination hq + X ^ n * hs

theorem reverse_bits (u : UInt8) : bitsLsb 8 (reverseByte u).toNat = bitsMsb 8 u.toNat := by
  revert u
  apply lift8
  decide +kernel

/-- **C16.** The header error check of a ten-bit header, its least significant bit being the coefficient of `D⁷`, is the
remainder by the generator of `D⁸` times the header polynomial (bits in order of transmission, the first one highest)
plus `D¹⁰` times the UAP polynomial: the shift register of the specification seeded with the UAP. For all UAPs and all
words, of which only the ten low bits matter. -/
theorem C16_remainder (uap : UInt8) (header : UInt32) :
    ofBits (bitsLsb 8 (hec uap header).toNat) =
      (X ^ 10 * ofBits (bitsMsb 8 uap.toNat) + X ^ 8 * ofBits (bitsLsb 10 header.toNat)) %ₘ generator := by
  obtain ⟨q, hq⟩ := loop_poly 10 (reverseByte uap) header
  have := Polynomial.div_modByMonic_unique (f := X ^ 10 * ofBits (bitsMsb 8 uap.toNat) +
    X ^ 8 * ofBits (bitsLsb 10 header.toNat)) q (regPoly (hec uap header)) generator_monic
    ⟨by
      unfold hec
      rw [hq]
      unfold regPoly
      rw [reverse_bits]
      ring, by rw [generator_degree]; exact regPoly_degree _⟩
  exact this.2.symm

/-- Sample data of Bluetooth Core, Vol 2, Part G, 3: UAP 0x00 and header 0x123 give 0xe1; UAP 0x47, header 0x123 give
0x06. -/
example : hec 0x00 0x123 = 0xe1 ∧ hec 0x47 0x123 = 0x06 := by decide +kernel

/-! ## Error detection -/

theorem step_xor (v w : UInt8) (a b : Bool) :
    hecStep (v ^^^ w) (a != b) = hecStep v a ^^^ hecStep w b := by
  have h0 : ∀ x : UInt8, (x &&& 1 = 1) = (x.toNat % 2 = 1) := by
    intro x
    have h : (x &&& 1).toNat = x.toNat % 2 := by rw [UInt8.toNat_and]; exact Nat.and_one_is_mod _
    apply propext
    constructor
    · intro e; rw [← h, e]; rfl
    · intro e; apply UInt8.toNat.inj; rw [h, e]; rfl
  have hx : (v ^^^ w).toNat % 2 = (v.toNat + w.toNat) % 2 := by
    rw [UInt8.toNat_xor]
    have h2 : ∀ x, x % 2 = (x.testBit 0).toNat := by
      intro x; rw [Nat.testBit_zero]; rcases Nat.mod_two_eq_zero_or_one x with h | h <;> simp [h]
    rw [Nat.add_mod, h2, Nat.testBit_xor, h2 v.toNat, h2 w.toNat]
    cases v.toNat.testBit 0 <;> cases w.toNat.testBit 0 <;> rfl
  have hs : (v ^^^ w) >>> 1 = (v >>> 1) ^^^ (w >>> 1) := by
    apply UInt8.toNat.inj
    simp [UInt8.toNat_shiftRight, UInt8.toNat_xor, Nat.shiftRight_xor_distrib]
  unfold hecStep
  simp only [h0, hx, hs]
  have hself : ∀ x y : UInt8, x ^^^ 0xe5 ^^^ (y ^^^ 0xe5) = x ^^^ y := by
    intro x y
    rw [UInt8.xor_assoc, UInt8.xor_comm 0xe5, UInt8.xor_assoc, UInt8.xor_self, UInt8.xor_zero]
  have hl : ∀ x y : UInt8, x ^^^ 0xe5 ^^^ y = x ^^^ y ^^^ 0xe5 := by
    intro x y
    rw [UInt8.xor_assoc, UInt8.xor_comm 0xe5, UInt8.xor_assoc]
  rcases Nat.mod_two_eq_zero_or_one v.toNat with hv | hv <;>
    rcases Nat.mod_two_eq_zero_or_one w.toNat with hw | hw <;>
    have hvw : (v.toNat + w.toNat) % 2 = (v.toNat % 2 + w.toNat % 2) % 2 := Nat.add_mod .. <;>
    rw [hv, hw] at hvw <;>
    cases a <;> cases b <;> simp [hv, hw, hvw, hself, hl, UInt8.xor_assoc]

theorem loop_xor (n : Nat) : ∀ (v w : UInt8) (d e : UInt32),
    hecLoop n (v ^^^ w) (d ^^^ e) = hecLoop n v d ^^^ hecLoop n w e := by
  induction n with
  | zero => intros; rfl
  | succ n ih =>
    intro v w d e
    have hb : decide ((d ^^^ e) &&& 1 = 1) = ((decide (d &&& 1 = 1)) != (decide (e &&& 1 = 1))) := by
      rw [bit0, bit0, bit0, UInt32.toNat_xor, Nat.testBit_xor]
    have hs : (d ^^^ e) >>> 1 = (d >>> 1) ^^^ (e >>> 1) := by
      apply UInt32.toNat.inj
      simp [UInt32.toNat_shiftRight, UInt32.toNat_xor, Nat.shiftRight_xor_distrib]
    simp only [hecLoop]
    rw [hb, hs, step_xor, ih]

/-- **C16.** The check is affine in the header: the change of the check depends on the change of the header alone. -/
theorem C16_affine (uap : UInt8) (header change : UInt32) :
    hec uap (header ^^^ change) = hec uap header ^^^ hec 0 change := by
  unfold hec
  rw [← loop_xor]
  have : reverseByte 0 = 0 := by decide +kernel
  rw [this, UInt8.xor_zero]

example : hec 0x47 (0x123 ^^^ 0x010) ≠ hec 0x47 0x123 := by decide +kernel

theorem zero_checks : ∀ n : Fin 1024, hec 0 (UInt32.ofNat n) = 0 ↔ UInt32.ofNat n ∈ [0, 0x1cb, 0x25d, 0x396] := by
  decide +kernel

/-- **C16.** Two ten-bit headers have the same check only if they are equal or differ by one of three patterns of six
bits, the non-zero multiples of the generator. -/
theorem C16_detects (uap : UInt8) (h1 h2 : UInt32) (hh1 : h1.toNat < 1024) (hh2 : h2.toNat < 1024) :
    hec uap h1 = hec uap h2 ↔ h1 ^^^ h2 ∈ [0, 0x1cb, 0x25d, 0x396] := by
  have hx : h2 = h1 ^^^ (h1 ^^^ h2) := by
    rw [← UInt32.xor_assoc, UInt32.xor_self, UInt32.zero_xor]
  have hlt : (h1 ^^^ h2).toNat < 1024 := by
    rw [UInt32.toNat_xor]
    exact Nat.xor_lt_two_pow (n := 10) hh1 hh2
  have hz := zero_checks ⟨(h1 ^^^ h2).toNat, hlt⟩
  simp only [UInt32.ofNat_toNat] at hz
  rw [← hz]
  conv_lhs => rw [hx, C16_affine]
  constructor
  · intro h
    have h' : hec uap h1 ^^^ hec uap h1 = hec uap h1 ^^^ (hec uap h1 ^^^ hec 0 (h1 ^^^ h2)) := by rw [← h]
    rw [UInt8.xor_self, ← UInt8.xor_assoc, UInt8.xor_self, UInt8.zero_xor] at h'
    exact h'.symm
  · intro h
    rw [h, UInt8.xor_zero]

/-- Number of bits of a ten-bit header that differ. -/
def distance (h1 h2 : UInt32) : Nat := ((List.range 10).filter (fun i => h1.toNat.testBit i != h2.toNat.testBit i)).length

/-- **C16.** Every change of one to five bits of the header changes the check. -/
theorem C16_detects_five (uap : UInt8) (h1 h2 : UInt32) (hh1 : h1.toNat < 1024) (hh2 : h2.toNat < 1024)
    (hd : 0 < distance h1 h2) (hd5 : distance h1 h2 ≤ 5) : hec uap h1 ≠ hec uap h2 := by
  rw [Ne, C16_detects uap h1 h2 hh1 hh2]
  have hdist : distance h1 h2 = ((List.range 10).filter (fun i => (h1 ^^^ h2).toNat.testBit i)).length := by
    unfold distance
    congr 2
    funext i
    rw [UInt32.toNat_xor, Nat.testBit_xor]
  rw [hdist] at hd hd5
  intro hm
  simp only [List.mem_cons, List.not_mem_nil, or_false] at hm
  rcases hm with h | h | h | h <;> rw [h] at hd hd5 <;> revert hd hd5 <;> decide +kernel

example : distance 0x123 0x121 = 1 := by decide +kernel

/-! ## The header word -/

theorem header_fields : ∀ (a : Fin 8) (t : Fin 16) (f r s : Bool),
    let w := (UInt8.ofNat a &&& 0x7).toUInt32 ||| ((UInt8.ofNat t &&& 0xF).toUInt32 <<< 3) |||
      ((if f then (1 : UInt32) else 0) <<< 7) ||| ((if r then (1 : UInt32) else 0) <<< 8) |||
      ((if s then (1 : UInt32) else 0) <<< 9)
    w.toNat = a + 8 * t + 128 * f.toNat + 256 * r.toNat + 512 * s.toNat := by decide +kernel

/-- **C16.** The header word holds, from the least significant bit on: three bits of LT_ADDR, four of packet type, the
FLOW, ARQN and SEQN bits, and the check of these ten bits. -/
theorem C16_header_layout (uap lt type : UInt8) (flow arqn seqn : Bool) (hl : lt.toNat < 8) (ht : type.toNat < 16) :
    ∃ fields : UInt32,
      fields.toNat = lt.toNat + 8 * type.toNat + 128 * flow.toNat + 256 * arqn.toNat + 512 * seqn.toNat ∧
      (buildHeader uap lt type flow arqn seqn).toNat = fields.toNat + 1024 * (hec uap fields).toNat := by
  have h := header_fields ⟨lt.toNat, hl⟩ ⟨type.toNat, ht⟩ flow arqn seqn
  simp only [UInt8.ofNat_toNat] at h
  refine ⟨_, h, ?_⟩
  unfold buildHeader
  simp only
  have hb : ∀ b : Bool, b.toNat < 2 := by decide
  have := hb flow; have := hb arqn; have := hb seqn
  generalize (lt &&& 0x7).toUInt32 ||| ((type &&& 0xF).toUInt32 <<< 3) |||
      ((if flow then (1 : UInt32) else 0) <<< 7) ||| ((if arqn then (1 : UInt32) else 0) <<< 8) |||
      ((if seqn then (1 : UInt32) else 0) <<< 9) = w at h ⊢
  have hw : w.toNat < 2 ^ 10 := by omega
  have hc := (hec uap w).toNat_lt
  rw [UInt32.toNat_or, UInt32.toNat_shiftLeft]
  have e : (hec uap w).toUInt32.toNat <<< ((10 : UInt32).toNat % 32) % 2 ^ 32 = 2 ^ 10 * (hec uap w).toNat := by
    rw [UInt8.toNat_toUInt32]
    have : (10 : UInt32).toNat % 32 = 10 := rfl
    rw [this, Nat.shiftLeft_eq, Nat.mod_eq_of_lt (by omega)]
    omega
  rw [e, Nat.or_comm, ← Nat.two_pow_add_eq_or_of_lt hw]
  omega

example : buildHeader 0x47 3 4 false true false = 0x1923 := by decide +kernel

end Verif.Hec
