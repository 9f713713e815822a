import Verif.Ll.SimLemmas
/-!
# Resolvable private addresses: lemmas
-/

namespace Verif.Ll
open Verif.Le

theorem top_toNat : ∀ b : BitVec 8, ((b &&& 0x3f#8) ||| 0x40#8).toNat = 64 + b.toNat % 64 := by
  decide +kernel

theorem masked_toNat : ∀ b : BitVec 8, (b &&& 0x3f#8).toNat = b.toNat % 64 := by
  decide +kernel

theorem prand_toNat (d : Draws) :
    (prand d).toNat = (64 + d.r2 % 64) * 65536 + (d.r1 % 256) * 256 + (lowByte d).toNat := by
  have h0 := (lowByte d).isLt
  have h1 : d.r1 % 2 ^ 8 < 2 ^ 8 := Nat.mod_lt _ (by decide)
  unfold prand maskedTop
  rw [BitVec.toNat_append, BitVec.toNat_append, top_toNat, BitVec.toNat_ofNat,
    BitVec.toNat_ofNat, ← Nat.shiftLeft_add_eq_or_of_lt h1, ← Nat.shiftLeft_add_eq_or_of_lt h0]
  simp only [Nat.shiftLeft_eq]
  omega

theorem makeRpa_toNat (ah : Hash) (d : Draws) (irk : Irk) :
    (makeRpa ah d irk).toNat = (prand d).toNat * 2 ^ 24 + (ah irk (prand d)).toNat := by
  have h := (ah irk (prand d)).isLt
  unfold makeRpa
  rw [BitVec.toNat_append, ← Nat.shiftLeft_add_eq_or_of_lt h, Nat.shiftLeft_eq]

theorem makeRpa_high (ah : Hash) (d : Draws) (irk : Irk) :
    (makeRpa ah d irk).extractLsb' 24 24 = prand d := by
  apply BitVec.eq_of_toNat_eq
  rw [BitVec.extractLsb'_toNat, makeRpa_toNat, Nat.shiftRight_eq_div_pow]
  have h := (ah irk (prand d)).isLt
  have h' := (prand d).isLt
  omega

theorem makeRpa_low (ah : Hash) (d : Draws) (irk : Irk) :
    (makeRpa ah d irk).extractLsb' 0 24 = ah irk (prand d) := by
  apply BitVec.eq_of_toNat_eq
  rw [BitVec.extractLsb'_toNat, makeRpa_toNat, Nat.shiftRight_eq_div_pow]
  have h := (ah irk (prand d)).isLt
  omega

theorem top_bits : ∀ b : BitVec 8, (b &&& 0xc0#8) = 0x40#8 ↔ b.toNat / 64 = 1 := by
  decide +kernel

/-- `IsRpa` on the number. -/
theorem isRpa_iff (a : AddressWithType) :
    isRpa a = true ↔ a.type = .randomDevice ∧ a.address.toNat / 2 ^ 46 = 1 := by
  simp only [isRpa, Bool.and_eq_true, beq_iff_eq]
  rw [top_bits, BitVec.extractLsb'_toNat, Nat.shiftRight_eq_div_pow]
  have h := a.address.isLt
  constructor <;> (rintro ⟨h1, h2⟩; refine ⟨h1, ?_⟩; omega)

theorem lowByte_cases (d : Draws) :
    (lowByte d).toNat = d.r0 % 256 ∧
      ¬ (d.r0 % 256 = 0 ∧ d.r1 % 256 = 0 ∧ d.r2 % 64 = 0) ∧
      ¬ (d.r0 % 256 = 255 ∧ d.r1 % 256 = 255 ∧ d.r2 % 64 = 63) ∨
    1 ≤ (lowByte d).toNat ∧ (lowByte d).toNat ≤ 254 := by
  have e0 : ∀ n v : Nat, v < 256 → (BitVec.ofNat 8 n = BitVec.ofNat 8 v ↔ n % 256 = v) := by
    intro n v hv
    rw [← BitVec.toNat_inj, BitVec.toNat_ofNat, BitVec.toNat_ofNat]
    omega
  have e1 : ∀ v : Nat, v < 64 → (maskedTop d = BitVec.ofNat 8 v ↔ d.r2 % 64 = v) := by
    intro v hv
    rw [← BitVec.toNat_inj, maskedTop, masked_toNat, BitVec.toNat_ofNat, BitVec.toNat_ofNat]
    omega
  unfold lowByte
  split
  · right
    rw [BitVec.toNat_ofNat]
    omega
  · rename_i h
    left
    rw [e0 _ 0 (by decide), e0 _ 0 (by decide), e1 0 (by decide), e0 _ 0xff (by decide),
      e0 _ 0xff (by decide), e1 0x3f (by decide)] at h
    rw [BitVec.toNat_ofNat]
    refine ⟨rfl, fun hh => h (.inl hh), fun hh => h (.inr hh)⟩

end Verif.Ll
