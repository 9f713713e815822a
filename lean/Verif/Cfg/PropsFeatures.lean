import Verif.Cfg.Lemmas
/-! # C88: inconsistent features are reported -/
namespace Verif.Cfg
open Verif.Hci (Preset)

theorem and_zero {a m : Nat} : (a &&& m != 0) = false ↔ ∀ n, m.testBit n = true → a.testBit n = false := by
  simp only [bne_eq_false_iff_eq]
  constructor
  · intro h n hn
    have := congrArg (fun x => Nat.testBit x n) h
    simpa [hn] using this
  · intro h
    apply Nat.eq_of_testBit_eq
    intro n
    rw [Nat.testBit_and, Nat.zero_testBit]
    cases hm : m.testBit n with
    | false => simp
    | true => simp [h n hm]

theorem defined_later (k page n : Nat) : defined (k + 12) page n = defined 12 page n := by
  have h1 : (k + 12 < 9) = (12 < 9) := by simp
  have h2 : (3 ≤ k + 12) = (3 ≤ 12) := by simp
  have h3 : (4 ≤ k + 12) = (4 ≤ 12) := by simp
  have h4 : (5 ≤ k + 12) = (5 ≤ 12) := by simp
  have h5 : (6 ≤ k + 12) = (6 ≤ 12) := by simp
  have h6 : (7 ≤ k + 12) = (7 ≤ 12) := by simp
  have h7 : (9 ≤ k + 12) = (9 ≤ 12) := by simp
  simp only [defined, h1, h2, h3, h4, h5, h6, h7]

set_option maxRecDepth 100000 in
theorem reserved0_bits : ∀ v < 13, ∀ n < 64, (reserved0 v).testBit n = !defined v 0 n := by decide +kernel

set_option maxRecDepth 100000 in
theorem reserved2_bits : ∀ v < 13, ∀ n < 64, ¬(v = 9 ∧ n = 10) → (reserved2 v).testBit n = !defined v 2 n := by
  decide +kernel

theorem version_cases (v : Nat) : v < 13 ∨ ∃ k, v = k + 12 := by
  by_cases h : v < 13
  · exact .inl h
  · exact .inr ⟨v - 12, by omega⟩

theorem bit_lt {m n : Nat} (hm : m < 2 ^ 64) (h : m.testBit n = true) : n < 64 := by
  by_cases hn : n < 64
  · exact hn
  · rw [Nat.testBit_lt_two_pow (Nat.lt_of_lt_of_le hm (Nat.pow_le_pow_right (by omega) (by omega)))] at h
    cases h

theorem reserved0_iff {v m : Nat} (hm : m < 2 ^ 64) :
    (reserved0 v &&& m != 0) = false ↔ ∀ n, m.testBit n = true → defined v 0 n = true := by
  rw [and_zero]
  have key : ∀ n < 64, (reserved0 v).testBit n = !defined v 0 n := by
    rcases version_cases v with h | ⟨k, rfl⟩
    · exact reserved0_bits v h
    · intro n hn
      rw [defined_later, ← reserved0_bits 12 (by omega) n hn]
      rfl
  constructor
  · intro h n hn
    have := key n (bit_lt hm hn)
    rw [h n hn] at this
    simpa using this
  · intro h n hn
    rw [key n (bit_lt hm hn), h n hn]; rfl

theorem reserved2_iff {v m : Nat} (hm : m < 2 ^ 64) (h9 : ¬(v = 9 ∧ m.testBit 10 = true)) :
    (reserved2 v &&& m != 0) = false ↔ ∀ n, m.testBit n = true → defined v 2 n = true := by
  rw [and_zero]
  have key : ∀ n < 64, m.testBit n = true → (reserved2 v).testBit n = !defined v 2 n := by
    rcases version_cases v with h | ⟨k, rfl⟩
    · intro n hn hb
      refine reserved2_bits v h n hn ?_
      rintro ⟨h1, h2⟩
      subst h2
      exact h9 ⟨h1, hb⟩
    · intro n hn _
      rw [defined_later, ← reserved2_bits 12 (by omega) n hn (by omega)]
      rfl
  constructor
  · intro h n hn
    have := key n (bit_lt hm hn) hn
    rw [h n hn] at this
    simpa using this
  · intro h n hn
    rw [key n (bit_lt hm hn) hn, h n hn]; rfl

theorem exists_one {f : Nat → Nat → Bool} {a : Nat × Nat} : (∃ x ∈ [a], f x.1 x.2 = true) ↔ f a.1 a.2 = true := by
  simp only [List.mem_singleton, exists_eq_left]

theorem exists_two {f : Nat → Nat → Bool} {a b : Nat × Nat} :
    (∃ x ∈ [a, b], f x.1 x.2 = true) ↔ f a.1 a.2 = true ∨ f b.1 b.2 = true := by
  simp only [List.mem_cons, List.not_mem_nil, or_false, exists_eq_or_imp, exists_eq_left]

theorem nil_all {P : List (Nat × Nat) → Prop} : (∀ l ∈ [], P l) ↔ True := by simp

theorem consistent_iff {v : Nat} {f : Nat → Nat → Bool} : Consistent v f ↔
    (∀ n, f 0 n = true → defined v 0 n = true) ∧ (∀ n, f 2 n = true → defined v 2 n = true) ∧
    (f 0 2 = true ∧ f 0 51 = true ∧ f 0 52 = true) ∧ f 0 37 = false ∧ f 0 7 = f 0 41 ∧
    ¬(f 0 23 = true ∧ f 2 6 = true) ∧ ∀ r ∈ table39, f r.1.1 r.1.2 = true → ∀ l ∈ r.2, ∃ x ∈ l, f x.1 x.2 = true := by
  constructor
  · rintro ⟨r, h1, h2, h3, h4, h5⟩
    exact ⟨r 0 (by simp), r 2 (by simp), ⟨h1 2 (by simp), h1 51 (by simp), h1 52 (by simp)⟩, h2, h3, h4, h5⟩
  · rintro ⟨r0, r2, h1, h2, h3, h4, h5⟩
    refine ⟨?_, ?_, h2, h3, h4, h5⟩
    · intro page hp
      simp only [List.mem_cons, List.not_mem_nil, or_false] at hp
      rcases hp with rfl | rfl
      · exact r0
      · exact r2
    · intro n hn
      simp only [List.mem_cons, List.not_mem_nil, or_false] at hn
      rcases hn with rfl | rfl | rfl
      · exact h1.1
      · exact h1.2.1
      · exact h1.2.2

theorem needed_nil {P : (Nat × Nat) × List (List (Nat × Nat)) → Prop} : (∀ r ∈ [], P r) ↔ True := by simp

theorem needed_cons {P : (Nat × Nat) × List (List (Nat × Nat)) → Prop} {a : (Nat × Nat) × List (List (Nat × Nat))}
    {l : List ((Nat × Nat) × List (List (Nat × Nat)))} : (∀ r ∈ a :: l, P r) ↔ P a ∧ ∀ r ∈ l, P r :=
  List.forall_mem_cons

/-- C88. A configuration is reported as inconsistent exactly if its features are. Left out: version 5.0 with the
slot availability mask, and controllers without BR/EDR, whose features have other rules. -/
theorem C88_reported_partial {p : Props} (h0 : p.page0 < 2 ^ 64) (h2 : p.page2 < 2 ^ 64)
    (h9 : ¬(p.lmpVersion = 9 ∧ p.view.lmp 2 10 = true)) :
    Message.features ∈ p.log ↔ ¬Consistent p.lmpVersion p.view.lmp := by
  have hl : Message.features ∈ p.log ↔ p.checkFeatures = false := by
    simp only [Props.log]
    cases p.checkFeatures <;> simp [Props.checkCommands]
  rw [hl]
  have hc : p.checkFeatures = true ↔ Consistent p.lmpVersion p.view.lmp := by
    simp only [Props.checkFeatures, Props.faults, Bool.not_eq_true', List.any_cons, List.any_nil, Bool.or_false, id,
      Bool.or_eq_false_iff]
    rw [reserved0_iff h0, reserved2_iff h2 h9]
    simp only [lmp0_aLawLogSynchronousData, lmp0_afhCapableCentral, lmp0_afhCapablePeripheral, lmp0_afhClassificationCentral, lmp0_afhClassificationPeripheral, lmp0_brEdrNotSupported, lmp0_broadcastEncryption, lmp0_cvsdSynchronousData, lmp0_encapsulatedPdu, lmp0_encryption, lmp0_enhancedDataRateAcl2MbSMode, lmp0_enhancedDataRateAcl3MbSMode, lmp0_enhancedDataRateEsco2MbSMode, lmp0_enhancedDataRateEsco3MbSMode, lmp0_enhancedPowerControl, lmp0_erroneousDataReporting, lmp0_ev4Packets, lmp0_ev5Packets, lmp0_extendedInquiryResponse, lmp0_extendedScoLink, lmp0_hv2Packets, lmp0_hv3Packets, lmp0_interlacedInquiryScan, lmp0_interlacedPageScan, lmp0_leSupportedController, lmp0_lmp3SlotEnhancedDataRateAclPackets, lmp0_lmp3SlotEnhancedDataRateEscoPackets, lmp0_lmp5SlotEnhancedDataRateAclPackets, lmp0_mLawLogSynchronousData, lmp0_pauseEncryption, lmp0_powerControl, lmp0_powerControlRequests, lmp0_roleSwitch, lmp0_rssiWithInquiryResults, lmp0_scoLink, lmp0_secureSimplePairingController, lmp0_simultaneousLeAndBrController, lmp0_slotOffset, lmp0_sniffMode, lmp0_sniffSubrating, lmp0_transparentSynchronousData, lmp2_coarseClockAdjustment, lmp2_connectionlessPeripheralBroadcastReceiverOperation, lmp2_connectionlessPeripheralBroadcastTransmitterOperation, lmp2_generalizedInterlacedScan, lmp2_ping, lmp2_secureConnectionsControllerSupport, lmp2_synchronizationScan, lmp2_synchronizationTrain]
    have e : ∀ a : Bool, (a = false) = ¬(a = true) := by decide
    have i1 : ∀ a b : Bool, ((a && !b) = false) = (a = true → b = true) := by decide
    have i2 : ∀ a b c : Bool, ((a && !b && !c) = false) = (a = true → (b = true ∨ c = true)) := by decide
    have i3 : ∀ a b c : Bool, ((a && (!b || !c)) = false) = (a = true → (b = true ∧ c = true)) := by decide
    have i4 : ∀ a b c d e : Bool, ((a && (!b || !c || !d || !e)) = false) =
        (a = true → (b = true ∧ c = true ∧ d = true ∧ e = true)) := by decide
    have i5 : ∀ a b : Bool, ((a && b) = false) = ¬(a = true ∧ b = true) := by decide
    have i6 : ∀ a b : Bool, ((a != b) = false) = (a = b) := by decide
    simp only [i2]
    simp only [i1, i3, i4, i5, i6, Bool.not_eq_false']
    rw [consistent_iff]
    simp only [table39, needed_cons, needed_nil, exists_one, exists_two, List.forall_mem_cons, nil_all, and_true]
    simp only [and_assoc]
    rfl
  cases h : p.checkFeatures with
  | false => simp [← hc, h]
  | true => simp [← hc, h]

/-- A controller of version 5.0 with secure connections but without pause encryption. -/
example : Message.features ∈ { base .default with lmpVersion := 9, page0 := page0Default &&& (0xffffffffffffffff ^^^ 2 ^ 42) }.log := by
  decide +kernel

example : (base .default).page0 < 2 ^ 64 ∧ (base .default).page2 < 2 ^ 64 ∧
    ¬((base .default).lmpVersion = 9 ∧ (base .default).view.lmp 2 10 = true) := by decide +kernel

/-- C88. The features of the presets with BR/EDR are consistent, whatever else the configuration says, and nothing
is reported. -/
theorem C88_presets {p : Preset} (c : Choice) (hp : p ≠ .laird) :
    Consistent (construct p c).lmpVersion (construct p c).view.lmp ∧ Message.features ∉ (construct p c).log := by
  have h : Message.features ∉ (construct p c).log := by
    have h : (construct p c).checkFeatures = true := by
      show (base p).checkFeatures = true
      cases p with
      | laird => exact absurd rfl hp
      | default => decide +kernel
      | csrDongle => decide +kernel
      | intel => decide +kernel
    simp only [Props.log, h]
    simp [Props.checkCommands]
  refine ⟨?_, h⟩
  have h0 : (construct p c).page0 < 2 ^ 64 := by
    show (base p).page0 < 2 ^ 64
    cases p <;> decide +kernel
  have h2 : (construct p c).page2 < 2 ^ 64 := by
    show (base p).page2 < 2 ^ 64
    cases p <;> decide +kernel
  have h9 : ¬((construct p c).lmpVersion = 9 ∧ (construct p c).view.lmp 2 10 = true) := by
    show ¬((base p).lmpVersion = 9 ∧ _)
    rintro ⟨h, _⟩
    cases p <;> cases h
  exact Classical.not_not.mp (fun hn => h ((C88_reported_partial h0 h2 h9).mpr hn))

/-- C88 does not hold of controllers without BR/EDR: the features of the LE only preset are measured with the rules
for BR/EDR devices, so that a warning is printed, whatever else the configuration says. Those rules do not concern
it: it has no BR/EDR, and reports so. -/
theorem C88_le_only_violated (c : Choice) : Message.features ∈ (construct .laird c).log ∧
    (construct .laird c).br = false ∧ (construct .laird c).view.lmp 0 37 = true := by
  refine ⟨?_, rfl, show (base .laird).view.lmp 0 37 = true by decide +kernel⟩
  have h : (construct .laird c).checkFeatures = false := by
    show (base .laird).checkFeatures = false
    decide +kernel
  simp only [Props.log, h]
  simp

/-- C88 does not hold of version 5.0: the slot availability mask, defined since that version, is reported as
reserved. -/
theorem C88_slots_violated : ∃ p : Props, p.lmpVersion = 9 ∧ Consistent p.lmpVersion p.view.lmp ∧ Message.features ∈ p.log := by
  refine ⟨{ base .default with lmpVersion := 9, page2 := page2Default ||| 2 ^ 10 }, rfl, ?_, by decide +kernel⟩
  rw [consistent_iff]
  refine ⟨?_, ?_, by decide +kernel, by decide +kernel, by decide +kernel, by decide +kernel, by decide +kernel⟩
  · exact fun n hn => (C88_presets ⟨none, none, none, none, none, none, none, none, none⟩ (p := .default) (by decide)).1.reserved 0 (by decide) n hn
  · intro n hn
    have hb : ∀ n < 12, (page2Default ||| 2 ^ 10).testBit n = true → defined 9 2 n = true := by decide +kernel
    by_cases h : n < 12
    · exact hb n h hn
    · exfalso
      have : (page2Default ||| 2 ^ 10).testBit n = false :=
        Nat.testBit_lt_two_pow (Nat.lt_of_lt_of_le (show _ < 2 ^ 12 by decide +kernel) (Nat.pow_le_pow_right (by decide) (by omega)))
      change (page2Default ||| 2 ^ 10).testBit n = true at hn
      rw [this] at hn
      cases hn

end Verif.Cfg
