import Verif.Cfg.ChoiceLemmas
/-! # C90: the presets support the commands their features ask for -/
namespace Verif.Cfg
open Verif.Hci (Preset)

/-- For each preset, the commands that contradict the features of the preset itself, and those that do so after the
configuration turns a feature on or off. -/
def contrary : Preset → List Nat × List Nat
  | .default => ([24, 67, 160, 161, 162, 357, 360, 416, 432, 435, 436, 437, 440], [456])
  | .laird => ([132, 133, 414, 457], [72, 73, 357, 433, 434, 456])
  | .csrDongle => ([160, 161, 162, 306, 307, 390, 391],
      [354, 355, 356, 357, 360, 415, 416, 432, 435, 436, 437, 440, 441, 450, 456])
  | .intel => ([160, 161, 162, 416, 417, 420, 421, 422, 423, 424, 432, 433, 434, 435, 436, 437, 440, 442, 443, 444, 445,
      446, 447, 460, 461], [357, 456])

/-- The check of one command of the table. -/
def presetRow (p : Preset) (i : Nat) : Bool := match lookup tableBr i, lookup tableLe i with
  | some b, some l => rowFine (rule b) (rule l) i &&
    (alwaysAgrees p (rule b) (rule l) i == !((contrary p).1 ++ (contrary p).2).contains i) &&
    (agrees (fieldsView p (fun _ => none)) (rule b) (rule l) i == !(contrary p).1.contains i)
  | _, _ => false

set_option maxRecDepth 100000 in
theorem preset_rows : [Preset.default, .laird, .csrDongle, .intel].all (fun p => tableBr.all (fun g => g.2.all (presetRow p))) = true := by
  decide +kernel

theorem preset_row (p : Preset) {i : Nat} {b l : Name} (hb : lookup tableBr i = some b) (hl : lookup tableLe i = some l) :
    rowFine (rule b) (rule l) i = true ∧
    (alwaysAgrees p (rule b) (rule l) i = true ↔ i ∉ (contrary p).1 ++ (contrary p).2) ∧
    (agrees (fieldsView p (fun _ => none)) (rule b) (rule l) i = true ↔ i ∉ (contrary p).1) := by
  obtain ⟨g, hg, hi⟩ := lookup_mem hb
  have hp : p ∈ [Preset.default, .laird, .csrDongle, .intel] := by cases p <;> decide
  have h := List.all_eq_true.mp (List.all_eq_true.mp (List.all_eq_true.mp preset_rows p hp) g hg) i hi
  simp only [presetRow, hb, hl, Bool.and_eq_true, beq_iff_eq] at h
  refine ⟨h.1.1, ?_, ?_⟩
  · rw [h.1.2, Bool.not_eq_true', ← Bool.not_eq_true, List.contains_iff_mem]
  · rw [h.2, Bool.not_eq_true', ← Bool.not_eq_true, List.contains_iff_mem]

/-- C90. Whatever the configuration says of the features, a controller of a preset supports every command its features
make mandatory and none they exclude. Left out: the commands of the lists `contrary`. -/
theorem C90_presets_partial (p : Preset) (c : Choice) {i : Nat} {b l : Name} (hb : lookup tableBr i = some b)
    (hl : lookup tableLe i = some l) (hi : i ∉ (contrary p).1 ++ (contrary p).2) :
    agrees (construct p c).view (rule b) (rule l) i = true := by
  obtain ⟨hf, ha, _⟩ := preset_row p hb hl
  exact (always p hf).mpr (ha.mpr hi) c

/-- Left out are 14 of 312 commands, 10, 22 and 27. -/
example : [Preset.default, .laird, .csrDongle, .intel].map (fun p => ((contrary p).1 ++ (contrary p).2).length) = [14, 10, 22, 27] := by
  decide

/-- LE Set Extended Advertising Parameters of the default preset, with and without the feature. -/
example : let c : Bool → Choice := fun b => ⟨some b, none, none, none, none, none, none, none, none⟩
    lookup tableLe 362 = some (.c 17) ∧ 362 ∉ (contrary .default).1 ++ (contrary .default).2 ∧
    (construct .default (c true)).view.command 362 = true ∧ (construct .default (c false)).view.command 362 = false := by
  decide +kernel

/-- C90 does not hold of the presets themselves: each of the commands of the first lists is supported although
excluded, or mandatory and not supported. -/
theorem C90_presets_violated (p : Preset) {i : Nat} (hi : i ∈ (contrary p).1) :
    ∃ b l : Name, lookup tableBr i = some b ∧ lookup tableLe i = some l ∧
      agrees (construct p ⟨none, none, none, none, none, none, none, none, none⟩).view (rule b) (rule l) i = false := by
  have h : ∀ p ∈ [Preset.default, .laird, .csrDongle, .intel], ∀ i ∈ (contrary p).1,
      (lookup tableBr i).isSome = true ∧ (lookup tableLe i).isSome = true := by decide +kernel
  have hp : p ∈ [Preset.default, .laird, .csrDongle, .intel] := by cases p <;> decide
  obtain ⟨b, hb⟩ := Option.isSome_iff_exists.mp (h p hp i hi).1
  obtain ⟨l, hl⟩ := Option.isSome_iff_exists.mp (h p hp i hi).2
  obtain ⟨hf, _, ha⟩ := preset_row p hb hl
  refine ⟨b, l, hb, hl, ?_⟩
  have hf' : rowProper (rule b) (rule l) i = true := by
    simp only [rowFine, Bool.and_eq_true] at hf
    exact hf.1
  rw [agrees_fields p _ hf', agrees_congr p (g' := fun _ => none)]
  · cases h : agrees (fieldsView p (fun _ => none)) (rule b) (rule l) i with
    | false => rfl
    | true => exact absurd hi (ha.mp h)
  · intro k _
    simp only [Choice.get]
    split <;> rfl

/-- C90 does not hold of the commands of the second lists either, if the configuration changes features. -/
theorem C90_choices_violated (p : Preset) {i : Nat} (hi : i ∈ (contrary p).2) :
    ∃ (b l : Name) (c : Choice), lookup tableBr i = some b ∧ lookup tableLe i = some l ∧
      agrees (construct p c).view (rule b) (rule l) i = false := by
  have h : ∀ p ∈ [Preset.default, .laird, .csrDongle, .intel], ∀ i ∈ (contrary p).2,
      (lookup tableBr i).isSome = true ∧ (lookup tableLe i).isSome = true := by decide +kernel
  have hp : p ∈ [Preset.default, .laird, .csrDongle, .intel] := by cases p <;> decide
  obtain ⟨b, hb⟩ := Option.isSome_iff_exists.mp (h p hp i hi).1
  obtain ⟨l, hl⟩ := Option.isSome_iff_exists.mp (h p hp i hi).2
  obtain ⟨hf, ha, _⟩ := preset_row p hb hl
  have hn : ¬∀ c : Choice, agrees (construct p c).view (rule b) (rule l) i = true := by
    intro hc
    exact (ha.mp ((always p hf).mp hc)) (List.mem_append_right _ hi)
  obtain ⟨c, hc⟩ := Classical.not_forall.mp hn
  exact ⟨b, l, c, hb, hl, by simpa using hc⟩

end Verif.Cfg
