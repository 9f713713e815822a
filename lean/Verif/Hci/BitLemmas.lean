import Verif.Hci.Spec
/-!
# The bit mask of the supported commands -/
namespace Verif.Hci

theorem modify_getD {l : List Nat} {i j : Nat} {g : Nat → Nat} :
    (l.modify i g).getD j 0 = if i = j ∧ j < l.length then g (l.getD j 0) else l.getD j 0 := by
  simp only [List.getD_eq_getElem?_getD, List.getElem?_modify]
  by_cases hj : j < l.length
  · by_cases hi : i = j <;> simp [hi, hj]
  · simp [hj]

theorem set_length {b : Bool} {bytes : List Nat} {i : Nat} : (setBit b bytes i).length = bytes.length := by
  simp [setBit]

theorem sets_length {b : Bool} {l bytes : List Nat} : (setBits b bytes l).length = bytes.length := by
  induction l generalizing bytes with
  | nil => rfl
  | cons x l ih => simp only [setBits, List.foldl_cons] at *; rw [ih, set_length]

set_option maxRecDepth 4000 in
theorem clear_bit : ∀ k < 8, ∀ n < 8, Nat.testBit (255 ^^^ (1 <<< k) % 256) n = decide (n ≠ k) := by decide

/-- One bit is changed, the others stay. -/
theorem bit_setBit {b : Bool} {bytes : List Nat} {i j : Nat} (hi : i % 10 < 8) (hj : j % 10 < 8) (hl : j / 10 < bytes.length) :
    bit (setBit b bytes j) i = if i = j then b else bit bytes i := by
  unfold bit setBit
  rw [modify_getD]
  by_cases ho : j / 10 = i / 10
  · rw [if_pos ⟨ho, ho ▸ hl⟩]
    cases b with
    | true =>
      simp only [if_true, Nat.testBit_or, Nat.one_shiftLeft, Nat.testBit_two_pow]
      by_cases he : i = j
      · subst he; simp
      · have : j % 10 ≠ i % 10 := by omega
        simp [he, this]
    | false =>
      simp only [Bool.false_eq_true, if_false, Nat.testBit_and]
      rw [clear_bit _ hj _ hi]
      by_cases he : i = j
      · subst he; simp
      · have : i % 10 ≠ j % 10 := by omega
        simp [he, this]
  · rw [if_neg (fun h => ho h.1), if_neg (fun h => ho (by rw [h]))]

/-- A list of commands is switched on or off. -/
theorem bit_setBits {b : Bool} {l bytes : List Nat} {i : Nat} (hi : i % 10 < 8)
    (hl : ∀ j ∈ l, j % 10 < 8 ∧ j / 10 < bytes.length) :
    bit (setBits b bytes l) i = if i ∈ l then b else bit bytes i := by
  induction l generalizing bytes with
  | nil => simp [setBits]
  | cons x l ih =>
    have h := ih (bytes := setBit b bytes x) (fun j hj => by rw [set_length]; exact hl j (List.mem_cons_of_mem _ hj))
    simp only [setBits, List.foldl_cons] at *
    rw [h, bit_setBit hi (hl x List.mem_cons_self).1 (hl x List.mem_cons_self).2]
    by_cases h1 : i ∈ l
    · simp [h1]
    · by_cases h2 : i = x <;> simp [h1, h2]

theorem bit_apply {o : Option Bool} {l bytes : List Nat} {i : Nat} (hi : i % 10 < 8) (hb : bytes.length = 64)
    (hl : l.all (fun j => j % 10 < 8 && j / 10 < 64) = true) :
    bit (apply o l bytes) i = if i ∈ l then o.getD (bit bytes i) else bit bytes i := by
  cases o with
  | none => simp [apply]
  | some b =>
    simp only [apply, Option.getD_some]
    refine bit_setBits hi (fun j hj => ?_)
    simp only [List.all_eq_true, Bool.and_eq_true, decide_eq_true_eq] at hl
    rw [hb]; exact hl j hj

theorem apply_length {o : Option Bool} {l bytes : List Nat} : (apply o l bytes).length = bytes.length := by
  cases o <;> simp [apply, sets_length]

set_option maxRecDepth 100000 in
theorem preset_length (p : Preset) : p.bytes.length = 64 := by cases p <;> decide +kernel

/-- The bits of a configuration. -/
theorem bit_configured {p : Preset} {f : Features} {i : Nat} (hi : i % 10 < 8) :
    bit (configured p f) i =
      if i ∈ powerControlCommands ∧ f.power.isSome then f.power.getD false
      else if i ∈ soundingCommands ∧ f.sounding.isSome then f.sounding.getD false
      else if i ∈ subratingCommands ∧ f.subrating.isSome then f.subrating.getD false
      else if i ∈ isochronousCommands ∧ f.iso.isSome then f.iso.getD false
      else if i ∈ privacyCommands ∧ f.privacy.isSome then f.privacy.getD false
      else if i ∈ periodicAdvertisingCommands ∧ f.periodic.isSome then f.periodic.getD false
      else if i ∈ extendedAdvertisingCommands ∧ f.extended.isSome then f.extended.getD false
      else bit p.bytes i := by
  have key : ∀ (o : Option Bool) (l bytes : List Nat), bytes.length = 64 → l.all (fun j => j % 10 < 8 && j / 10 < 64) = true →
      bit (apply o l bytes) i = if i ∈ l ∧ o.isSome then o.getD false else bit bytes i := by
    intro o l bytes h1 h2
    rw [bit_apply hi h1 h2]
    cases o with
    | none => simp
    | some b => simp
  unfold configured
  rw [key _ _ _ (by simp only [apply_length]; exact preset_length p) (by decide +kernel),
    key _ _ _ (by simp only [apply_length]; exact preset_length p) (by decide +kernel),
    key _ _ _ (by simp only [apply_length]; exact preset_length p) (by decide +kernel),
    key _ _ _ (by simp only [apply_length]; exact preset_length p) (by decide +kernel),
    key _ _ _ (by simp only [apply_length]; exact preset_length p) (by decide +kernel),
    key _ _ _ (by simp only [apply_length]; exact preset_length p) (by decide +kernel),
    key _ _ _ (by exact preset_length p) (by decide +kernel)]

end Verif.Hci
