import Verif.Hci.BitLemmas
import Verif.Hci.PropsAnswer
/-! # C71 and C72: the supported commands -/
namespace Verif.Hci

/-- The command lists of all features. -/
def inFeature (i : Nat) : Bool :=
  powerControlCommands.contains i || soundingCommands.contains i || subratingCommands.contains i ||
  isochronousCommands.contains i || privacyCommands.contains i || periodicAdvertisingCommands.contains i ||
  extendedAdvertisingCommands.contains i

def presets : List Preset := [.default, .laird, .csrDongle, .intel]

theorem mem_presets (p : Preset) : p ∈ presets := by cases p <;> decide

set_option maxRecDepth 100000 in
theorem table_bits : indices.all (fun r => r.2 % 10 < 8) = true := by decide +kernel

set_option maxRecDepth 100000 in
theorem table_hollow : presets.all (fun p => indices.all (fun r =>
    !(bit p.bytes r.2 || inFeature r.2) || implemented r.1 || p.hollow.contains r.1 || added.contains r.1)) = true := by
  decide +kernel

theorem index_lt {op i : Nat} (h : indices.lookup op = some i) : i % 10 < 8 := by
  have := (List.all_eq_true.mp table_bits) _ (lookup_mem h)
  simpa using this

/-- C71. A command the controller supports is implemented. For every preset, every choice of features and every
opcode; left out are the commands of the lists `hollow` and `added`. -/
theorem C71_implemented_partial {p : Preset} {f : Features} {strict q k : Bool} {op : Nat}
    (hs : supported (Cfg.of p f strict q k) op = true) (hh : op ∉ p.hollow) (ha : op ∉ added) : implemented op = true := by
  simp only [supported, Bool.or_eq_true, Bool.and_eq_true, decide_eq_true_eq] at hs
  rcases hs with (h | h) | h
  · subst h; decide +kernel
  · exact h.2
  · cases hi : indices.lookup op with
    | none => rw [hi] at h; simp at h
    | some i =>
      rw [hi] at h
      simp only [Cfg.of] at h
      rw [bit_configured (index_lt hi)] at h
      have ht := (List.all_eq_true.mp ((List.all_eq_true.mp table_hollow) _ (mem_presets p))) _ (lookup_mem hi)
      simp only [Bool.or_eq_true, List.contains_iff_mem, Bool.not_eq_true'] at ht
      rcases ht with ((ht | ht) | ht) | ht
      · simp only [Bool.or_eq_false_iff, inFeature, List.contains_eq_mem, decide_eq_false_iff_not] at ht
        simp [ht] at h
      · exact ht
      · exact absurd ht hh
      · exact absurd ht ha

/-- With no feature chosen. -/
def plain : Features := ⟨none, none, none, none, none, none, none⟩

example : supported (Cfg.of .laird { plain with iso := some true, power := some false } true false false) 0x2062 = true ∧
    (0x2062 : Nat) ∉ Preset.laird.hollow ∧ (0x2062 : Nat) ∉ added := by decide +kernel

set_option maxRecDepth 100000 in
/-- C71. The lists are exact: every command of `hollow` is supported by the preset and not implemented. -/
theorem C71_hollow (p : Preset) (strict q k : Bool) : ∀ op ∈ p.hollow,
    supported (Cfg.of p plain strict q k) op = true ∧ implemented op = false := by
  have h : presets.all (fun p => p.hollow.all (fun op => supported ⟨true, configured p plain, false, false⟩ op && !implemented op)) = true := by
    decide +kernel
  intro op ho
  have := (List.all_eq_true.mp ((List.all_eq_true.mp h) _ (mem_presets p))) _ ho
  simpa [supported, Cfg.of] using this

/-- C71 does not hold: each of these commands stops the default controller, whatever the host sent before. -/
theorem C71_default_violated {s s' : St} {m : Cmd} {ev : List Ev} {e : End} (p : Preset) (q k : Bool) (hm : m.op ∈ p.hollow)
    (hx : executes (Cfg.of p plain true q k) s m.op) (h : Handle (Cfg.of p plain true q k) s m ev e s') : ev = [] ∧ e = .crash := by
  obtain ⟨hs, hi⟩ := C71_hollow p true q k m.op hm
  obtain ⟨hx1, hx2⟩ := hx
  cases h with
  | echo h1 h2 => rw [(through_iff _).mpr (hx1 h1)] at h2; exact absurd h2 (by simp)
  | early _ h2 =>
    rcases hx2 h2.1 with h3 | h3
    · rw [h3] at h2; exact absurd h2.2.1 (by simp)
    · exact absurd h3 h2.2.2
  | run _ _ _ hl _ => simp [implemented, hl] at hi
  | missing => exact ⟨rfl, rfl⟩
  | unknown _ _ h3 =>
    rcases h3 with h | h
    · rw [hs] at h; exact absurd h (by simp)
    · exact absurd h.2 (by simp [Cfg.of])

/-- Host Number Of Completed Packets, with which a host reports the data it has taken. -/
example : (0x0c35 : Nat) ∈ Preset.default.hollow ∧ executes (Cfg.of .default plain true false false) .fresh 0x0c35 :=
  ⟨by decide, by simp [St.fresh], by simp [Cfg.of]⟩

/-- C71. A controller that is not strict answers a command it does not implement as it answers an unknown
one: Command Complete. -/
theorem C71_lenient {c : Cfg} {s s' : St} {m : Cmd} {ev : List Ev} {e : End} (h : Handle c s m ev e s')
    (hx : executes c s m.op) (hc : c.strict = false) (hi : implemented m.op = false) :
    ev = [.complete m.op] ∧ e = .done ∧ s' = s := by
  obtain ⟨hx1, hx2⟩ := hx
  cases h with
  | echo h1 h2 => rw [(through_iff _).mpr (hx1 h1)] at h2; exact absurd h2 (by simp)
  | early _ h2 =>
    rcases hx2 h2.1 with h3 | h3
    · rw [h3] at h2; exact absurd h2.2.1 (by simp)
    · exact absurd h3 h2.2.2
  | run _ _ _ hl _ => simp [implemented, hl] at hi
  | missing _ _ _ _ h => rw [hc] at h; exact absurd h (by simp)
  | unknown _ _ _ => exact ⟨rfl, rfl, rfl⟩

/-! ## C72 -/

def featureList : List Feature :=
  [.extendedAdvertising, .periodicAdvertising, .privacy, .isochronousStreams, .subrating, .channelSounding, .powerControl]

theorem mem_features (x : Feature) : x ∈ featureList := by cases x <;> decide

/-- The list of the sources. -/
def Feature.list : Feature → List Nat
  | .extendedAdvertising => extendedAdvertisingCommands
  | .periodicAdvertising => periodicAdvertisingCommands
  | .privacy => privacyCommands
  | .isochronousStreams => isochronousCommands
  | .subrating => subratingCommands
  | .channelSounding => soundingCommands
  | .powerControl => powerControlCommands

set_option maxRecDepth 100000 in
theorem table_features : featureList.all (fun x => x.commands.all (fun op => op ≠ 0x1002 && op >>> 10 ≠ 0x3f &&
    (match indices.lookup op with
      | none => false
      | some i => featureList.all (fun y => y.list.contains i = decide (x = y))))) = true := by decide +kernel

set_option maxRecDepth 100000 in
theorem table_rest : indices.all (fun r => !inFeature r.2 || shared.contains r.1 ||
    featureList.any (fun x => x.commands.contains r.1)) = true := by decide +kernel

/-- C72. Switching a feature on makes the controller support all its commands, switching it off makes it
support none of them, whatever the preset and the other features. Left out are the two commands that several
features share. -/
theorem C72_feature_partial {p : Preset} {f : Features} {strict q k b : Bool} {x : Feature} {op : Nat}
    (hf : f.get x = some b) (ho : op ∈ x.commands) : supported (Cfg.of p f strict q k) op = b := by
  have ht := (List.all_eq_true.mp ((List.all_eq_true.mp table_features) _ (mem_features x))) _ ho
  simp only [Bool.and_eq_true, decide_eq_true_eq] at ht
  cases hi : indices.lookup op with
  | none => rw [hi] at ht; simp at ht
  | some i =>
    rw [hi] at ht
    have hl := fun y => (List.all_eq_true.mp ht.2) y (mem_features y)
    simp only [decide_eq_true_eq, List.contains_eq_mem] at hl
    simp only [supported, hi, Cfg.of, bit_configured (index_lt hi)]
    have h1 := decide_eq_decide.mp (hl .powerControl)
    have h2 := decide_eq_decide.mp (hl .channelSounding)
    have h3 := decide_eq_decide.mp (hl .subrating)
    have h4 := decide_eq_decide.mp (hl .isochronousStreams)
    have h5 := decide_eq_decide.mp (hl .privacy)
    have h6 := decide_eq_decide.mp (hl .periodicAdvertising)
    have h7 := decide_eq_decide.mp (hl .extendedAdvertising)
    simp only [Feature.list] at h1 h2 h3 h4 h5 h6 h7
    have e1 : op ≠ 0x1002 := ht.1.1
    have e2 : op >>> 10 ≠ 0x3f := ht.1.2
    simp only [e1, e2, decide_false, Bool.false_and, Bool.false_or]
    simp only [h1, h2, h3, h4, h5, h6, h7]
    cases x <;> simp only [Features.get] at hf <;> simp [hf]

/-- Extended advertising on, periodic advertising off: each keeps to its own commands. -/
example : (Features.mk (some true) (some false) none none none none none).get .extendedAdvertising = some true ∧
    (0x203d : Nat) ∈ Feature.extendedAdvertising.commands := by decide

/-- C72. A command that belongs to no feature is supported by the preset or not, whatever the features. -/
theorem C72_other_partial {p : Preset} {f : Features} {strict q k : Bool} {op : Nat} (hs : op ∉ shared)
    (ho : ∀ x : Feature, op ∉ x.commands) : supported (Cfg.of p f strict q k) op = supported (Cfg.of p plain strict q k) op := by
  simp only [supported]
  cases hi : indices.lookup op with
  | none => rfl
  | some i =>
    have ht := (List.all_eq_true.mp table_rest) _ (lookup_mem hi)
    simp only [Bool.or_eq_true, List.contains_iff_mem, Bool.not_eq_true', List.any_eq_true] at ht
    rcases ht with (ht | ht) | ⟨x, _, ht⟩
    · simp only [Bool.or_eq_false_iff, inFeature, List.contains_eq_mem, decide_eq_false_iff_not] at ht
      simp only [Cfg.of, bit_configured (index_lt hi)]
      simp [ht]
    · exact absurd ht hs
    · exact absurd ht (ho x)

example : (0x1005 : Nat) ∉ shared ∧ ∀ x : Feature, (0x1005 : Nat) ∉ x.commands := by
  refine ⟨by decide, fun x => ?_⟩
  cases x <;> decide

set_option maxRecDepth 100000 in
/-- C72 does not hold of the shared commands: with extended advertising on and periodic advertising off, LE Set
Data Related Address Changes, which extended advertising has turned on, is turned off again. -/
theorem C72_shared_violated : ∃ f : Features, f.extended = some true ∧ f.periodic = some false ∧
    supported (Cfg.of .default { f with periodic := none } true false false) 0x207c = true ∧
    supported (Cfg.of .default f true false false) 0x207c = false :=
  ⟨⟨some true, some false, none, none, none, none, none⟩, rfl, rfl, by decide +kernel, by decide +kernel⟩

end Verif.Hci
