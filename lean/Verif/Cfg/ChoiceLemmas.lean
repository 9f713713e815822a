import Verif.Cfg.PropsChoice
/-! # What commands and features depend on in a configuration -/
namespace Verif.Cfg
open Verif.Hci (Preset bit)

/-- The fields of `Choice` by number. -/
def Choice.get (c : Choice) : Nat → Option Bool
  | 0 => c.extended
  | 1 => c.periodic
  | 2 => c.privacy
  | 3 => c.phy2m
  | 4 => c.coded
  | 5 => c.iso
  | 6 => c.subrating
  | 7 => c.sounding
  | _ => c.power

/-- The choice with these fields. -/
def Choice.of (g : Nat → Option Bool) : Choice := ⟨g 0, g 1, g 2, g 3, g 4, g 5, g 6, g 7, g 8⟩

/-- The field an LE feature depends on. -/
def llField : Nat → Option Nat
  | 6 => some 2
  | 8 => some 3
  | 11 => some 4
  | 12 => some 0
  | 13 => some 1
  | 28 => some 5
  | 29 => some 5
  | 33 => some 8
  | 37 => some 6
  | 46 => some 7
  | _ => none

/-- The fields and their commands, the last applied first. -/
def lists : List (Nat × List Nat) :=
  [(8, Hci.powerControlCommands), (7, Hci.soundingCommands), (6, Hci.subratingCommands), (5, Hci.isochronousCommands),
    (2, Hci.privacyCommands), (1, Hci.periodicAdvertisingCommands), (0, Hci.extendedAdvertisingCommands)]

/-- The fields a command depends on. -/
def commandFields (i : Nat) : List Nat := (lists.filter (fun l => l.2.contains i)).map (·.1)

/-- What the last of these fields that is there says. -/
def decided (g : Nat → Option Bool) : List Nat → Bool → Bool
  | [], b => b
  | k :: l, b => match g k with
    | some o => o
    | none => decided g l b

/-- What the controller reports, by the fields. -/
def fieldsView (p : Preset) (g : Nat → Option Bool) : View where
  ll n := match llField n with
    | some k => (g k).getD ((base p).view.ll n)
    | none => (base p).view.ll n
  lmp := (base p).view.lmp
  command i := decided g (commandFields i) ((base p).view.command i)
  initiator := (base p).view.initiator
  br := (base p).br
  le := (base p).le

theorem fields_ll (p : Preset) (c : Choice) : (construct p c).view.ll = (fieldsView p c.get).ll := by
  funext n
  rw [C87_features]
  simp only [fieldsView]
  by_cases hn : n ∈ [6, 8, 11, 12, 13, 28, 29, 33, 37, 46]
  · simp only [List.mem_cons, List.not_mem_nil, or_false] at hn
    rcases hn with rfl | rfl | rfl | rfl | rfl | rfl | rfl | rfl | rfl | rfl <;> rfl
  · rw [said_none hn]
    have : llField n = none := by
      unfold llField
      split <;> first | rfl | exact absurd (by decide) hn
    rw [this]
    rfl

theorem decided_filter (g : Nat → Option Bool) (i : Nat) (L : List (Nat × List Nat)) (b : Bool) :
    decided g ((L.filter (fun l => l.2.contains i)).map (·.1)) b =
      L.foldr (fun l r => if i ∈ l.2 ∧ (g l.1).isSome then (g l.1).getD false else r) b := by
  induction L with
  | nil => rfl
  | cons l L ih =>
    simp only [List.filter_cons, List.foldr_cons]
    by_cases h : i ∈ l.2
    · have : l.2.contains i = true := by simpa using h
      rw [if_pos this, List.map_cons, decided, ih]
      cases g l.1 <;> simp [h]
    · rw [if_neg (by simp [h]), ih, if_neg (by simp [h])]

theorem fields_command (p : Preset) (c : Choice) {i : Nat} (hi : i % 10 < 8) :
    (construct p c).view.command i = (fieldsView p c.get).command i := by
  have h1 : (construct p c).view.command i = bit (Hci.configured p c.named) i := by
    rfl
  have h2 : (base p).view.command i = bit p.bytes i := by
    have : (base p).commands = p.bytes := by cases p <;> simp only [base]
    show bit (base p).commands i = _
    rw [this]
  rw [h1, Hci.bit_configured hi]
  simp only [fieldsView, commandFields, decided_filter, h2]
  rfl

/-- The fields a condition depends on. -/
def Formula.reads : Formula → List Nat
  | .yes => []
  | .no => []
  | .ll n => (llField n).toList
  | .lmp _ _ => []
  | .command n => commandFields n
  | .initiator => []
  | .and a b => a.reads ++ b.reads
  | .or a b => a.reads ++ b.reads

/-- Whether a condition names commands properly. -/
def Formula.proper : Formula → Bool
  | .command n => n % 10 < 8
  | .and a b => a.proper && b.proper
  | .or a b => a.proper && b.proper
  | _ => true

theorem decided_congr {g g' : Nat → Option Bool} {l : List Nat} (h : ∀ k ∈ l, g k = g' k) (b : Bool) :
    decided g l b = decided g' l b := by
  induction l with
  | nil => rfl
  | cons k l ih =>
    simp only [decided, h k (by simp)]
    rw [ih (fun k hk => h k (by simp [hk]))]

theorem holds_congr (p : Preset) {g g' : Nat → Option Bool} {f : Formula} (h : ∀ k ∈ f.reads, g k = g' k) :
    f.holds (fieldsView p g) = f.holds (fieldsView p g') := by
  induction f with
  | yes => rfl
  | no => rfl
  | lmp => rfl
  | initiator => rfl
  | ll n =>
    simp only [Formula.holds, fieldsView]
    simp only [Formula.reads] at h
    cases hl : llField n with
    | none => rfl
    | some k => simp only [h k (by simp [hl])]
  | command n => exact decided_congr h _
  | and a b ha hb =>
    simp only [Formula.holds, ha (fun k hk => h k (by simp [Formula.reads, hk])), hb (fun k hk => h k (by simp [Formula.reads, hk]))]
  | or a b ha hb =>
    simp only [Formula.holds, ha (fun k hk => h k (by simp [Formula.reads, hk])), hb (fun k hk => h k (by simp [Formula.reads, hk]))]

theorem holds_fields (p : Preset) (c : Choice) {f : Formula} (h : f.proper = true) :
    f.holds (construct p c).view = f.holds (fieldsView p c.get) := by
  induction f with
  | yes => rfl
  | no => rfl
  | lmp => rfl
  | initiator => rfl
  | ll n => simp only [Formula.holds, fields_ll]
  | command n => exact fields_command p c (by simpa [Formula.proper] using h)
  | and a b ha hb =>
    simp only [Formula.proper, Bool.and_eq_true] at h
    simp only [Formula.holds, ha h.1, hb h.2]
  | or a b ha hb =>
    simp only [Formula.proper, Bool.and_eq_true] at h
    simp only [Formula.holds, ha h.1, hb h.2]

/-- The fields a command and its requirements depend on. -/
def rowReads (b l : Rule) (i : Nat) : List Nat :=
  b.must.reads ++ b.may.reads ++ (l.must.reads ++ l.may.reads) ++ commandFields i

/-- Whether they name commands properly. -/
def rowProper (b l : Rule) (i : Nat) : Bool :=
  b.must.proper && b.may.proper && (l.must.proper && l.may.proper) && i % 10 < 8

theorem agrees_congr (p : Preset) {g g' : Nat → Option Bool} {b l : Rule} {i : Nat} (h : ∀ k ∈ rowReads b l i, g k = g' k) :
    agrees (fieldsView p g) b l i = agrees (fieldsView p g') b l i := by
  have h1 : b.must.holds (fieldsView p g) = b.must.holds (fieldsView p g') := holds_congr p (fun k hk => h k (by simp [rowReads, hk]))
  have h2 : b.may.holds (fieldsView p g) = b.may.holds (fieldsView p g') := holds_congr p (fun k hk => h k (by simp [rowReads, hk]))
  have h3 : l.must.holds (fieldsView p g) = l.must.holds (fieldsView p g') := holds_congr p (fun k hk => h k (by simp [rowReads, hk]))
  have h4 : l.may.holds (fieldsView p g) = l.may.holds (fieldsView p g') := holds_congr p (fun k hk => h k (by simp [rowReads, hk]))
  have h5 : (fieldsView p g).command i = (fieldsView p g').command i := decided_congr (fun k hk => h k (by simp [rowReads, hk])) _
  have h6 : (fieldsView p g).br = (fieldsView p g').br := rfl
  have h7 : (fieldsView p g).le = (fieldsView p g').le := rfl
  simp only [agrees, h1, h2, h3, h4, h5, h6, h7]

theorem agrees_fields (p : Preset) (c : Choice) {b l : Rule} {i : Nat} (h : rowProper b l i = true) :
    agrees (construct p c).view b l i = agrees (fieldsView p c.get) b l i := by
  simp only [rowProper, Bool.and_eq_true, decide_eq_true_eq] at h
  have h6 : (construct p c).view.br = (fieldsView p c.get).br := rfl
  have h7 : (construct p c).view.le = (fieldsView p c.get).le := rfl
  simp only [agrees, holds_fields p c h.1.1.1, holds_fields p c h.1.1.2, holds_fields p c h.1.2.1, holds_fields p c h.1.2.2,
    fields_command p c h.2, h6, h7]

/-- All that fields of a list may say. -/
def saying : List Nat → List (Nat → Option Bool)
  | [] => [fun _ => none]
  | k :: l => (saying l).flatMap (fun g => [none, some true, some false].map (fun o j => if j = k then o else g j))

theorem saying_complete (g : Nat → Option Bool) (l : List Nat) : ∃ g' ∈ saying l, ∀ k ∈ l, g k = g' k := by
  induction l with
  | nil => exact ⟨fun _ => none, by simp [saying], by simp⟩
  | cons a l ih =>
    obtain ⟨g', h, he⟩ := ih
    refine ⟨fun j => if j = a then g a else g' j, ?_, ?_⟩
    · rw [saying, List.mem_flatMap]
      refine ⟨g', h, List.mem_map.mpr ⟨g a, ?_, rfl⟩⟩
      rcases g a with _ | _ | _ <;> decide
    · intro k hk
      by_cases e : k = a
      · simp [e]
      · simp only [e, if_false]
        exact he k (by simpa [e] using hk)

theorem get_of (g : Nat → Option Bool) {k : Nat} (h : k < 9) : (Choice.of g).get k = g k := by
  match k, h with
  | 0, _ => rfl
  | 1, _ => rfl
  | 2, _ => rfl
  | 3, _ => rfl
  | 4, _ => rfl
  | 5, _ => rfl
  | 6, _ => rfl
  | 7, _ => rfl
  | 8, _ => rfl

/-- The same without repetitions. -/
def rowFields (b l : Rule) (i : Nat) : List Nat := (List.range 9).filter (fun k => (rowReads b l i).contains k)

/-- Whether a command agrees with the features, whatever the fields it depends on say. -/
def alwaysAgrees (p : Preset) (b l : Rule) (i : Nat) : Bool :=
  (saying (rowFields b l i)).all (fun g => agrees (fieldsView p g) b l i)

/-- What has to be known of a row. -/
def rowFine (b l : Rule) (i : Nat) : Bool := rowProper b l i && (rowReads b l i).all (· < 9)

theorem always (p : Preset) {b l : Rule} {i : Nat} (h : rowFine b l i = true) :
    (∀ c : Choice, agrees (construct p c).view b l i = true) ↔ alwaysAgrees p b l i = true := by
  simp only [rowFine, Bool.and_eq_true, List.all_eq_true, decide_eq_true_eq] at h
  have hmem : ∀ k ∈ rowReads b l i, k ∈ rowFields b l i := by
    intro k hk
    simp only [rowFields, List.mem_filter, List.mem_range, List.contains_iff_mem]
    exact ⟨h.2 k hk, hk⟩
  constructor
  · intro hc
    rw [alwaysAgrees, List.all_eq_true]
    intro g _
    have := hc (Choice.of g)
    rw [agrees_fields p _ h.1] at this
    rw [← this]
    exact agrees_congr p (fun k hk => (get_of g (h.2 k hk)).symm)
  · intro ha c
    obtain ⟨g, hg, he⟩ := saying_complete c.get (rowFields b l i)
    rw [agrees_fields p c h.1, agrees_congr p (fun k hk => he k (hmem k hk))]
    exact List.all_eq_true.mp ha g hg

end Verif.Cfg
