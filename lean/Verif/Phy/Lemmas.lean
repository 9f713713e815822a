import Verif.Phy.Spec
import Mathlib.Tactic.Tauto
/-! # Lemmas on the device and phy tables -/

namespace Verif.Phy
open Verif.Addr

/-- Everything but the attachments is the same. -/
structure Frame (s s' : Model) : Prop where
  devs : s'.devs.map (fun x => (x.id, x.addr)) = s.devs.map (fun x => (x.id, x.addr))
  phys : s'.phys.map (fun y => (y.id, y.type)) = s.phys.map (fun y => (y.id, y.type))
  loose : s'.loose = s.loose
  nextDev : s'.nextDev = s.nextDev
  nextPhy : s'.nextPhy = s.nextPhy

theorem Frame.refl (s : Model) : Frame s s := ⟨rfl, rfl, rfl, rfl, rfl⟩

theorem Frame.trans {a b c : Model} (h : Frame a b) (k : Frame b c) : Frame a c :=
  ⟨k.1.trans h.1, k.2.trans h.2, k.3.trans h.3, k.4.trans h.4, k.5.trans h.5⟩

theorem present_iff (s : Model) (d : Nat) :
    Present s d ↔ d ∈ (s.devs.map (fun x => (x.id, x.addr))).map (·.1) := by
  simp [Present]

theorem phyPresent_iff (s : Model) (p : Nat) (t : PhyType) :
    PhyPresent s p t ↔ (p, t) ∈ s.phys.map (fun y => (y.id, y.type)) := by
  simp [PhyPresent]

theorem Frame.present {s s' : Model} (h : Frame s s') (d : Nat) : Present s' d ↔ Present s d := by
  rw [present_iff, present_iff, h.devs]

theorem Frame.phyPresent {s s' : Model} (h : Frame s s') (p : Nat) (t : PhyType) :
    PhyPresent s' p t ↔ PhyPresent s p t := by
  rw [phyPresent_iff, phyPresent_iff, h.phys]

theorem Frame.devIds {s s' : Model} (h : Frame s s') : s'.devs.map (·.id) = s.devs.map (·.id) := by
  have := congrArg (List.map (·.1)) h.devs
  simpa [Function.comp_def] using this

theorem Frame.phyIds {s s' : Model} (h : Frame s s') : s'.phys.map (·.id) = s.phys.map (·.id) := by
  have := congrArg (List.map (·.1)) h.phys
  simpa [Function.comp_def] using this

theorem register_id (p : Nat) (x : Dev) : (x.register p).id = x.id := by
  unfold Dev.register; split <;> rfl

theorem register_addr (p : Nat) (x : Dev) : (x.register p).addr = x.addr := by
  unfold Dev.register; split <;> rfl

theorem mem_register (p q : Nat) (x : Dev) : q ∈ (x.register p).phys ↔ q ∈ x.phys ∨ q = p := by
  unfold Dev.register; split
  · constructor
    · exact Or.inl
    · rintro (h | rfl) <;> assumption
  · simp [or_comm]

theorem mem_unregister (p q : Nat) (x : Dev) : q ∈ (x.unregister p).phys ↔ q ∈ x.phys ∧ q ≠ p := by
  simp [Dev.unregister]

theorem modDev_map {β} (d : Nat) (f : Dev → Dev) (g : Dev → β) (hg : ∀ x, g (f x) = g x) (l : List Dev) :
    (modDev d f l).map g = l.map g := by
  unfold modDev
  rw [List.map_map]
  apply List.map_congr_left
  intro x _
  simp only [Function.comp_def]
  split <;> simp [hg]

theorem modPhy_map {β} (p : Nat) (f : Phy → Phy) (g : Phy → β) (hg : ∀ x, g (f x) = g x) (l : List Phy) :
    (modPhy p f l).map g = l.map g := by
  unfold modPhy
  rw [List.map_map]
  apply List.map_congr_left
  intro x _
  simp only [Function.comp_def]
  split <;> simp [hg]

theorem mem_modDev {d : Nat} {f : Dev → Dev} {l : List Dev} {x : Dev} :
    x ∈ modDev d f l ↔ (∃ y ∈ l, y.id = d ∧ x = f y) ∨ (x ∈ l ∧ x.id ≠ d) := by
  unfold modDev
  rw [List.mem_map]
  constructor
  · rintro ⟨y, hy, rfl⟩
    split
    · left; exact ⟨y, hy, by assumption, rfl⟩
    · right; exact ⟨hy, by assumption⟩
  · rintro (⟨y, hy, h, rfl⟩ | ⟨hx, h⟩)
    · exact ⟨y, hy, by simp [h]⟩
    · exact ⟨x, hx, by simp [h]⟩

theorem mem_modPhy {p : Nat} {f : Phy → Phy} {l : List Phy} {x : Phy} :
    x ∈ modPhy p f l ↔ (∃ y ∈ l, y.id = p ∧ x = f y) ∨ (x ∈ l ∧ x.id ≠ p) := by
  unfold modPhy
  rw [List.mem_map]
  constructor
  · rintro ⟨y, hy, rfl⟩
    split
    · left; exact ⟨y, hy, by assumption, rfl⟩
    · right; exact ⟨hy, by assumption⟩
  · rintro (⟨y, hy, h, rfl⟩ | ⟨hx, h⟩)
    · exact ⟨y, hy, by simp [h]⟩
    · exact ⟨x, hx, by simp [h]⟩

/-! ## register -/

theorem register_frame (s : Model) (d p : Nat) : Frame s (register s d p) :=
  ⟨modDev_map _ _ _ (fun x => by simp [register_id, register_addr]) _,
   modPhy_map _ _ _ (by intro _; rfl) _, rfl, rfl, rfl⟩

theorem register_dev (s : Model) (d p a b : Nat) :
    DeviceLists (register s d p) a b ↔ DeviceLists s a b ∨ (a = d ∧ b = p ∧ Present s d) := by
  unfold DeviceLists Present register
  simp only [mem_modDev]
  constructor
  · rintro ⟨x, (⟨y, hy, rfl, rfl⟩ | ⟨hx, hn⟩), rfl, hb⟩
    · rw [mem_register] at hb
      rcases hb with hb | rfl
      · exact Or.inl ⟨y, hy, (register_id _ _).symm, hb⟩
      · exact Or.inr ⟨register_id _ _, rfl, y, hy, rfl⟩
    · exact Or.inl ⟨x, hx, rfl, hb⟩
  · rintro (⟨x, hx, rfl, hb⟩ | ⟨rfl, rfl, x, hx, rfl⟩)
    · by_cases h : x.id = d
      · exact ⟨x.register p, Or.inl ⟨x, hx, h, rfl⟩, register_id _ _, (mem_register _ _ _).mpr (Or.inl hb)⟩
      · exact ⟨x, Or.inr ⟨hx, h⟩, rfl, hb⟩
    · exact ⟨x.register b, Or.inl ⟨x, hx, rfl, rfl⟩, register_id _ _, (mem_register _ _ _).mpr (Or.inr rfl)⟩

theorem register_phy (s : Model) (d p a b : Nat) :
    PhyLists (register s d p) a b ↔ PhyLists s a b ∨ (a = d ∧ b = p ∧ ∃ t, PhyPresent s p t) := by
  unfold PhyLists PhyPresent register
  simp only [mem_modPhy]
  constructor
  · rintro ⟨x, (⟨y, hy, rfl, rfl⟩ | ⟨hx, hn⟩), rfl, hb⟩
    · simp only [List.mem_append, List.mem_singleton] at hb
      rcases hb with hb | rfl
      · exact Or.inl ⟨y, hy, rfl, hb⟩
      · exact Or.inr ⟨rfl, rfl, y.type, y, hy, rfl, rfl⟩
    · exact Or.inl ⟨x, hx, rfl, hb⟩
  · rintro (⟨x, hx, rfl, hb⟩ | ⟨rfl, rfl, t, x, hx, rfl, rfl⟩)
    · by_cases h : x.id = p
      · exact ⟨_, Or.inl ⟨x, hx, h, rfl⟩, rfl, by simp [hb]⟩
      · exact ⟨x, Or.inr ⟨hx, h⟩, rfl, hb⟩
    · exact ⟨_, Or.inl ⟨x, hx, rfl, rfl⟩, rfl, by simp⟩

/-! ## unregister -/

theorem unregister_frame (s : Model) (d p : Nat) : Frame s (unregister s d p) := by
  unfold unregister
  split
  · exact ⟨modDev_map _ _ _ (by intro _; rfl) _, modPhy_map _ _ _ (by intro _; rfl) _, rfl, rfl, rfl⟩
  · exact Frame.refl s

theorem unregister_cond (s : Model) (d p : Nat) :
    s.phys.any (fun y => y.id = p && d ∈ y.members) = true ↔ PhyLists s d p := by
  simp [PhyLists]

theorem unregister_phy (s : Model) (d p a b : Nat) :
    PhyLists (unregister s d p) a b ↔ PhyLists s a b ∧ ¬ (a = d ∧ b = p) := by
  unfold unregister
  split
  · unfold PhyLists
    simp only [mem_modPhy]
    constructor
    · rintro ⟨x, (⟨y, hy, rfl, rfl⟩ | ⟨hx, hn⟩), rfl, hb⟩
      · simp only [List.mem_filter, decide_eq_true_eq] at hb
        exact ⟨⟨y, hy, rfl, hb.1⟩, fun h => hb.2 h.1⟩
      · exact ⟨⟨x, hx, rfl, hb⟩, fun h => hn h.2⟩
    · rintro ⟨⟨x, hx, rfl, hb⟩, hn⟩
      by_cases h : x.id = p
      · refine ⟨_, Or.inl ⟨x, hx, h, rfl⟩, rfl, ?_⟩
        simp only [List.mem_filter, decide_eq_true_eq]
        exact ⟨hb, fun h' => hn ⟨h', h⟩⟩
      · exact ⟨x, Or.inr ⟨hx, h⟩, rfl, hb⟩
  · rename_i hc
    rw [unregister_cond] at hc
    constructor
    · intro h
      refine ⟨h, ?_⟩
      rintro ⟨rfl, rfl⟩
      exact hc h
    · exact fun h => h.1

theorem unregister_dev (s : Model) (hs : ∀ a b, DeviceLists s a b ↔ PhyLists s a b) (d p a b : Nat) :
    DeviceLists (unregister s d p) a b ↔ DeviceLists s a b ∧ ¬ (a = d ∧ b = p) := by
  unfold unregister
  split
  · unfold DeviceLists
    simp only [mem_modDev]
    constructor
    · rintro ⟨x, (⟨y, hy, rfl, rfl⟩ | ⟨hx, hn⟩), rfl, hb⟩
      · rw [mem_unregister] at hb
        exact ⟨⟨y, hy, rfl, hb.1⟩, fun h => hb.2 h.2⟩
      · exact ⟨⟨x, hx, rfl, hb⟩, fun h => hn h.1⟩
    · rintro ⟨⟨x, hx, rfl, hb⟩, hn⟩
      by_cases h : x.id = d
      · refine ⟨x.unregister p, Or.inl ⟨x, hx, h, rfl⟩, rfl, ?_⟩
        rw [mem_unregister]
        exact ⟨hb, fun h' => hn ⟨h, h'⟩⟩
      · exact ⟨x, Or.inr ⟨hx, h⟩, rfl, hb⟩
  · rename_i hc
    rw [unregister_cond, ← hs] at hc
    constructor
    · intro h
      refine ⟨h, ?_⟩
      rintro ⟨rfl, rfl⟩
      exact hc h
    · exact fun h => h.1

/-! ## unregisterAll -/

theorem unregisterAll_frame (s : Model) (p : Nat) : Frame s (unregisterAll s p) := by
  refine ⟨?_, modPhy_map _ _ _ (by intro _; rfl) _, rfl, rfl, rfl⟩
  simp only [unregisterAll, List.map_map]
  apply List.map_congr_left
  intro x _
  simp only [Function.comp_def]
  split <;> rfl

theorem unregisterAll_phy (s : Model) (p a b : Nat) :
    PhyLists (unregisterAll s p) a b ↔ PhyLists s a b ∧ b ≠ p := by
  unfold PhyLists unregisterAll
  simp only [mem_modPhy]
  constructor
  · rintro ⟨x, (⟨y, hy, rfl, rfl⟩ | ⟨hx, hn⟩), rfl, hb⟩
    · simp at hb
    · exact ⟨⟨x, hx, rfl, hb⟩, hn⟩
  · rintro ⟨⟨x, hx, rfl, hb⟩, hn⟩
    exact ⟨x, Or.inr ⟨hx, hn⟩, rfl, hb⟩

theorem unregisterAll_dev (s : Model) (hs : ∀ a b, DeviceLists s a b ↔ PhyLists s a b) (p a b : Nat) :
    DeviceLists (unregisterAll s p) a b ↔ DeviceLists s a b ∧ b ≠ p := by
  have hm : ∀ a, a ∈ (s.phys.filter (·.id = p)).flatMap (·.members) ↔ PhyLists s a p := by
    intro a
    simp [PhyLists, and_assoc]
  unfold DeviceLists unregisterAll
  simp only [List.mem_map, hm]
  constructor
  · rintro ⟨x, ⟨y, hy, rfl⟩, rfl, hb⟩
    by_cases h : PhyLists s y.id p
    · rw [if_pos ((hm _).mpr h)] at hb ⊢
      rw [mem_unregister] at hb
      exact ⟨⟨y, hy, rfl, hb.1⟩, hb.2⟩
    · rw [if_neg (fun h' => h ((hm _).mp h'))] at hb ⊢
      refine ⟨⟨y, hy, rfl, hb⟩, ?_⟩
      rintro rfl
      exact h ((hs _ _).mp ⟨y, hy, rfl, hb⟩)
  · rintro ⟨⟨x, hx, rfl, hb⟩, hn⟩
    refine ⟨_, ⟨x, hx, rfl⟩, ?_, ?_⟩
    · split <;> rfl
    · split
      · rw [mem_unregister]; exact ⟨hb, hn⟩
      · exact hb

/-! ## Sequences -/

/-- Both tables say the same. -/
def Sym (s : Model) : Prop := ∀ a b, DeviceLists s a b ↔ PhyLists s a b

/-- The sets of phys of the devices have no duplicates. -/
def SetPhys (s : Model) : Prop := ∀ x ∈ s.devs, x.phys.Nodup

theorem register_set {s : Model} (h : SetPhys s) (d p : Nat) : SetPhys (register s d p) := by
  intro x hx
  simp only [register, mem_modDev] at hx
  rcases hx with ⟨y, hy, _, rfl⟩ | ⟨hx, _⟩
  · unfold Dev.register
    split
    · exact h y hy
    · rename_i hn
      exact List.nodup_cons.mpr ⟨hn, h y hy⟩
  · exact h x hx

theorem unregister_set {s : Model} (h : SetPhys s) (d p : Nat) : SetPhys (unregister s d p) := by
  unfold unregister
  split
  · intro x hx
    simp only [mem_modDev] at hx
    rcases hx with ⟨y, hy, _, rfl⟩ | ⟨hx, _⟩
    · exact (h y hy).filter _
    · exact h x hx
  · exact h

theorem unregisterAll_set {s : Model} (h : SetPhys s) (p : Nat) : SetPhys (unregisterAll s p) := by
  intro x hx
  simp only [unregisterAll, List.mem_map] at hx
  obtain ⟨y, hy, rfl⟩ := hx
  split
  · exact (h y hy).filter _
  · exact h y hy

theorem registerFold (ps : List Nat) (d : Nat) : ∀ (s : Model), Sym s → SetPhys s → Present s d →
    (∀ p ∈ ps, ∃ t, PhyPresent s p t) →
    let s' := ps.foldl (fun s p => register s d p) s
    Sym s' ∧ SetPhys s' ∧ Frame s s' ∧
      ∀ a b, DeviceLists s' a b ↔ DeviceLists s a b ∨ (a = d ∧ b ∈ ps) := by
  induction ps with
  | nil => intro s h1 h2 _ _; exact ⟨h1, h2, Frame.refl s, by simp⟩
  | cons p ps ih =>
    intro s h1 h2 h3 h4
    have hf := register_frame s d p
    have hsym : Sym (register s d p) := by
      intro a b
      rw [register_dev, register_phy, h1 a b]
      have := h4 p (by simp)
      simp [h3, this]
    obtain ⟨i1, i2, i3, i4⟩ := ih (register s d p) hsym (register_set h2 d p) ((hf.present d).mpr h3)
      (fun q hq => by
        obtain ⟨t, ht⟩ := h4 q (by simp [hq])
        exact ⟨t, (hf.phyPresent q t).mpr ht⟩)
    refine ⟨i1, i2, hf.trans i3, ?_⟩
    intro a b
    rw [List.foldl_cons, i4 a b, register_dev, List.mem_cons]
    simp only [h3, and_true]
    tauto

theorem unregisterFold (ps : List Nat) (d : Nat) : ∀ (s : Model), Sym s → SetPhys s →
    let s' := ps.foldl (fun s p => unregister s d p) s
    Sym s' ∧ SetPhys s' ∧ Frame s s' ∧
      ∀ a b, DeviceLists s' a b ↔ DeviceLists s a b ∧ ¬ (a = d ∧ b ∈ ps) := by
  induction ps with
  | nil => intro s h1 h2; exact ⟨h1, h2, Frame.refl s, by simp⟩
  | cons p ps ih =>
    intro s h1 h2
    have hf := unregister_frame s d p
    have hsym : Sym (unregister s d p) := by
      intro a b
      rw [unregister_dev s h1, unregister_phy, h1 a b]
    obtain ⟨i1, i2, i3, i4⟩ := ih (unregister s d p) hsym (unregister_set h2 d p)
    refine ⟨i1, i2, hf.trans i3, ?_⟩
    intro a b
    rw [List.foldl_cons, i4 a b, unregister_dev s h1, List.mem_cons]
    tauto

theorem unregisterAllFold (ps : List Nat) : ∀ (s : Model), Sym s → SetPhys s →
    let s' := ps.foldl unregisterAll s
    Sym s' ∧ SetPhys s' ∧ Frame s s' ∧
      ∀ a b, DeviceLists s' a b ↔ DeviceLists s a b ∧ b ∉ ps := by
  induction ps with
  | nil => intro s h1 h2; exact ⟨h1, h2, Frame.refl s, by simp⟩
  | cons p ps ih =>
    intro s h1 h2
    have hf := unregisterAll_frame s p
    have hsym : Sym (unregisterAll s p) := by
      intro a b
      rw [unregisterAll_dev s h1, unregisterAll_phy, h1 a b]
    obtain ⟨i1, i2, i3, i4⟩ := ih (unregisterAll s p) hsym (unregisterAll_set h2 p)
    refine ⟨i1, i2, hf.trans i3, ?_⟩
    intro a b
    rw [List.foldl_cons, i4 a b, unregisterAll_dev s h1, List.mem_cons]
    tauto

/-! ## The invariant -/

structure Inv (k : Nat) (s : Model) : Prop where
  sym : Sym s
  set : SetPhys s
  devIds : (s.devs.map (·.id)).Nodup
  phyIds : (s.phys.map (·.id)).Nodup
  looseIds : (s.loose.map (·.1)).Nodup
  disj : ∀ d ∈ s.loose.map (·.1), d ∉ s.devs.map (·.id)
  devLt : ∀ d ∈ s.devs.map (·.id), d < s.nextDev
  looseLt : ∀ d ∈ s.loose.map (·.1), d < s.nextDev
  phyLt : ∀ p ∈ s.phys.map (·.id), p < s.nextPhy
  devBound : s.nextDev ≤ k
  phyBound : s.nextPhy ≤ k

theorem inv_init : Inv 0 Model.init := by
  constructor <;> simp [Model.init, Sym, SetPhys, DeviceLists, PhyLists]

theorem Inv.mono {k k' : Nat} {s : Model} (h : Inv k s) (hk : k ≤ k') : Inv k' s :=
  { h with devBound := Nat.le_trans h.devBound hk, phyBound := Nat.le_trans h.phyBound hk }

theorem Inv.frame {k : Nat} {s s' : Model} (h : Inv k s) (hf : Frame s s') (h1 : Sym s') (h2 : SetPhys s') :
    Inv k s' := by
  constructor
  · exact h1
  · exact h2
  · rw [hf.devIds]; exact h.devIds
  · rw [hf.phyIds]; exact h.phyIds
  · rw [hf.loose]; exact h.looseIds
  · rw [hf.loose, hf.devIds]; exact h.disj
  · rw [hf.nextDev, hf.devIds]; exact h.devLt
  · rw [hf.nextDev, hf.loose]; exact h.looseLt
  · rw [hf.nextPhy, hf.phyIds]; exact h.phyLt
  · rw [hf.nextDev]; exact h.devBound
  · rw [hf.nextPhy]; exact h.phyBound

theorem hasPhy_iff (s : Model) (p : Nat) : s.hasPhy p = true ↔ ∃ t, PhyPresent s p t := by
  simp only [Model.hasPhy, List.any_eq_true, decide_eq_true_eq, PhyPresent]
  constructor
  · rintro ⟨y, h, h'⟩; exact ⟨y.type, y, h, h', rfl⟩
  · rintro ⟨_, y, h, h', _⟩; exact ⟨y, h, h'⟩

theorem hasDev_iff (s : Model) (d : Nat) : s.hasDev d = true ↔ Present s d := by
  simp [Model.hasDev, Present]

theorem phyLists_present {s : Model} {a b : Nat} (h : PhyLists s a b) : ∃ t, PhyPresent s b t := by
  obtain ⟨y, hy, rfl, _⟩ := h
  exact ⟨y.type, y, hy, rfl, rfl⟩

theorem deviceLists_present {s : Model} {a b : Nat} (h : DeviceLists s a b) : Present s a := by
  obtain ⟨y, hy, rfl, _⟩ := h
  exact ⟨y, hy, rfl⟩

theorem present_ids (s : Model) (d : Nat) : Present s d ↔ d ∈ s.devs.map (·.id) := by
  simp [Present]

theorem phyPresent_ids (s : Model) (p : Nat) : (∃ t, PhyPresent s p t) ↔ p ∈ s.phys.map (·.id) := by
  simp only [List.mem_map, PhyPresent]
  constructor
  · rintro ⟨_, y, h, h', _⟩; exact ⟨y, h, h'⟩
  · rintro ⟨y, h, h'⟩; exact ⟨y.type, y, h, h', rfl⟩

theorem looseAddr_mem {s : Model} {d : Nat} {a : Address} (h : looseAddr s d = some a) :
    d ∈ s.loose.map (·.1) := by
  unfold looseAddr at h
  rw [Option.map_eq_some_iff] at h
  obtain ⟨e, he, _⟩ := h
  have h1 := List.mem_of_find?_eq_some he
  have h2 := List.find?_some he
  simp only [decide_eq_true_eq] at h2
  exact List.mem_map.mpr ⟨e, h1, h2⟩

/-- Adding a device that is not there. -/
theorem addDevice_devs {s : Model} {d : Nat} {a : Address} (hd : d ∉ s.devs.map (·.id)) :
    (addDevice s d a).devs = s.devs ++ [⟨d, a, []⟩] := by
  have : s.devs.filter (·.id ≠ d) = s.devs := by
    rw [List.filter_eq_self]
    intro x hx
    simp only [decide_eq_true_eq]
    rintro rfl
    exact hd (List.mem_map.mpr ⟨x, hx, rfl⟩)
  simp only [addDevice, this]

theorem addDevice_lists {s : Model} {d : Nat} {a : Address} (hd : d ∉ s.devs.map (·.id)) (x p : Nat) :
    DeviceLists (addDevice s d a) x p ↔ DeviceLists s x p := by
  unfold DeviceLists
  rw [addDevice_devs hd]
  simp only [List.mem_append, List.mem_singleton]
  constructor
  · rintro ⟨y, hy | rfl, h1, h2⟩
    · exact ⟨y, hy, h1, h2⟩
    · simp at h2
  · rintro ⟨y, hy, h⟩
    exact ⟨y, Or.inl hy, h⟩

theorem addDevice_present {s : Model} {d : Nat} {a : Address} (hd : d ∉ s.devs.map (·.id)) (x : Nat) :
    Present (addDevice s d a) x ↔ Present s x ∨ x = d := by
  unfold Present
  rw [addDevice_devs hd]
  simp only [List.mem_append, List.mem_singleton]
  constructor
  · rintro ⟨y, hy | rfl, h1⟩
    · exact Or.inl ⟨y, hy, h1⟩
    · exact Or.inr h1.symm
  · rintro (⟨y, hy, h⟩ | rfl)
    · exact ⟨y, Or.inl hy, h⟩
    · exact ⟨_, Or.inr rfl, rfl⟩

theorem addDevice_inv {k : Nat} {s : Model} (h : Inv k s) {d : Nat} (a : Address)
    (hd : d ∈ s.loose.map (·.1)) : Inv k (addDevice s d a) := by
  have hnd := h.disj d hd
  have hids : (addDevice s d a).devs.map (·.id) = s.devs.map (·.id) ++ [d] := by
    rw [addDevice_devs hnd]; simp
  have hl : (addDevice s d a).loose.map (·.1) = (s.loose.map (·.1)).filter (· ≠ d) := by
    simp [addDevice, List.filter_map, Function.comp_def]
  constructor
  · intro x p
    rw [addDevice_lists hnd, h.sym]
    rfl
  · intro x hx
    rw [addDevice_devs hnd] at hx
    simp only [List.mem_append, List.mem_singleton] at hx
    rcases hx with hx | rfl
    · exact h.set x hx
    · simp
  · rw [hids, List.nodup_append]
    refine ⟨h.devIds, by simp, ?_⟩
    intro x hx y hy
    simp only [List.mem_singleton] at hy
    rintro rfl
    exact hnd (hy ▸ hx)
  · exact h.phyIds
  · rw [hl]; exact h.looseIds.filter _
  · intro x hx
    rw [hl, List.mem_filter] at hx
    rw [hids, List.mem_append, List.mem_singleton]
    simp only [decide_eq_true_eq] at hx
    rintro (h' | h')
    · exact h.disj x hx.1 h'
    · exact hx.2 h'
  · intro x hx
    rw [hids, List.mem_append, List.mem_singleton] at hx
    rcases hx with hx | rfl
    · exact h.devLt x hx
    · exact h.looseLt x hd
  · intro x hx
    rw [hl, List.mem_filter] at hx
    exact h.looseLt x hx.1
  · exact h.phyLt
  · exact h.devBound
  · exact h.phyBound

theorem registerOn_spec {k : Nat} {s : Model} (h : Inv k s) {d : Nat} (hd : Present s d) (sel : PhyType → Bool) :
    Inv k (registerOn s d sel) ∧ Frame s (registerOn s d sel) ∧
    ∀ a b, DeviceLists (registerOn s d sel) a b ↔
      DeviceLists s a b ∨ (a = d ∧ ∃ t, sel t = true ∧ PhyPresent s b t) := by
  have hp : ∀ b, b ∈ (s.phys.filter (fun y => sel y.type)).map (·.id) ↔
      ∃ t, sel t = true ∧ PhyPresent s b t := by
    intro b
    simp only [List.mem_map, List.mem_filter, PhyPresent]
    constructor
    · rintro ⟨y, ⟨h1, h2⟩, h3⟩; exact ⟨y.type, h2, y, h1, h3, rfl⟩
    · rintro ⟨t, h1, y, h2, h3, rfl⟩; exact ⟨y, ⟨h2, h1⟩, h3⟩
  obtain ⟨i1, i2, i3, i4⟩ := registerFold ((s.phys.filter (fun y => sel y.type)).map (·.id)) d s h.sym h.set hd
    (fun p hp' => by
      obtain ⟨t, _, ht⟩ := (hp p).mp hp'
      exact ⟨t, ht⟩)
  refine ⟨h.frame i3 i1 i2, i3, ?_⟩
  intro a b
  rw [← hp b]
  exact i4 a b

theorem removeDevice_spec {k : Nat} {s : Model} (h : Inv k s) (d : Nat) :
    Inv k (removeDevice s d) ∧
    (∀ a b, DeviceLists (removeDevice s d) a b ↔ DeviceLists s a b ∧ a ≠ d) ∧
    (∀ a, Present (removeDevice s d) a ↔ Present s a ∧ a ≠ d) ∧
    (∀ p t, PhyPresent (removeDevice s d) p t ↔ PhyPresent s p t) := by
  obtain ⟨i1, i2, i3, i4⟩ := unregisterFold (s.phys.map (·.id)) d s h.sym h.set
  have hi := h.frame i3 i1 i2
  unfold removeDevice
  generalize (s.phys.map (·.id)).foldl (fun s p => unregister s d p) s = s1 at i1 i2 i3 i4 hi ⊢
  have key : ∀ a b, DeviceLists s1 a b ↔ DeviceLists s a b ∧ a ≠ d := by
    intro a b
    rw [i4]
    constructor
    · rintro ⟨h1, h2⟩
      refine ⟨h1, fun ha => h2 ⟨ha, ?_⟩⟩
      rw [← phyPresent_ids]
      exact phyLists_present ((h.sym a b).mp h1)
    · rintro ⟨h1, h2⟩
      exact ⟨h1, fun h3 => h2 h3.1⟩
  have hfil : ∀ a b, DeviceLists { s1 with devs := s1.devs.filter (·.id ≠ d) } a b ↔ DeviceLists s1 a b := by
    intro a b
    constructor
    · rintro ⟨x, hx, hr⟩
      exact ⟨x, (List.mem_filter.mp hx).1, hr⟩
    · rintro hh
      have hne := ((key a b).mp hh).2
      obtain ⟨x, hx, hr, hb⟩ := hh
      refine ⟨x, List.mem_filter.mpr ⟨hx, ?_⟩, hr, hb⟩
      simp only [decide_eq_true_eq]
      exact hr ▸ hne
  have hids : ∀ a, a ∈ (s1.devs.filter (·.id ≠ d)).map (·.id) ↔ a ∈ s1.devs.map (·.id) ∧ a ≠ d := by
    intro a
    simp only [List.mem_map, List.mem_filter, decide_eq_true_eq]
    constructor
    · rintro ⟨x, ⟨h1, h2⟩, rfl⟩; exact ⟨⟨x, h1, rfl⟩, h2⟩
    · rintro ⟨⟨x, h1, rfl⟩, h2⟩; exact ⟨x, ⟨h1, h2⟩, rfl⟩
  refine ⟨?_, ?_, ?_, ?_⟩
  · constructor
    · intro a b
      rw [hfil, i1 a b]; rfl
    · intro x hx
      exact i2 x (List.mem_filter.mp hx).1
    · exact hi.devIds.sublist (List.Sublist.map _ List.filter_sublist)
    · exact hi.phyIds
    · exact hi.looseIds
    · intro a ha hm
      exact hi.disj a ha ((hids a).mp hm).1
    · intro a ha
      exact hi.devLt a ((hids a).mp ha).1
    · exact hi.looseLt
    · exact hi.phyLt
    · exact hi.devBound
    · exact hi.phyBound
  · intro a b
    rw [hfil, key]
  · intro a
    rw [present_ids]
    show a ∈ (s1.devs.filter (·.id ≠ d)).map (·.id) ↔ _
    rw [hids, ← present_ids, i3.present]
  · intro p t
    exact i3.phyPresent p t

theorem addPhy_phys {k : Nat} {s : Model} (h : Inv k s) (t : PhyType) :
    (addPhy s t).phys = s.phys ++ [⟨s.nextPhy, t, []⟩] := by
  have : s.phys.filter (·.id ≠ s.nextPhy) = s.phys := by
    rw [List.filter_eq_self]
    intro x hx
    simp only [decide_eq_true_eq]
    intro he
    have := h.phyLt x.id (List.mem_map.mpr ⟨x, hx, rfl⟩)
    omega
  simp only [addPhy, this]

theorem addPhy_spec {k : Nat} {s : Model} (h : Inv k s) (hk : k + 1 < 2 ^ 32) (t : PhyType) :
    Inv (k + 1) (addPhy s t) ∧
    (∀ a b, DeviceLists (addPhy s t) a b ↔ DeviceLists s a b) ∧
    (∀ a, Present (addPhy s t) a ↔ Present s a) ∧
    (∀ p u, PhyPresent (addPhy s t) p u ↔ PhyPresent s p u ∨ (p = s.nextPhy ∧ u = t)) := by
  have hb : bump s.nextPhy = s.nextPhy + 1 := by
    have := h.phyBound
    unfold bump; omega
  have hids : (addPhy s t).phys.map (·.id) = s.phys.map (·.id) ++ [s.nextPhy] := by
    rw [addPhy_phys h]; simp
  have hpl : ∀ a b, PhyLists (addPhy s t) a b ↔ PhyLists s a b := by
    intro a b
    unfold PhyLists
    rw [addPhy_phys h]
    simp only [List.mem_append, List.mem_singleton]
    constructor
    · rintro ⟨y, hy | rfl, h1, h2⟩
      · exact ⟨y, hy, h1, h2⟩
      · simp at h2
    · rintro ⟨y, hy, h⟩
      exact ⟨y, Or.inl hy, h⟩
  refine ⟨?_, fun a b => Iff.rfl, fun a => Iff.rfl, ?_⟩
  · constructor
    · intro a b
      rw [hpl, ← h.sym]; rfl
    · exact h.set
    · exact h.devIds
    · rw [hids, List.nodup_append]
      refine ⟨h.phyIds, by simp, ?_⟩
      intro x hx y hy
      simp only [List.mem_singleton] at hy
      have := h.phyLt x hx
      omega
    · exact h.looseIds
    · exact h.disj
    · exact h.devLt
    · exact h.looseLt
    · intro p hp
      rw [hids, List.mem_append, List.mem_singleton] at hp
      show p < bump s.nextPhy
      rw [hb]
      rcases hp with hp | rfl
      · have := h.phyLt p hp; omega
      · omega
    · have := h.devBound
      show s.nextDev ≤ k + 1
      omega
    · have := h.phyBound
      show bump s.nextPhy ≤ k + 1
      omega
  · intro p u
    rw [phyPresent_iff, phyPresent_iff, addPhy_phys h]
    simp

theorem removePhy_spec {k : Nat} {s : Model} (h : Inv k s) (p : Nat) :
    Inv k (removePhy s p) ∧
    (∀ a b, DeviceLists (removePhy s p) a b ↔ DeviceLists s a b ∧ b ≠ p) ∧
    (∀ a, Present (removePhy s p) a ↔ Present s a) ∧
    (∀ q t, PhyPresent (removePhy s p) q t ↔ PhyPresent s q t ∧ q ≠ p) := by
  unfold removePhy
  split
  · have i1 : Sym (unregisterAll s p) := by
      intro a b
      rw [unregisterAll_dev s h.sym, unregisterAll_phy, h.sym a b]
    have i2 := unregisterAll_set h.set p
    have i3 := unregisterAll_frame s p
    have i4 := unregisterAll_dev s h.sym p
    have i5 := unregisterAll_phy s p
    have hi := h.frame i3 i1 i2
    generalize unregisterAll s p = s1 at i1 i2 i3 i4 i5 hi ⊢
    have hids : ∀ a, a ∈ (s1.phys.filter (·.id ≠ p)).map (·.id) ↔ a ∈ s1.phys.map (·.id) ∧ a ≠ p := by
      intro a
      simp only [List.mem_map, List.mem_filter, decide_eq_true_eq]
      constructor
      · rintro ⟨x, ⟨h1, h2⟩, rfl⟩; exact ⟨⟨x, h1, rfl⟩, h2⟩
      · rintro ⟨⟨x, h1, rfl⟩, h2⟩; exact ⟨x, ⟨h1, h2⟩, rfl⟩
    have hfil : ∀ a b, PhyLists { s1 with phys := s1.phys.filter (·.id ≠ p) } a b ↔ PhyLists s1 a b := by
      intro a b
      constructor
      · rintro ⟨x, hx, hr⟩
        exact ⟨x, (List.mem_filter.mp hx).1, hr⟩
      · rintro hh
        have hne := ((i5 a b).mp hh).2
        obtain ⟨x, hx, hr, hb⟩ := hh
        refine ⟨x, List.mem_filter.mpr ⟨hx, ?_⟩, hr, hb⟩
        simp only [decide_eq_true_eq]
        exact hr ▸ hne
    refine ⟨?_, i4, i3.present, ?_⟩
    · constructor
      · intro a b
        rw [hfil, ← i1 a b]; rfl
      · exact i2
      · exact hi.devIds
      · exact hi.phyIds.sublist (List.Sublist.map _ List.filter_sublist)
      · exact hi.looseIds
      · exact hi.disj
      · exact hi.devLt
      · exact hi.looseLt
      · intro a ha
        exact hi.phyLt a ((hids a).mp ha).1
      · exact hi.devBound
      · exact hi.phyBound
    · intro q t
      rw [← i3.phyPresent q t]
      unfold PhyPresent
      simp only [List.mem_filter, decide_eq_true_eq]
      constructor
      · rintro ⟨y, ⟨h1, h2⟩, rfl, h4⟩; exact ⟨⟨y, h1, rfl, h4⟩, h2⟩
      · rintro ⟨⟨y, h1, rfl, h4⟩, h2⟩; exact ⟨y, ⟨h1, h2⟩, rfl, h4⟩
  · rename_i hn
    rw [hasPhy_iff] at hn
    refine ⟨h, ?_, fun _ => Iff.rfl, ?_⟩
    · intro a b
      refine ⟨fun hh => ⟨hh, ?_⟩, fun hh => hh.1⟩
      rintro rfl
      exact hn (phyLists_present ((h.sym a b).mp hh))
    · intro q t
      refine ⟨fun hh => ⟨hh, ?_⟩, fun hh => hh.1⟩
      rintro rfl
      exact hn ⟨t, hh⟩

theorem addDeviceToPhy_spec {k : Nat} {s : Model} (h : Inv k s) (d p : Nat) :
    Inv k (addDeviceToPhy s d p) ∧ Frame s (addDeviceToPhy s d p) ∧
    (∀ a b, DeviceLists (addDeviceToPhy s d p) a b ↔
      DeviceLists s a b ∨ (a = d ∧ b = p ∧ Present s d ∧ ∃ t, PhyPresent s p t)) := by
  unfold addDeviceToPhy
  split
  · rename_i hc
    rw [Bool.and_eq_true, hasPhy_iff, hasDev_iff] at hc
    have hf := register_frame s d p
    refine ⟨h.frame hf ?_ (register_set h.set d p), hf, ?_⟩
    · intro a b
      rw [register_dev, register_phy, h.sym a b]
      simp [hc]
    · intro a b
      rw [register_dev]
      simp [hc]
  · rename_i hc
    rw [Bool.and_eq_true, hasPhy_iff, hasDev_iff] at hc
    refine ⟨h, Frame.refl s, ?_⟩
    intro a b
    tauto

theorem removeDeviceFromPhy_spec {k : Nat} {s : Model} (h : Inv k s) (d p : Nat) :
    Inv k (removeDeviceFromPhy s d p) ∧ Frame s (removeDeviceFromPhy s d p) ∧
    (∀ a b, DeviceLists (removeDeviceFromPhy s d p) a b ↔ DeviceLists s a b ∧ ¬ (a = d ∧ b = p)) := by
  unfold removeDeviceFromPhy
  split
  · have hf := unregister_frame s d p
    refine ⟨h.frame hf ?_ (unregister_set h.set d p), hf, unregister_dev s h.sym d p⟩
    intro a b
    rw [unregister_dev s h.sym, unregister_phy, h.sym a b]
  · rename_i hc
    rw [hasPhy_iff] at hc
    refine ⟨h, Frame.refl s, ?_⟩
    intro a b
    refine ⟨fun hh => ⟨hh, ?_⟩, fun hh => hh.1⟩
    rintro ⟨rfl, rfl⟩
    exact hc (phyLists_present ((h.sym a b).mp hh))

theorem reset_spec {k : Nat} {s : Model} (h : Inv k s) :
    Inv k { (s.phys.map (·.id)).foldl unregisterAll s with devs := [] } ∧
    (∀ a b, ¬ DeviceLists { (s.phys.map (·.id)).foldl unregisterAll s with devs := [] } a b) ∧
    (∀ a, ¬ Present { (s.phys.map (·.id)).foldl unregisterAll s with devs := [] } a) ∧
    (∀ q t, PhyPresent { (s.phys.map (·.id)).foldl unregisterAll s with devs := [] } q t ↔ PhyPresent s q t) := by
  obtain ⟨i1, i2, i3, i4⟩ := unregisterAllFold (s.phys.map (·.id)) s h.sym h.set
  have hi := h.frame i3 i1 i2
  generalize (s.phys.map (·.id)).foldl unregisterAll s = s1 at i1 i2 i3 i4 hi ⊢
  have hno : ∀ a b, ¬ DeviceLists s1 a b := by
    intro a b hh
    have h1 := (i4 a b).mp hh
    exact h1.2 ((phyPresent_ids s b).mp (phyLists_present ((h.sym a b).mp h1.1)))
  refine ⟨?_, by simp [DeviceLists], by simp [Present], i3.phyPresent⟩
  constructor
  · intro a b
    refine ⟨fun hh => absurd hh (by simp [DeviceLists]), fun hh => ?_⟩
    exact absurd ((i1 a b).mpr hh) (hno a b)
  · simp [SetPhys]
  · simp
  · exact hi.phyIds
  · exact hi.looseIds
  · simp
  · simp
  · exact hi.looseLt
  · exact hi.phyLt
  · exact hi.devBound
  · exact hi.phyBound

theorem construct_inv {k : Nat} {s : Model} (h : Inv k s) (hk : k + 1 < 2 ^ 32) (a : Address) :
    Inv (k + 1) { s with loose := s.loose ++ [(s.nextDev, a)], nextDev := bump s.nextDev } := by
  have hb : bump s.nextDev = s.nextDev + 1 := by
    have := h.devBound
    unfold bump; omega
  constructor
  · exact h.sym
  · exact h.set
  · exact h.devIds
  · exact h.phyIds
  · simp only [List.map_append, List.map_cons, List.map_nil]
    rw [List.nodup_append]
    refine ⟨h.looseIds, by simp, ?_⟩
    intro x hx y hy
    simp only [List.mem_singleton] at hy
    have := h.looseLt x hx
    omega
  · intro d hd hm
    simp only [List.map_append, List.map_cons, List.map_nil, List.mem_append, List.mem_singleton] at hd
    rcases hd with hd | rfl
    · exact h.disj d hd hm
    · have := h.devLt _ hm; omega
  · intro d hd
    have := h.devLt d hd
    show d < bump s.nextDev
    omega
  · intro d hd
    show d < bump s.nextDev
    simp only [List.map_append, List.map_cons, List.map_nil, List.mem_append, List.mem_singleton] at hd
    rcases hd with hd | rfl
    · have := h.looseLt d hd; omega
    · omega
  · exact h.phyLt
  · have := h.devBound
    show bump s.nextDev ≤ k + 1
    omega
  · have := h.phyBound
    show s.nextPhy ≤ k + 1
    omega

theorem setAddress_spec {k : Nat} {s : Model} (h : Inv k s) (d : Nat) (a : Address) :
    Inv k { s with devs := modDev d (fun x => { x with addr := a }) s.devs } ∧
    (∀ x b, DeviceLists { s with devs := modDev d (fun x => { x with addr := a }) s.devs } x b ↔ DeviceLists s x b) ∧
    (∀ x, Present { s with devs := modDev d (fun x => { x with addr := a }) s.devs } x ↔ Present s x) := by
  have hids : (modDev d (fun x => { x with addr := a }) s.devs).map (·.id) = s.devs.map (·.id) :=
    modDev_map _ _ _ (by intro _; rfl) _
  have hl : ∀ x b, DeviceLists { s with devs := modDev d (fun x => { x with addr := a }) s.devs } x b ↔
      DeviceLists s x b := by
    intro x b
    unfold DeviceLists
    simp only [mem_modDev]
    constructor
    · rintro ⟨y, (⟨z, hz, rfl, rfl⟩ | ⟨hy, hn⟩), rfl, hb⟩
      · exact ⟨z, hz, rfl, hb⟩
      · exact ⟨y, hy, rfl, hb⟩
    · rintro ⟨y, hy, rfl, hb⟩
      by_cases hd : y.id = d
      · exact ⟨_, Or.inl ⟨y, hy, hd, rfl⟩, rfl, hb⟩
      · exact ⟨y, Or.inr ⟨hy, hd⟩, rfl, hb⟩
  refine ⟨?_, hl, ?_⟩
  · constructor
    · intro x b
      rw [hl, h.sym]; rfl
    · intro x hx
      simp only [mem_modDev] at hx
      rcases hx with ⟨z, hz, rfl, rfl⟩ | ⟨hy, _⟩
      · exact h.set z hz
      · exact h.set x hy
    · show ((modDev d (fun x => { x with addr := a }) s.devs).map (·.id)).Nodup
      rw [hids]; exact h.devIds
    · exact h.phyIds
    · exact h.looseIds
    · intro x hx
      show x ∉ (modDev d (fun x => { x with addr := a }) s.devs).map (·.id)
      rw [hids]; exact h.disj x hx
    · intro x hx
      have hx' : x ∈ (modDev d (fun x => { x with addr := a }) s.devs).map (·.id) := hx
      rw [hids] at hx'
      exact h.devLt x hx'
    · exact h.looseLt
    · exact h.phyLt
    · exact h.devBound
    · exact h.phyBound
  · intro x
    rw [present_ids, present_ids]
    show x ∈ (modDev d (fun x => { x with addr := a }) s.devs).map (·.id) ↔ _
    rw [hids]

/-- No phy lists a device twice. -/
def NodupMembers (s : Model) : Prop := ∀ y ∈ s.phys, y.members.Nodup

theorem register_nodup {s : Model} (h : NodupMembers s) {d p : Nat} (hd : ¬ PhyLists s d p) :
    NodupMembers (register s d p) := by
  intro y hy
  simp only [register, mem_modPhy] at hy
  rcases hy with ⟨z, hz, rfl, rfl⟩ | ⟨hy, _⟩
  · rw [List.nodup_append]
    refine ⟨h z hz, by simp, ?_⟩
    intro a ha b hb
    simp only [List.mem_singleton] at hb
    rintro rfl
    exact hd ⟨z, hz, rfl, hb ▸ ha⟩
  · exact h y hy

theorem unregister_nodup {s : Model} (h : NodupMembers s) (d p : Nat) : NodupMembers (unregister s d p) := by
  unfold unregister
  split
  · intro y hy
    simp only [mem_modPhy] at hy
    rcases hy with ⟨z, hz, rfl, rfl⟩ | ⟨hy, _⟩
    · exact (h z hz).filter _
    · exact h y hy
  · exact h

theorem unregisterAll_nodup {s : Model} (h : NodupMembers s) (p : Nat) : NodupMembers (unregisterAll s p) := by
  intro y hy
  simp only [unregisterAll, mem_modPhy] at hy
  rcases hy with ⟨z, hz, rfl, rfl⟩ | ⟨hy, _⟩
  · simp
  · exact h y hy

theorem registerFold_nodup (d : Nat) (ps : List Nat) : ∀ s, NodupMembers s → ps.Nodup →
    (∀ p ∈ ps, ¬ PhyLists s d p) → NodupMembers (ps.foldl (fun s p => register s d p) s) := by
  induction ps with
  | nil => intro s h _ _; exact h
  | cons p ps ih =>
    intro s h hn hp
    rw [List.nodup_cons] at hn
    refine ih _ (register_nodup h (hp p (by simp))) hn.2 ?_
    intro q hq
    rw [register_phy]
    rintro (h' | ⟨_, rfl, _⟩)
    · exact hp q (by simp [hq]) h'
    · exact hn.1 hq

theorem registerOn_nodup {k : Nat} {s : Model} (hi : Inv k s) (h : NodupMembers s) {d : Nat}
    (hd : ∀ p, ¬ DeviceLists s d p) (sel : PhyType → Bool) : NodupMembers (registerOn s d sel) := by
  refine registerFold_nodup d _ s h ?_ (fun p _ => ?_)
  · exact hi.phyIds.sublist (List.Sublist.map _ List.filter_sublist)
  · rw [← hi.sym]; exact hd p

theorem foldl_nodup {α} (f : Model → α → Model) (hf : ∀ s a, NodupMembers s → NodupMembers (f s a)) (l : List α) :
    ∀ s, NodupMembers s → NodupMembers (l.foldl f s) := by
  induction l with
  | nil => intro s h; exact h
  | cons a l ih => intro s h; exact ih _ (hf s a h)

theorem not_lists_of_absent {s : Model} {d : Nat} (hd : d ∉ s.devs.map (·.id)) (p : Nat) : ¬ DeviceLists s d p := by
  intro h
  exact hd ((present_ids s d).mp (deviceLists_present h))

theorem step_nodup {c : Config} {k : Nat} {s s' : Model} (hi : Inv k s) (h : NodupMembers s) (op : Op)
    (hop : ∀ d p, op = .addDeviceToPhy d p → ¬ DeviceLists s d p) (hs : step c s op = some s') :
    NodupMembers s' := by
  cases op with
  | construct a => simp only [step, Option.some.injEq] at hs; subst hs; exact h
  | addDevice d =>
    simp only [step] at hs
    split at hs <;> (simp only [Option.some.injEq] at hs; subst hs; exact h)
  | addLinkLayer d t =>
    simp only [step] at hs
    split at hs
    · simp only [Option.some.injEq] at hs; subst hs; exact h
    · rename_i a ha
      simp only [Option.some.injEq] at hs; subst hs
      have hl := looseAddr_mem ha
      refine registerOn_nodup (addDevice_inv hi a hl) h ?_ _
      intro p
      rw [addDevice_lists (hi.disj d hl)]
      exact not_lists_of_absent (hi.disj d hl) p
  | addHci d a =>
    simp only [step] at hs
    split at hs
    · simp only [Option.some.injEq] at hs; subst hs; exact h
    · rename_i _ ha
      split at hs
      · cases hs
      · simp only [Option.some.injEq] at hs; subst hs
        have hl := looseAddr_mem ha
        refine registerOn_nodup (addDevice_inv hi _ hl) h ?_ _
        intro p
        rw [addDevice_lists (hi.disj d hl)]
        exact not_lists_of_absent (hi.disj d hl) p
  | removeDevice d =>
    simp only [step, Option.some.injEq] at hs; subst hs
    exact foldl_nodup (fun s p => unregister s d p) (fun s a h => unregister_nodup h d a) _ s h
  | addPhy t =>
    simp only [step, Option.some.injEq] at hs; subst hs
    intro y hy
    rw [addPhy_phys hi, List.mem_append, List.mem_singleton] at hy
    rcases hy with hy | rfl
    · exact h y hy
    · simp
  | removePhy p =>
    simp only [step, Option.some.injEq] at hs; subst hs
    unfold removePhy
    split
    · intro y hy
      exact unregisterAll_nodup h p y (List.mem_filter.mp hy).1
    · exact h
  | addDeviceToPhy d p =>
    simp only [step, Option.some.injEq] at hs; subst hs
    unfold addDeviceToPhy
    split
    · exact register_nodup h (fun h' => hop d p rfl ((hi.sym d p).mpr h'))
    · exact h
  | removeDeviceFromPhy d p =>
    simp only [step, Option.some.injEq] at hs; subst hs
    unfold removeDeviceFromPhy
    split
    · exact unregister_nodup h d p
    · exact h
  | setAddress d a => simp only [step, Option.some.injEq] at hs; subst hs; exact h
  | reset =>
    simp only [step, Option.some.injEq] at hs; subst hs
    exact foldl_nodup unregisterAll (fun s a h => unregisterAll_nodup h a) _ s h

theorem inv_step {c : Config} {k : Nat} {s s' : Model} (h : Inv k s) (hk : k + 1 < 2 ^ 32) (op : Op)
    (hs : step c s op = some s') : Inv (k + 1) s' := by
  cases op with
  | construct a =>
    simp only [step, Option.some.injEq] at hs
    subst hs
    exact construct_inv h hk _
  | addDevice d =>
    simp only [step] at hs
    split at hs
    · simp only [Option.some.injEq] at hs; subst hs; exact h.mono (by omega)
    · rename_i a ha
      simp only [Option.some.injEq] at hs; subst hs
      exact (addDevice_inv h a (looseAddr_mem ha)).mono (by omega)
  | addLinkLayer d t =>
    simp only [step] at hs
    split at hs
    · simp only [Option.some.injEq] at hs; subst hs; exact h.mono (by omega)
    · rename_i a ha
      simp only [Option.some.injEq] at hs; subst hs
      have hl := looseAddr_mem ha
      exact (registerOn_spec (addDevice_inv h a hl)
        ((addDevice_present (h.disj _ hl) d).mpr (Or.inr rfl)) _).1.mono (by omega)
  | addHci d a =>
    simp only [step] at hs
    split at hs
    · simp only [Option.some.injEq] at hs; subst hs; exact h.mono (by omega)
    · rename_i _ ha
      split at hs
      · cases hs
      · rename_i g _
        simp only [Option.some.injEq] at hs; subst hs
        have hl := looseAddr_mem ha
        exact (registerOn_spec (addDevice_inv h _ hl)
          ((addDevice_present (h.disj _ hl) d).mpr (Or.inr rfl)) _).1.mono (by omega)
  | removeDevice d =>
    simp only [step, Option.some.injEq] at hs; subst hs
    exact (removeDevice_spec h d).1.mono (by omega)
  | addPhy t =>
    simp only [step, Option.some.injEq] at hs; subst hs
    exact (addPhy_spec h hk t).1
  | removePhy p =>
    simp only [step, Option.some.injEq] at hs; subst hs
    exact (removePhy_spec h p).1.mono (by omega)
  | addDeviceToPhy d p =>
    simp only [step, Option.some.injEq] at hs; subst hs
    exact (addDeviceToPhy_spec h d p).1.mono (by omega)
  | removeDeviceFromPhy d p =>
    simp only [step, Option.some.injEq] at hs; subst hs
    exact (removeDeviceFromPhy_spec h d p).1.mono (by omega)
  | setAddress d a =>
    simp only [step, Option.some.injEq] at hs; subst hs
    exact (setAddress_spec h d a).1.mono (by omega)
  | reset =>
    simp only [step, Option.some.injEq] at hs; subst hs
    exact (reset_spec h).1.mono (by omega)

theorem inv_run {c : Config} (ops : List Op) : ∀ (k : Nat) (s s' : Model), Inv k s → k + ops.length < 2 ^ 32 →
    run c s ops = some s' → Inv (k + ops.length) s' := by
  induction ops with
  | nil => intro k s s' h _ hr; simp only [run, Option.some.injEq] at hr; subst hr; exact h
  | cons op ops ih =>
    intro k s s' h hk hr
    simp only [run, Option.bind_eq_some_iff] at hr
    obtain ⟨s1, h1, h2⟩ := hr
    simp only [List.length_cons] at hk ⊢
    have := ih (k + 1) s1 s' (inv_step h (by omega) op h1) (by omega) h2
    rw [show k + (ops.length + 1) = k + 1 + ops.length by omega]
    exact this

theorem run_append {c : Config} (xs ys : List Op) : ∀ s, run c s (xs ++ ys) = (run c s xs).bind (fun s' => run c s' ys) := by
  induction xs with
  | nil => intro s; rfl
  | cons x xs ih =>
    intro s
    simp only [List.cons_append, run]
    cases step c s x with
    | none => rfl
    | some s' => simpa using ih s'

end Verif.Phy
