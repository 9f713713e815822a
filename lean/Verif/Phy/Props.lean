import Verif.Phy.Lemmas
import Mathlib.Data.List.Nodup
/-!
# Properties C10, C11, C12: the simulated environment
-/

namespace Verif.Phy
open Verif.Addr

theorem reachable_inv {c : Config} {s : Model} (hr : Reachable c s) : ∃ k, k < 2 ^ 32 ∧ Inv k s := by
  obtain ⟨ops, hl, h⟩ := hr
  refine ⟨ops.length, hl, ?_⟩
  have := inv_run ops 0 _ _ inv_init (by omega) h
  simpa using this

theorem reachable_get (c : Config) (ops : List Op) (h : (run c Model.init ops).isSome = true)
    (hl : ops.length < 2 ^ 32) : Reachable c ((run c Model.init ops).get h) := ⟨ops, hl, by simp⟩

/-- A small environment used by the examples: two phys, two controllers, one beacon on the LE phy. -/
def demoOps : List Op :=
  [.addPhy .lowEnergy, .addPhy .brEdr, .construct none, .addHci 0 none, .construct none, .addHci 1 none,
   .construct (some ⟨1, 0, 0, 0x10, 0xac, 0xbe⟩), .addDevice 2, .addDeviceToPhy 2 0]

def demo : Model := (run Config.default Model.init demoOps).get (by decide +kernel)

theorem demo_reachable : Reachable Config.default demo := ⟨demoOps, by decide, by simp [demo]⟩

/-! ## C10 -/

/-- **C10.** A device lists a phy exactly when the phy lists the device. As only present devices and phys list
anything, a removed device or phy is listed nowhere. -/
theorem C10_membership_symmetric (c : Config) (s : Model) (hr : Reachable c s) (d p : Nat) :
    DeviceLists s d p ↔ PhyLists s d p := by
  obtain ⟨k, _, h⟩ := reachable_inv hr
  exact h.sym d p

/-- **C10.** Whatever is listed is present, on both sides. -/
theorem C10_listed_present (c : Config) (s : Model) (hr : Reachable c s) (d p : Nat)
    (h : DeviceLists s d p ∨ PhyLists s d p) : Present s d ∧ ∃ t, PhyPresent s p t := by
  rw [C10_membership_symmetric c s hr, or_self] at h
  exact ⟨deviceLists_present ((C10_membership_symmetric c s hr d p).mpr h), phyLists_present h⟩

example : DeviceLists demo 2 0 ∧ PhyLists demo 2 0 ∧ ¬ DeviceLists demo 2 1 ∧ DeviceLists demo 1 1 := by
  unfold DeviceLists PhyLists; decide +kernel

/-- **C10.** No two present devices, and no two present phys, share an identifier. -/
theorem C10_ids_distinct (c : Config) (s : Model) (hr : Reachable c s) :
    (s.devs.map (·.id)).Nodup ∧ (s.phys.map (·.id)).Nodup := by
  obtain ⟨k, _, h⟩ := reachable_inv hr
  exact ⟨h.devIds, h.phyIds⟩

theorem gone_step {c : Config} {k : Nat} {s s' : Model} (h : Inv k s) (hk : k + 1 < 2 ^ 32) (d : Nat)
    (hlt : d < s.nextDev) (hloose : d ∉ s.loose.map (·.1)) (habs : ¬ Present s d) (op : Op)
    (hs : step c s op = some s') : d < s'.nextDev ∧ d ∉ s'.loose.map (·.1) ∧ ¬ Present s' d := by
  have hb : bump s.nextDev = s.nextDev + 1 := by
    have := h.devBound
    unfold bump; omega
  have hadd : ∀ e a, e ∈ s.loose.map (·.1) → d < (addDevice s e a).nextDev ∧
      d ∉ (addDevice s e a).loose.map (·.1) ∧ ¬ Present (addDevice s e a) d := by
    intro e a he
    refine ⟨hlt, ?_, ?_⟩
    · intro hm
      simp only [addDevice, List.mem_map, List.mem_filter] at hm
      obtain ⟨x, ⟨hx, _⟩, rfl⟩ := hm
      exact hloose (List.mem_map.mpr ⟨x, hx, rfl⟩)
    · rw [addDevice_present (h.disj e he)]
      rintro (h' | rfl)
      · exact habs h'
      · exact hloose he
  have hframe : ∀ {s1 s2 : Model}, Frame s1 s2 → (d < s1.nextDev ∧ d ∉ s1.loose.map (·.1) ∧ ¬ Present s1 d) →
      d < s2.nextDev ∧ d ∉ s2.loose.map (·.1) ∧ ¬ Present s2 d := by
    intro s1 s2 hf h'
    rw [hf.nextDev, hf.loose, hf.present]
    exact h'
  cases op with
  | construct a =>
    simp only [step, Option.some.injEq] at hs; subst hs
    refine ⟨?_, ?_, habs⟩
    · show d < bump s.nextDev
      omega
    · simp only [List.map_append, List.map_cons, List.map_nil, List.mem_append, List.mem_singleton]
      rintro (h' | h')
      · exact hloose h'
      · omega
  | addDevice e =>
    simp only [step] at hs
    split at hs
    · simp only [Option.some.injEq] at hs; subst hs; exact ⟨hlt, hloose, habs⟩
    · rename_i a ha
      simp only [Option.some.injEq] at hs; subst hs
      exact hadd e a (looseAddr_mem ha)
  | addLinkLayer e t =>
    simp only [step] at hs
    split at hs
    · simp only [Option.some.injEq] at hs; subst hs; exact ⟨hlt, hloose, habs⟩
    · rename_i a ha
      simp only [Option.some.injEq] at hs; subst hs
      have hl := looseAddr_mem ha
      exact hframe (registerOn_spec (addDevice_inv h a hl)
        ((addDevice_present (h.disj _ hl) e).mpr (Or.inr rfl)) _).2.1 (hadd e a hl)
  | addHci e a =>
    simp only [step] at hs
    split at hs
    · simp only [Option.some.injEq] at hs; subst hs; exact ⟨hlt, hloose, habs⟩
    · rename_i _ ha
      split at hs
      · cases hs
      · rename_i g _
        simp only [Option.some.injEq] at hs; subst hs
        have hl := looseAddr_mem ha
        exact hframe (registerOn_spec (addDevice_inv h _ hl)
          ((addDevice_present (h.disj _ hl) e).mpr (Or.inr rfl)) _).2.1 (hadd e _ hl)
  | removeDevice e =>
    simp only [step, Option.some.injEq] at hs; subst hs
    obtain ⟨_, _, i3, _⟩ := unregisterFold (s.phys.map (·.id)) e s h.sym h.set
    have hh := hframe i3 ⟨hlt, hloose, habs⟩
    refine ⟨hh.1, hh.2.1, ?_⟩
    rw [(removeDevice_spec h e).2.2.1]
    exact fun h' => habs h'.1
  | addPhy t =>
    simp only [step, Option.some.injEq] at hs; subst hs
    exact ⟨hlt, hloose, habs⟩
  | removePhy p =>
    simp only [step, Option.some.injEq] at hs; subst hs
    have hp := (removePhy_spec h p).2.2.1 d
    have hh : (removePhy s p).nextDev = s.nextDev ∧ (removePhy s p).loose = s.loose := by
      unfold removePhy; split <;> exact ⟨rfl, rfl⟩
    rw [hp, hh.1, hh.2]
    exact ⟨hlt, hloose, habs⟩
  | addDeviceToPhy e p =>
    simp only [step, Option.some.injEq] at hs; subst hs
    exact hframe (addDeviceToPhy_spec h e p).2.1 ⟨hlt, hloose, habs⟩
  | removeDeviceFromPhy e p =>
    simp only [step, Option.some.injEq] at hs; subst hs
    exact hframe (removeDeviceFromPhy_spec h e p).2.1 ⟨hlt, hloose, habs⟩
  | setAddress e a =>
    simp only [step, Option.some.injEq] at hs; subst hs
    exact ⟨hlt, hloose, fun h' => habs (((setAddress_spec h e a).2.2 d).mp h')⟩
  | reset =>
    simp only [step, Option.some.injEq] at hs; subst hs
    obtain ⟨_, _, i3, _⟩ := unregisterAllFold (s.phys.map (·.id)) s h.sym h.set
    have hh := hframe i3 ⟨hlt, hloose, habs⟩
    exact ⟨hh.1, hh.2.1, by simp [Present]⟩

theorem gone_run {c : Config} (d : Nat) (ops : List Op) : ∀ (k : Nat) (s s' : Model), Inv k s →
    k + ops.length < 2 ^ 32 → d < s.nextDev → d ∉ s.loose.map (·.1) → ¬ Present s d →
    run c s ops = some s' → ¬ Present s' d := by
  induction ops with
  | nil => intro k s s' _ _ _ _ ha hr; simp only [run, Option.some.injEq] at hr; subst hr; exact ha
  | cons op ops ih =>
    intro k s s' h hk h1 h2 h3 hr
    simp only [run, Option.bind_eq_some_iff] at hr
    obtain ⟨s1, hs1, hr⟩ := hr
    simp only [List.length_cons] at hk
    obtain ⟨g1, g2, g3⟩ := gone_step h (by omega) d h1 h2 h3 op hs1
    exact ih (k + 1) s1 s' (inv_step h (by omega) op hs1) (by omega) g1 g2 g3 hr

theorem used_step {c : Config} {k : Nat} {s s' : Model} (h : Inv k s) (hk : k + 1 < 2 ^ 32) (d : Nat)
    (hlt : d < s.nextDev) (hloose : d ∉ s.loose.map (·.1)) (op : Op)
    (hs : step c s op = some s') : d < s'.nextDev ∧ d ∉ s'.loose.map (·.1) := by
  by_cases hp : Present s d
  · have hi' := inv_step h hk op hs
    by_cases hp' : Present s' d
    · have hm := (present_ids s' d).mp hp'
      exact ⟨hi'.devLt d hm, fun hl => hi'.disj d hl hm⟩
    · -- only removeDevice and reset remove a device; neither touches the counter or the constructed devices
      have hkeep : ∀ {s2 : Model}, s2.nextDev = s.nextDev → s2.loose = s.loose →
          d < s2.nextDev ∧ d ∉ s2.loose.map (·.1) := by
        intro s2 h1 h2; rw [h1, h2]; exact ⟨hlt, hloose⟩
      cases op with
      | construct a =>
        simp only [step, Option.some.injEq] at hs; subst hs; exact absurd hp hp'
      | addDevice e =>
        simp only [step] at hs
        split at hs
        · simp only [Option.some.injEq] at hs; subst hs; exact absurd hp hp'
        · rename_i a ha
          simp only [Option.some.injEq] at hs; subst hs
          exact absurd ((addDevice_present (h.disj e (looseAddr_mem ha)) d).mpr (Or.inl hp)) hp'
      | addLinkLayer e t =>
        simp only [step] at hs
        split at hs
        · simp only [Option.some.injEq] at hs; subst hs; exact absurd hp hp'
        · rename_i a ha
          simp only [Option.some.injEq] at hs; subst hs
          have hl := looseAddr_mem ha
          exact absurd (((registerOn_spec (addDevice_inv h a hl)
            ((addDevice_present (h.disj _ hl) e).mpr (Or.inr rfl)) _).2.1.present d).mpr
            ((addDevice_present (h.disj e hl) d).mpr (Or.inl hp))) hp'
      | addHci e a =>
        simp only [step] at hs
        split at hs
        · simp only [Option.some.injEq] at hs; subst hs; exact absurd hp hp'
        · rename_i _ ha
          split at hs
          · cases hs
          · simp only [Option.some.injEq] at hs; subst hs
            have hl := looseAddr_mem ha
            exact absurd (((registerOn_spec (addDevice_inv h _ hl)
              ((addDevice_present (h.disj _ hl) e).mpr (Or.inr rfl)) _).2.1.present d).mpr
              ((addDevice_present (h.disj e hl) d).mpr (Or.inl hp))) hp'
      | removeDevice e =>
        simp only [step, Option.some.injEq] at hs; subst hs
        obtain ⟨_, _, i3, _⟩ := unregisterFold (s.phys.map (·.id)) e s h.sym h.set
        exact hkeep i3.nextDev i3.loose
      | addPhy t => simp only [step, Option.some.injEq] at hs; subst hs; exact absurd hp hp'
      | removePhy p =>
        simp only [step, Option.some.injEq] at hs; subst hs
        exact absurd (((removePhy_spec h p).2.2.1 d).mpr hp) hp'
      | addDeviceToPhy e p =>
        simp only [step, Option.some.injEq] at hs; subst hs
        exact absurd (((addDeviceToPhy_spec h e p).2.1.present d).mpr hp) hp'
      | removeDeviceFromPhy e p =>
        simp only [step, Option.some.injEq] at hs; subst hs
        exact absurd (((removeDeviceFromPhy_spec h e p).2.1.present d).mpr hp) hp'
      | setAddress e a =>
        simp only [step, Option.some.injEq] at hs; subst hs
        exact absurd (((setAddress_spec h e a).2.2 d).mpr hp) hp'
      | reset =>
        simp only [step, Option.some.injEq] at hs; subst hs
        obtain ⟨_, _, i3, _⟩ := unregisterAllFold (s.phys.map (·.id)) s h.sym h.set
        exact hkeep i3.nextDev i3.loose
  · have := gone_step h hk d hlt hloose hp op hs
    exact ⟨this.1, this.2.1⟩

theorem used_run {c : Config} (d : Nat) (ops : List Op) : ∀ (k : Nat) (s s' : Model), Inv k s →
    k + ops.length < 2 ^ 32 → d < s.nextDev → d ∉ s.loose.map (·.1) →
    run c s ops = some s' → d < s'.nextDev ∧ d ∉ s'.loose.map (·.1) := by
  induction ops with
  | nil => intro k s s' _ _ h1 h2 hr; simp only [run, Option.some.injEq] at hr; subst hr; exact ⟨h1, h2⟩
  | cons op ops ih =>
    intro k s s' h hk h1 h2 hr
    simp only [run, Option.bind_eq_some_iff] at hr
    obtain ⟨s1, hs1, hr⟩ := hr
    simp only [List.length_cons] at hk
    obtain ⟨g1, g2⟩ := used_step h (by omega) d h1 h2 op hs1
    exact ih (k + 1) s1 s' (inv_step h (by omega) op hs1) (by omega) g1 g2 hr

/-- **C10.** Identifiers are never reused: a device that was present and has been removed is never present again,
whatever happens afterwards (within 2^32 operations). -/
theorem C10_id_never_reused (c : Config) (ops₁ ops₂ ops₃ : List Op) (s₁ s₂ s₃ : Model) (d : Nat)
    (hlen : (ops₁ ++ ops₂ ++ ops₃).length < 2 ^ 32)
    (h₁ : run c Model.init ops₁ = some s₁) (hp : Present s₁ d)
    (h₂ : run c s₁ ops₂ = some s₂) (hgone : ¬ Present s₂ d)
    (h₃ : run c s₂ ops₃ = some s₃) : ¬ Present s₃ d := by
  simp only [List.length_append] at hlen
  have i1 := inv_run ops₁ 0 _ _ inv_init (by omega) h₁
  have i2 := inv_run ops₂ _ _ _ i1 (by omega) h₂
  have hm := (present_ids s₁ d).mp hp
  obtain ⟨u1, u2⟩ := used_run d ops₂ _ _ _ i1 (by omega) (i1.devLt d hm) (fun hl => i1.disj d hl hm) h₂
  exact gone_run d ops₃ _ _ _ i2 (by omega) u1 u2 hgone h₃

/-- The hypotheses are met when device 2 is removed and further devices are added. -/
example : ∃ s₂ s₃, Present demo 2 ∧ run Config.default demo [.removeDevice 2] = some s₂ ∧ ¬ Present s₂ 2 ∧
    run Config.default s₂ [.construct none, .addDevice 2, .addDevice 3] = some s₃ ∧ Present s₃ 3 := by
  refine ⟨(run Config.default demo [.removeDevice 2]).get (by decide +kernel),
    (run Config.default demo ([.removeDevice 2, .construct none, .addDevice 2, .addDevice 3])).get
      (by decide +kernel), ?_, by simp, ?_, by decide +kernel, ?_⟩ <;>
    unfold Present <;> decide +kernel

/-- **C10.** Attaching: exactly the given pair is added, and only if both exist. Nothing else changes. -/
theorem C10_attach (c : Config) (s : Model) (hr : Reachable c s) (d p : Nat) :
    ∃ s', step c s (.addDeviceToPhy d p) = some s' ∧
    (∀ a b, DeviceLists s' a b ↔ DeviceLists s a b ∨ (a = d ∧ b = p ∧ Present s d ∧ ∃ t, PhyPresent s p t)) ∧
    (∀ a, Present s' a ↔ Present s a) ∧ (∀ q t, PhyPresent s' q t ↔ PhyPresent s q t) := by
  obtain ⟨k, _, h⟩ := reachable_inv hr
  obtain ⟨_, h2, h3⟩ := addDeviceToPhy_spec h d p
  exact ⟨_, rfl, h3, h2.present, h2.phyPresent⟩

/-- **C10.** Detaching: exactly the given pair is removed, however often it had been attached. -/
theorem C10_detach (c : Config) (s : Model) (hr : Reachable c s) (d p : Nat) :
    ∃ s', step c s (.removeDeviceFromPhy d p) = some s' ∧
    (∀ a b, DeviceLists s' a b ↔ DeviceLists s a b ∧ ¬ (a = d ∧ b = p)) ∧
    (∀ a, Present s' a ↔ Present s a) ∧ (∀ q t, PhyPresent s' q t ↔ PhyPresent s q t) := by
  obtain ⟨k, _, h⟩ := reachable_inv hr
  obtain ⟨_, h2, h3⟩ := removeDeviceFromPhy_spec h d p
  exact ⟨_, rfl, h3, h2.present, h2.phyPresent⟩

/-- **C10.** Removing a device removes it and its attachments, and nothing else. -/
theorem C10_remove_device (c : Config) (s : Model) (hr : Reachable c s) (d : Nat) :
    ∃ s', step c s (.removeDevice d) = some s' ∧
    (∀ a b, DeviceLists s' a b ↔ DeviceLists s a b ∧ a ≠ d) ∧
    (∀ a, Present s' a ↔ Present s a ∧ a ≠ d) ∧ (∀ q t, PhyPresent s' q t ↔ PhyPresent s q t) := by
  obtain ⟨k, _, h⟩ := reachable_inv hr
  obtain ⟨_, h2, h3, h4⟩ := removeDevice_spec h d
  exact ⟨_, rfl, h2, h3, h4⟩

/-- **C10.** Removing a phy removes it and the attachments to it, and nothing else. -/
theorem C10_remove_phy (c : Config) (s : Model) (hr : Reachable c s) (p : Nat) :
    ∃ s', step c s (.removePhy p) = some s' ∧
    (∀ a b, DeviceLists s' a b ↔ DeviceLists s a b ∧ b ≠ p) ∧
    (∀ a, Present s' a ↔ Present s a) ∧ (∀ q t, PhyPresent s' q t ↔ PhyPresent s q t ∧ q ≠ p) := by
  obtain ⟨k, _, h⟩ := reachable_inv hr
  obtain ⟨_, h2, h3, h4⟩ := removePhy_spec h p
  exact ⟨_, rfl, h2, h3, h4⟩

/-- **C10.** A reset removes every device and keeps the phys, empty. -/
theorem C10_reset (c : Config) (s : Model) (hr : Reachable c s) :
    ∃ s', step c s .reset = some s' ∧ (∀ a b, ¬ DeviceLists s' a b) ∧ (∀ a, ¬ Present s' a) ∧
    (∀ q t, PhyPresent s' q t ↔ PhyPresent s q t) := by
  obtain ⟨k, _, h⟩ := reachable_inv hr
  obtain ⟨_, h2, h3, h4⟩ := reset_spec h
  exact ⟨_, rfl, h2, h3, h4⟩

/-- **C10.** A new phy has an identifier no phy has, the requested type, and no devices. -/
theorem C10_add_phy (c : Config) (ops : List Op) (s : Model) (hlen : ops.length + 1 < 2 ^ 32)
    (hr : run c Model.init ops = some s) (t : PhyType) :
    ∃ s' p, step c s (.addPhy t) = some s' ∧ (∀ u, ¬ PhyPresent s p u) ∧
    (∀ q u, PhyPresent s' q u ↔ PhyPresent s q u ∨ (q = p ∧ u = t)) ∧
    (∀ a b, DeviceLists s' a b ↔ DeviceLists s a b) ∧ (∀ a, Present s' a ↔ Present s a) := by
  have h := inv_run ops 0 _ _ inv_init (by omega) hr
  obtain ⟨_, h2, h3, h4⟩ := addPhy_spec h (by omega) t
  refine ⟨_, s.nextPhy, rfl, ?_, h4, h2, h3⟩
  intro u hu
  have := h.phyLt s.nextPhy ((phyPresent_ids s _).mp ⟨u, hu⟩)
  omega

theorem looseAddr_some {s : Model} {d : Nat} (h : d ∈ s.loose.map (·.1)) : ∃ a, looseAddr s d = some a := by
  unfold looseAddr
  cases hf : s.loose.find? (·.1 = d) with
  | some e => exact ⟨e.2, rfl⟩
  | none =>
    rw [List.find?_eq_none] at hf
    obtain ⟨e, he, rfl⟩ := List.mem_map.mp h
    exact absurd (hf e he) (by simp)

/-- **C10.** A controller that connects becomes present and attached to every phy. -/
theorem C10_add_hci (c : Config) (s s' : Model) (hr : Reachable c s) (d : Nat) (a : Option Address)
    (hd : d ∈ s.loose.map (·.1)) (hs : step c s (.addHci d a) = some s') :
    (∀ x p, DeviceLists s' x p ↔ DeviceLists s x p ∨ (x = d ∧ ∃ t, PhyPresent s p t)) ∧
    (∀ x, Present s' x ↔ Present s x ∨ x = d) ∧ ¬ Present s d := by
  obtain ⟨k, _, h⟩ := reachable_inv hr
  obtain ⟨a₀, ha₀⟩ := looseAddr_some hd
  have hn := h.disj d hd
  simp only [step, ha₀] at hs
  split at hs
  · cases hs
  · rename_i g _
    simp only [Option.some.injEq] at hs
    obtain ⟨i1, i2, i3⟩ := registerOn_spec (addDevice_inv h (a.getD g) hd)
      ((addDevice_present hn d).mpr (Or.inr rfl)) (fun _ => true)
    subst hs
    refine ⟨?_, ?_, fun hp => hn ((present_ids s d).mp hp)⟩
    · intro x p
      rw [i3, addDevice_lists hn]
      simp [PhyPresent, addDevice]
    · intro x
      rw [i2.present, addDevice_present hn]

/-- **C10.** A link-layer connection of a type is attached to exactly the phys of this type. -/
theorem C10_add_link_layer (c : Config) (s s' : Model) (hr : Reachable c s) (d : Nat) (t : PhyType)
    (hd : d ∈ s.loose.map (·.1)) (hs : step c s (.addLinkLayer d t) = some s') :
    (∀ x p, DeviceLists s' x p ↔ DeviceLists s x p ∨ (x = d ∧ PhyPresent s p t)) ∧
    (∀ x, Present s' x ↔ Present s x ∨ x = d) ∧ ¬ Present s d := by
  obtain ⟨k, _, h⟩ := reachable_inv hr
  obtain ⟨a₀, ha₀⟩ := looseAddr_some hd
  have hn := h.disj d hd
  simp only [step, ha₀, Option.some.injEq] at hs
  obtain ⟨i1, i2, i3⟩ := registerOn_spec (addDevice_inv h a₀ hd)
    ((addDevice_present hn d).mpr (Or.inr rfl)) (fun u => u = t)
  subst hs
  refine ⟨?_, ?_, fun hp => hn ((present_ids s d).mp hp)⟩
  · intro x p
    rw [i3, addDevice_lists hn]
    simp [PhyPresent, addDevice]
  · intro x
    rw [i2.present, addDevice_present hn]

/-- A constructed device can be added in the demo environment. -/
example : ∃ s', step Config.default demo (.construct none) = some s' ∧ 3 ∈ s'.loose.map (·.1) ∧
    ∃ s'', step Config.default s' (.addLinkLayer 3 .lowEnergy) = some s'' ∧ DeviceLists s'' 3 0 ∧
      ¬ DeviceLists s'' 3 1 := by
  refine ⟨_, rfl, by decide +kernel, _, rfl, ?_, ?_⟩ <;> unfold DeviceLists <;> decide +kernel

/-! ## C11 -/

theorem devs_filter {k : Nat} {s : Model} (h : Inv k s) {x : Dev} (hx : x ∈ s.devs) :
    s.devs.filter (·.id = x.id) = [x] := by
  have hn := h.devIds
  clear h
  induction hl : s.devs generalizing s with
  | nil => rw [hl] at hx; cases hx
  | cons y l ih =>
    rw [hl] at hx hn
    simp only [List.map_cons, List.nodup_cons] at hn
    rcases List.mem_cons.mp hx with rfl | hx'
    · rw [List.filter_cons_of_pos (by simp), List.filter_eq_nil_iff.mpr]
      intro z hz
      simp only [decide_eq_true_eq]
      intro he
      exact hn.1 (List.mem_map.mpr ⟨z, hz, he⟩)
    · rw [List.filter_cons_of_neg]
      · exact ih (s := { s with devs := l }) hx' hn.2 rfl
      · simp only [decide_eq_true_eq]
        intro he
        exact hn.1 (List.mem_map.mpr ⟨x, hx', he.symm⟩)

theorem mem_send (s : Model) (d e : Nat) (t : PhyType) :
    e ∈ send s d t ↔ e ≠ d ∧ ∃ p, PhyPresent s p t ∧ DeviceLists s d p ∧
      ∃ y ∈ s.phys, y.id = p ∧ y.type = t ∧ e ∈ y.members := by
  unfold send Phy.send DeviceLists PhyPresent
  simp only [List.mem_flatMap, List.mem_filter, decide_eq_true_eq, Bool.and_eq_true]
  constructor
  · rintro ⟨x, ⟨hx, rfl⟩, p, hp, y, ⟨hy, rfl, rfl⟩, he, hne⟩
    exact ⟨fun h => hne h.symm, y.id, ⟨y, hy, rfl, rfl⟩, ⟨x, hx, rfl, hp⟩, y, hy, rfl, rfl, he⟩
  · rintro ⟨hne, p, _, ⟨x, hx, rfl, hp⟩, y, hy, rfl, rfl, he⟩
    exact ⟨x, ⟨hx, rfl⟩, y.id, hp, y, ⟨hy, rfl, rfl⟩, he, fun h => hne h.symm⟩

/-- **C11.** The devices a packet is delivered to are exactly those attached to a phy of its type the sender is
attached to, without the sender itself. -/
theorem C11_receivers (c : Config) (s : Model) (hr : Reachable c s) (d e : Nat) (t : PhyType) :
    e ∈ send s d t ↔ e ≠ d ∧ ∃ p, PhyPresent s p t ∧ DeviceLists s d p ∧ DeviceLists s e p := by
  obtain ⟨k, _, h⟩ := reachable_inv hr
  rw [mem_send]
  refine and_congr_right fun _ => exists_congr fun p => and_congr_right fun hp => and_congr_right fun _ => ?_
  rw [h.sym]
  constructor
  · rintro ⟨y, hy, h1, _, h3⟩; exact ⟨y, hy, h1, h3⟩
  · rintro ⟨y, hy, h1, h3⟩
    obtain ⟨y', hy', h1', rfl⟩ := hp
    have hu : y = y' := List.inj_on_of_nodup_map h.phyIds hy hy' (h1.trans h1'.symm)
    subst hu
    exact ⟨y, hy, h1, rfl, h3⟩

/-- **C11.** The sender never receives its own packet. -/
theorem C11_never_to_sender (c : Config) (s : Model) (hr : Reachable c s) (d : Nat) (t : PhyType) :
    d ∉ send s d t := by
  rw [C11_receivers c s hr]
  simp

theorem phys_filter {s : Model} (h : (s.phys.map (·.id)).Nodup) {y : Phy} (hy : y ∈ s.phys) (t : PhyType) :
    s.phys.filter (fun z => z.id = y.id && z.type = t) = if y.type = t then [y] else [] := by
  induction hl : s.phys generalizing s with
  | nil => rw [hl] at hy; cases hy
  | cons z l ih =>
    rw [hl] at hy h
    simp only [List.map_cons, List.nodup_cons] at h
    rcases List.mem_cons.mp hy with rfl | hy'
    · have hz : l.filter (fun z => z.id = y.id && z.type = t) = [] := by
        rw [List.filter_eq_nil_iff]
        intro z hz
        simp only [Bool.and_eq_true, decide_eq_true_eq, not_and]
        intro he
        exact absurd (List.mem_map.mpr ⟨z, hz, he⟩) h.1
      split
      · rw [List.filter_cons_of_pos (by simpa), hz]
      · rw [List.filter_cons_of_neg (by simpa), hz]
    · rw [List.filter_cons_of_neg]
      · exact ih (s := { s with phys := l }) h.2 hy' rfl
      · simp only [Bool.and_eq_true, decide_eq_true_eq, not_and]
        intro he
        exact absurd (List.mem_map.mpr ⟨y, hy', he.symm⟩) h.1

theorem count_flatMap_one {α β} [DecidableEq β] (l : List α) (f : α → List β) (a : α) (e : β)
    (hn : l.Nodup) (ha : a ∈ l) (h1 : (f a).count e = 1) (h0 : ∀ b ∈ l, b ≠ a → e ∉ f b) :
    (l.flatMap f).count e = 1 := by
  induction l with
  | nil => cases ha
  | cons b l ih =>
    rw [List.flatMap_cons, List.count_append]
    rw [List.nodup_cons] at hn
    by_cases hb : b = a
    · subst hb
      rw [h1]
      have : e ∉ l.flatMap f := by
        rw [List.mem_flatMap]
        rintro ⟨c, hc, he⟩
        refine h0 c (by simp [hc]) ?_ he
        rintro rfl
        exact hn.1 hc
      rw [List.count_eq_zero_of_not_mem this]
    · rw [List.count_eq_zero_of_not_mem (h0 b (by simp) hb), Nat.zero_add]
      have ha' : a ∈ l := by
        rcases List.mem_cons.mp ha with h | h
        · exact absurd h.symm hb
        · exact h
      exact ih hn.2 ha' (fun c hc => h0 c (by simp [hc]))

/-- **C11 (partial).** A device sharing exactly one phy of the type with the sender, attached to it once, receives the
packet exactly once. The full claim would drop the two hypotheses `hone` (they share no second phy of the type) and
`hmem` (the phy lists the device once); it is false, see `C11_exactly_once_violated`. -/
theorem C11_exactly_once_partial (c : Config) (s : Model) (hr : Reachable c s) (d e p : Nat) (t : PhyType)
    (hne : e ≠ d) (hp : PhyPresent s p t) (hd : DeviceLists s d p) (he : DeviceLists s e p)
    (hone : ∀ q, PhyPresent s q t → DeviceLists s d q → DeviceLists s e q → q = p)
    (hmem : ∀ y ∈ s.phys, y.id = p → y.members.Nodup) :
    (send s d t).count e = 1 := by
  obtain ⟨k, _, h⟩ := reachable_inv hr
  obtain ⟨x, hx, rfl, hxp⟩ := hd
  obtain ⟨y, hy, rfl, rfl⟩ := hp
  unfold send
  rw [devs_filter h hx]
  simp only [List.flatMap_cons, List.flatMap_nil, List.append_nil]
  refine count_flatMap_one _ _ y.id e (h.set x hx) hxp ?_ ?_
  · rw [phys_filter h.phyIds hy]
    simp only [if_true, List.flatMap_cons, List.flatMap_nil, List.append_nil, Phy.send]
    refine List.count_eq_one_of_mem ((hmem y hy rfl).filter _) ?_
    rw [List.mem_filter]
    obtain ⟨y', hy', h1, h2⟩ := (h.sym e y.id).mp he
    have hu : y' = y := List.inj_on_of_nodup_map h.phyIds hy' hy h1
    subst hu
    exact ⟨h2, by simpa using fun hh => hne hh.symm⟩
  · intro q hq hne' hmem'
    simp only [List.mem_flatMap, List.mem_filter, Phy.send, Bool.and_eq_true, decide_eq_true_eq] at hmem'
    obtain ⟨z, ⟨hz, rfl, hzt⟩, hze, _⟩ := hmem'
    exact hne' (hone z.id ⟨z, hz, rfl, hzt⟩ ⟨x, hx, rfl, hq⟩ ((h.sym e z.id).mpr ⟨z, hz, rfl, hze⟩))

/-- A history in which no device is attached by `add_device_to_phy` to a phy it is attached to already. -/
def Careful (c : Config) (s : Model) : List Op → Prop
  | [] => True
  | op :: ops => (∀ d p, op = .addDeviceToPhy d p → ¬ DeviceLists s d p) ∧
      ∀ s', step c s op = some s' → Careful c s' ops

theorem careful_nodup {c : Config} (ops : List Op) : ∀ (k : Nat) (s s' : Model), Inv k s → NodupMembers s →
    k + ops.length < 2 ^ 32 → Careful c s ops → run c s ops = some s' → NodupMembers s' := by
  induction ops with
  | nil => intro k s s' _ h _ _ hr; simp only [run, Option.some.injEq] at hr; subst hr; exact h
  | cons op ops ih =>
    intro k s s' h hn hk hc hr
    simp only [run, Option.bind_eq_some_iff] at hr
    obtain ⟨s1, hs1, hr⟩ := hr
    simp only [List.length_cons] at hk
    exact ih (k + 1) s1 s' (inv_step h (by omega) op hs1) (step_nodup h hn op hc.1 hs1) (by omega)
      (hc.2 s1 hs1) hr

/-- **C11 (partial).** If devices are never attached twice to the same phy and the environment has a single phy of
each type, a packet reaches exactly once every other device attached to the phy of its type, when the sender is. -/
theorem C11_exactly_once_careful_partial (c : Config) (ops : List Op) (s : Model) (hlen : ops.length < 2 ^ 32)
    (hc : Careful c Model.init ops) (hr : run c Model.init ops = some s)
    (hsingle : ∀ p q t, PhyPresent s p t → PhyPresent s q t → p = q)
    (d e p : Nat) (t : PhyType) (hne : e ≠ d) (hp : PhyPresent s p t)
    (hd : DeviceLists s d p) (he : DeviceLists s e p) : (send s d t).count e = 1 := by
  refine C11_exactly_once_partial c s ⟨ops, hlen, hr⟩ d e p t hne hp hd he
    (fun q hq _ _ => hsingle q p t hq hp) ?_
  intro y hy _
  exact careful_nodup ops 0 _ _ inv_init (by simp [NodupMembers, Model.init]) (by omega) hc hr y hy

example : (send demo 0 .lowEnergy).count 2 = 1 ∧ (send demo 0 .brEdr).count 2 = 0 ∧
    (send demo 0 .brEdr).count 1 = 1 := by decide +kernel

/-- **C11, violated.** Attaching a device twice to one phy, or having two phys of the same type, makes it receive
every packet twice. -/
theorem C11_exactly_once_violated :
    (∃ s, Reachable Config.default s ∧ (send s 0 .lowEnergy).count 2 = 2) ∧
    (∃ s, Reachable Config.default s ∧ (send s 0 .lowEnergy).count 1 = 2) := by
  refine ⟨⟨(run Config.default Model.init (demoOps ++ [.addDeviceToPhy 2 0])).get (by decide +kernel),
    reachable_get _ _ _ (by decide), by decide +kernel⟩,
    ⟨(run Config.default Model.init (.addPhy .lowEnergy :: demoOps)).get (by decide +kernel),
    reachable_get _ _ _ (by decide), by decide +kernel⟩⟩

/-! ## C12 -/

theorem search_spec (c : Config) (s : Model) (fuel : Nat) : ∀ b,
    match search c s fuel b with
    | some a => ∃ n, b ≤ n ∧ n < b + fuel ∧ a = numbered c n ∧ used s a = false ∧
        ∀ m, b ≤ m → m < n → used s (numbered c m) = true
    | none => ∀ m, b ≤ m → m < b + fuel → used s (numbered c m) = true := by
  induction fuel with
  | zero => intro b; simp only [search]; intro m h1 h2; omega
  | succ fuel ih =>
    intro b
    unfold search
    by_cases hu : used s (numbered c b) = true
    · rw [if_pos hu]
      have := ih (b + 1)
      split
      · rename_i a ha
        rw [ha] at this
        obtain ⟨n, h1, h2, h3, h4, h5⟩ := this
        refine ⟨n, by omega, by omega, h3, h4, ?_⟩
        intro m hm1 hm2
        by_cases he : m = b
        · exact he ▸ hu
        · exact h5 m (by omega) hm2
      · rename_i ha
        rw [ha] at this
        intro m hm1 hm2
        by_cases he : m = b
        · exact he ▸ hu
        · exact this m (by omega) (by omega)
    · rw [if_neg hu]
      simp only
      exact ⟨b, Nat.le_refl b, by omega, rfl, by simpa using hu, fun m h1 h2 => by omega⟩

/-- Some device has address `a`. -/
def Taken (s : Model) (a : Address) : Prop := ∃ x ∈ s.devs, x.addr = a

theorem used_iff (s : Model) (a : Address) : used s a = true ↔ Taken s a := by
  simp [used, Taken]

/-- The address with the configured prefix, most significant byte first `p0:p1:p2:p3:hi:lo`. -/
def prefixed (c : Config) (hi lo : UInt8) : Address := ⟨lo, hi, c.p3, c.p2, c.p1, c.p0⟩

theorem numbered_eq (c : Config) (n : Nat) : numbered c n = prefixed c (UInt8.ofNat (n / 256)) (UInt8.ofNat n) := rfl

theorem prefixed_numbered (c : Config) (hi lo : UInt8) :
    numbered c (hi.toNat * 256 + lo.toNat) = prefixed c hi lo ∧ hi.toNat * 256 + lo.toNat < 65536 := by
  have h1 := hi.toNat_lt
  have h2 := lo.toNat_lt
  refine ⟨?_, by omega⟩
  rw [numbered_eq]
  congr 1
  · apply UInt8.toNat_inj.mp
    simp only [UInt8.toNat_ofNat']
    omega
  · apply UInt8.toNat_inj.mp
    simp only [UInt8.toNat_ofNat']
    omega

/-- **C12.** With address reuse (the default), a generated address has the configured prefix and is not the address
of any device present. -/
theorem C12_generated_unused (c : Config) (s : Model) (d : Nat) (a : Address) (hc : c.reuse = true)
    (h : generate c s d = some a) : ¬ Taken s a ∧ ∃ hi lo, a = prefixed c hi lo := by
  unfold generate at h
  rw [if_pos hc] at h
  have := search_spec c s 65536 0
  rw [h] at this
  obtain ⟨n, _, _, h3, h4, _⟩ := this
  refine ⟨fun ht => ?_, _, _, h3⟩
  rw [← used_iff] at ht
  rw [ht] at h4
  cases h4

/-- **C12.** Generation succeeds exactly when some address with the prefix is free; when none is, the search never
ends. -/
theorem C12_generates_iff_free (c : Config) (s : Model) (d : Nat) (hc : c.reuse = true) :
    (∃ a, generate c s d = some a) ↔ ∃ hi lo, ¬ Taken s (prefixed c hi lo) := by
  constructor
  · rintro ⟨a, ha⟩
    obtain ⟨h1, hi, lo, rfl⟩ := C12_generated_unused c s d a hc ha
    exact ⟨hi, lo, h1⟩
  · rintro ⟨hi, lo, hf⟩
    unfold generate
    rw [if_pos hc]
    have := search_spec c s 65536 0
    cases hs : search c s 65536 0 with
    | some a => exact ⟨a, rfl⟩
    | none =>
      rw [hs] at this
      obtain ⟨h1, h2⟩ := prefixed_numbered c hi lo
      have := this _ (Nat.zero_le _) (by omega)
      rw [h1, used_iff] at this
      exact absurd this hf

/-- **C12.** With the default prefix a generated address is never the empty address. -/
theorem C12_generated_nonempty (s : Model) (d : Nat) (a : Address) (h : generate Config.default s d = some a) :
    a ≠ Address.empty := by
  obtain ⟨_, hi, lo, rfl⟩ := C12_generated_unused Config.default s d a rfl h
  simp [prefixed, Address.empty, Config.default]

/-- **C12.** The device added without an address gets a generated one; the other devices keep theirs. -/
theorem C12_add_hci_address (c : Config) (s s' : Model) (hr : Reachable c s) (d : Nat) (a : Option Address)
    (hd : d ∈ s.loose.map (·.1)) (hs : step c s (.addHci d a) = some s') :
    ∃ g, generate c s d = some g ∧ s'.devs.map (fun x => (x.id, x.addr)) =
      s.devs.map (fun x => (x.id, x.addr)) ++ [(d, a.getD g)] := by
  obtain ⟨k, _, h⟩ := reachable_inv hr
  obtain ⟨a₀, ha₀⟩ := looseAddr_some hd
  have hn := h.disj d hd
  simp only [step, ha₀] at hs
  split at hs
  · cases hs
  · rename_i g hg
    simp only [Option.some.injEq] at hs
    obtain ⟨i1, i2, i3⟩ := registerOn_spec (addDevice_inv h (a.getD g) hd)
      ((addDevice_present hn d).mpr (Or.inr rfl)) (fun _ => true)
    subst hs
    refine ⟨g, hg, ?_⟩
    rw [i2.devs, addDevice_devs hn]
    simp

example : (demo.devs.map (·.addr)) =
    [⟨0, 0, 0xde, 0x10, 0x4c, 0xda⟩, ⟨1, 0, 0xde, 0x10, 0x4c, 0xda⟩, ⟨1, 0, 0, 0x10, 0xac, 0xbe⟩] := by
  decide +kernel

/-- Operations that never give a device an explicit address: controllers connect without one, devices leave, phys
and attachments change. -/
def Auto : Op → Prop
  | .addHci _ (some _) | .addDevice _ | .addLinkLayer _ _ | .setAddress _ _ => False
  | _ => True

theorem addrs_of_frame {s s' : Model} (h : Frame s s') : s'.devs.map (·.addr) = s.devs.map (·.addr) := by
  have := congrArg (List.map (·.2)) h.devs
  simpa [Function.comp_def] using this

theorem auto_step {c : Config} (hc : c.reuse = true) {k : Nat} {s s' : Model} (h : Inv k s)
    (hn : (s.devs.map (·.addr)).Nodup) (op : Op) (ho : Auto op) (hs : step c s op = some s') :
    (s'.devs.map (·.addr)).Nodup := by
  cases op with
  | construct a => simp only [step, Option.some.injEq] at hs; subst hs; exact hn
  | addDevice d => exact absurd ho (by simp [Auto])
  | addLinkLayer d t => exact absurd ho (by simp [Auto])
  | setAddress d a => exact absurd ho (by simp [Auto])
  | addHci d a =>
    cases a with
    | some a => exact absurd ho (by simp [Auto])
    | none =>
      simp only [step] at hs
      split at hs
      · simp only [Option.some.injEq] at hs; subst hs; exact hn
      · rename_i _ ha
        have hd := looseAddr_mem ha
        have hnd := h.disj d hd
        split at hs
        · cases hs
        · rename_i g hg
          simp only [Option.some.injEq] at hs; subst hs
          have i2 := (registerOn_spec (addDevice_inv h ((none : Option Address).getD g) hd)
            ((addDevice_present hnd d).mpr (Or.inr rfl)) (fun _ => true)).2.1
          rw [addrs_of_frame i2, addDevice_devs hnd, List.map_append, List.nodup_append]
          refine ⟨hn, by simp, ?_⟩
          intro x hx y hy
          simp only [List.map_cons, List.map_nil, List.mem_singleton, Option.getD_none] at hy
          rintro rfl
          subst hy
          obtain ⟨z, hz, hz'⟩ := List.mem_map.mp hx
          exact (C12_generated_unused c s d _ hc hg).1 ⟨z, hz, hz'⟩
  | removeDevice d =>
    simp only [step, Option.some.injEq] at hs; subst hs
    obtain ⟨_, _, i3, _⟩ := unregisterFold (s.phys.map (·.id)) d s h.sym h.set
    unfold removeDevice
    refine List.Nodup.sublist (List.Sublist.map _ List.filter_sublist) ?_
    rw [addrs_of_frame i3]
    exact hn
  | addPhy t => simp only [step, Option.some.injEq] at hs; subst hs; exact hn
  | removePhy p =>
    simp only [step, Option.some.injEq] at hs; subst hs
    unfold removePhy
    split
    · show ((unregisterAll s p).devs.map (·.addr)).Nodup
      rw [addrs_of_frame (unregisterAll_frame s p)]; exact hn
    · exact hn
  | addDeviceToPhy d p =>
    simp only [step, Option.some.injEq] at hs; subst hs
    rw [addrs_of_frame (addDeviceToPhy_spec h d p).2.1]; exact hn
  | removeDeviceFromPhy d p =>
    simp only [step, Option.some.injEq] at hs; subst hs
    rw [addrs_of_frame (removeDeviceFromPhy_spec h d p).2.1]; exact hn
  | reset => simp only [step, Option.some.injEq] at hs; subst hs; simp

theorem auto_run {c : Config} (hc : c.reuse = true) (ops : List Op) : ∀ (k : Nat) (s s' : Model), Inv k s →
    k + ops.length < 2 ^ 32 → (s.devs.map (·.addr)).Nodup → (∀ op ∈ ops, Auto op) → run c s ops = some s' →
    (s'.devs.map (·.addr)).Nodup := by
  induction ops with
  | nil => intro k s s' _ _ h _ hr; simp only [run, Option.some.injEq] at hr; subst hr; exact h
  | cons op ops ih =>
    intro k s s' h hk hn ha hr
    simp only [run, Option.bind_eq_some_iff] at hr
    obtain ⟨s1, hs1, hr⟩ := hr
    simp only [List.length_cons] at hk
    exact ih (k + 1) s1 s' (inv_step h (by omega) op hs1) (by omega)
      (auto_step hc h hn op (ha op (by simp)) hs1) (fun o ho => ha o (by simp [ho])) hr

/-- **C12.** As long as no device is given an explicit address, the addresses of all devices present are pairwise
distinct, over any history of controllers connecting and leaving. -/
theorem C12_pairwise_distinct (c : Config) (hc : c.reuse = true) (ops : List Op) (s : Model)
    (hlen : ops.length < 2 ^ 32) (ha : ∀ op ∈ ops, Auto op) (hr : run c Model.init ops = some s) :
    (s.devs.map (·.addr)).Nodup :=
  auto_run hc ops 0 _ _ inv_init (by omega) (by simp [Model.init]) ha hr

example : ∃ s, (∀ op ∈ [Op.construct none, .addHci 0 none, .construct none, .addHci 1 none, .removeDevice 0,
      .construct none, .addHci 2 none], Auto op) ∧
    run Config.default Model.init [.construct none, .addHci 0 none, .construct none, .addHci 1 none,
      .removeDevice 0, .construct none, .addHci 2 none] = some s ∧ s.devs.length = 2 := by
  refine ⟨(run Config.default Model.init [.construct none, .addHci 0 none, .construct none, .addHci 1 none,
      .removeDevice 0, .construct none, .addHci 2 none]).get (by decide +kernel), ?_, by simp, by decide +kernel⟩
  simp [Auto]

/-- **C12, violated without address reuse.** With `--disable_address_reuse` the address depends on the identifier
only: it can be the address of a device present. -/
theorem C12_no_reuse_distinct_violated : ∃ (c : Config) (s : Model) (a : Address), c.reuse = false ∧
    Reachable c s ∧ generate c s 1 = some a ∧ Taken s a := by
  refine ⟨⟨0xda, 0x4c, 0x10, 0xde, false⟩,
    (run ⟨0xda, 0x4c, 0x10, 0xde, false⟩ Model.init
      [.construct none, .construct none, .addHci 0 (some ⟨1, 0, 0xde, 0x10, 0x4c, 0xda⟩)]).get
      (by decide +kernel), ⟨1, 0, 0xde, 0x10, 0x4c, 0xda⟩, rfl, reachable_get _ _ _ (by decide), by decide +kernel, ?_⟩
  unfold Taken
  decide +kernel

/-- **C12 (partial), without address reuse.** Two generated addresses differ when the identifiers differ modulo
65536. -/
theorem C12_no_reuse_distinct_partial (c : Config) (s s' : Model) (d e : Nat) (a b : Address)
    (hc : c.reuse = false) (ha : generate c s d = some a) (hb : generate c s' e = some b)
    (h : d % 65536 ≠ e % 65536) : a ≠ b := by
  simp only [generate, hc, Bool.false_eq_true, if_false, Option.some.injEq] at ha hb
  subst ha; subst hb
  intro he
  simp only [numbered, Address.mk.injEq] at he
  have h1 := congrArg UInt8.toNat he.1
  have h2 := congrArg UInt8.toNat he.2.1
  simp only [UInt8.toNat_ofNat'] at h1 h2
  omega

end Verif.Phy
