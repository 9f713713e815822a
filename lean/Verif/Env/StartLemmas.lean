import Verif.Env.LastLemmas
/-! # What the program starts with -/

namespace Verif.Env
open Verif.Phy (Config PhyType Op Present PhyPresent DeviceLists)

/-- The steps before the servers of the controllers. -/
def early : List Boot :=
  [.listen .test, .command (.addPhy .brEdr), .command (.addPhy .lowEnergy), .command (.add beacon1),
    .command (.attach 0 1), .command (.add beacon2), .command (.attach 1 1), .command .startTimer, .listen .link, .listen .ble]

/-- The steps after those. -/
def late (n : Nat) (b : Bool) : List Boot := (List.range n).map (fun i => .listen (.hci i)) ++ (if b then [.sniffer] else [])

theorem boot_split (n : Nat) (b : Bool) : bootSteps n b = early ++ late n b := by
  simp only [bootSteps, early, late, List.append_assoc]

/-- The devices and phys after so many of the first steps. -/
def stage : Nat → Phy.Model
  | 0 | 1 => ⟨[], [], [], 0, 0⟩
  | 2 => ⟨[], [⟨0, .brEdr, []⟩], [], 0, 1⟩
  | 3 => ⟨[], [⟨0, .brEdr, []⟩, ⟨1, .lowEnergy, []⟩], [], 0, 2⟩
  | 4 => ⟨[⟨0, beacon1, []⟩], [⟨0, .brEdr, []⟩, ⟨1, .lowEnergy, []⟩], [], 1, 2⟩
  | 5 => ⟨[⟨0, beacon1, [1]⟩], [⟨0, .brEdr, []⟩, ⟨1, .lowEnergy, [0]⟩], [], 1, 2⟩
  | 6 => ⟨[⟨0, beacon1, [1]⟩, ⟨1, beacon2, []⟩], [⟨0, .brEdr, []⟩, ⟨1, .lowEnergy, [0]⟩], [], 2, 2⟩
  | _ => firstDevices

theorem stage_listen : ∀ j < 10, ∀ p, early[j]? = some (.listen p) → stage (j + 1) = stage j ∧ (p = .test ∨ p = .link ∨ p = .ble) := by
  intro j hj p hp
  have : j = 0 ∨ j = 1 ∨ j = 2 ∨ j = 3 ∨ j = 4 ∨ j = 5 ∨ j = 6 ∨ j = 7 ∨ j = 8 ∨ j = 9 := by omega
  rcases this with rfl | rfl | rfl | rfl | rfl | rfl | rfl | rfl | rfl | rfl <;> cases hp <;> exact ⟨rfl, by simp⟩

theorem stage_command (cfg : Config) : ∀ j < 10, ∀ k m, early[j]? = some (.command k) → Phy.run cfg (stage j) (k.ops (stage j)) = some m →
    m = stage (j + 1) ∧ k ≠ .reset := by
  intro j hj k m hk hr
  have : j = 0 ∨ j = 1 ∨ j = 2 ∨ j = 3 ∨ j = 4 ∨ j = 5 ∨ j = 6 ∨ j = 7 ∨ j = 8 ∨ j = 9 := by omega
  rcases this with rfl | rfl | rfl | rfl | rfl | rfl | rfl | rfl | rfl | rfl <;> cases hk <;>
    (refine ⟨?_, by simp⟩; exact (Option.some.inj hr).symm)

theorem early_sniffer : ∀ j : Nat, early[j]? ≠ some .sniffer := by
  intro j h
  have := List.mem_of_getElem? h
  simp [early] at this

/-- During the first steps nobody is let in. -/
structure Early (n : Nat) (b : Bool) (j : Nat) (s : Sys) : Prop where
  le : j ≤ 10
  model : s.model = stage j
  place : (s.main = none ∧ s.boot = early.drop j ++ late n b) ∨ (∃ x, early[j]? = some x ∧ s.main = some (.boot x) ∧ s.boot = early.drop (j + 1) ++ late n b)
  listening : ∀ p ∈ s.listening, p = .test ∨ p = .link ∨ p = .ble
  tasks : s.tasks = []
  socks : s.socks = []
  watcher : s.watcher = none
  reading : s.reading = []
  task : s.task = none ∨ s.task = some (.tick [])

/-- Afterwards. -/
structure Late (s : Sys) : Prop where
  furnished : Furnished s.model
  boot : ∀ x ∈ s.boot, x = .sniffer ∨ ∃ i, x = .listen (.hci i)
  main : ∀ x, s.main = some (.boot x) → x = .sniffer ∨ ∃ i, x = .listen (.hci i)
  watcher : ∀ p c, s.watcher = some (.accept p c) → ∃ i, p = .hci i
  reading : s.reading = []
  socks : ∀ k ∈ s.socks, 2 ≤ k.dev
  tasks : ∀ t ∈ s.tasks, (∃ c, t = .hci c) ∨ ∃ d, t = .closed d ∧ 2 ≤ d
  task : ∀ t, s.task = some (.task t) → (∃ c, t = .hci c) ∨ ∃ d, t = .closed d ∧ 2 ≤ d
  tick : ∀ l, s.task = some (.tick l) → ∀ d ∈ l, 2 ≤ d

/-- The two together, for clients of controllers only. -/
structure Start (n : Nat) (b : Bool) (s : Sys) : Prop where
  waiting : ∀ e ∈ s.waiting, ∃ i, e.1 = .hci i
  where_ : (∃ j, Early n b j s) ∨ (Late s ∧ s.boot.length < (late n b).length)

theorem start_init (n : Nat) (b : Bool) : Start n b (Sys.init n b) :=
  ⟨by simp [Sys.init], .inl ⟨0, by omega, rfl, .inl ⟨rfl, boot_split n b⟩, by simp [Sys.init], rfl, rfl, rfl, rfl, .inl rfl⟩⟩

theorem furnished_first : Furnished firstDevices := by
  refine ⟨?_, ?_⟩
  · intro p t
    simp only [PhyPresent, firstDevices, List.mem_cons, List.not_mem_nil, or_false, exists_eq_or_imp, exists_eq_left]
    constructor
    · rintro (⟨rfl, rfl⟩ | ⟨rfl, rfl⟩) <;> simp
    · rintro (⟨rfl, rfl⟩ | ⟨rfl, rfl⟩) <;> simp
  · intro d hd
    have : d = 0 ∨ d = 1 := by omega
    rcases this with rfl | rfl <;> simp [Present, DeviceLists, firstDevices]

theorem late_of_early {n : Nat} {b : Bool} {s : Sys} {j : Nat} (h : Early n b j s) (hm : s.main = none) (hb : s.boot = late n b)
    (hj : j = 10) : Late s := by
  subst hj
  refine ⟨by rw [h.model]; exact furnished_first, ?_, ?_, ?_, h.reading, ?_, ?_, ?_, ?_⟩
  · intro x hx
    rw [hb] at hx
    simp only [late, List.mem_append, List.mem_map] at hx
    rcases hx with ⟨i, -, rfl⟩ | hx
    · exact .inr ⟨i, rfl⟩
    · cases b <;> simp at hx
      exact .inl hx
  · intro x hx; rw [hm] at hx; cases hx
  · intro p c hx; rw [h.watcher] at hx; cases hx
  · rw [h.socks]; intro k hk; cases hk
  · rw [h.tasks]; intro k hk; cases hk
  · intro t ht; rcases h.task with h | h <;> rw [h] at ht <;> cases ht
  · intro t ht; rcases h.task with h | h <;> rw [h] at ht <;> cases ht; intro d hd; cases hd

theorem early_length : early.length = 10 := rfl

theorem early_step {cfg : Config} {n : Nat} {b : Bool} {j : Nat} {s s' : Sys} {a : Act} {o : List Out} (hT : Typed s) (h : Early n b j s)
    (hwait : ∀ e ∈ s.waiting, ∃ i, e.1 = .hci i) (hd : Did cfg s a s' o) : (∃ j, Early n b j s') ∨ (Late s' ∧ s'.boot.length < (late n b).length) := by
  cases hd with
  | connect | leave => exact .inl ⟨j, h.le, h.model, h.place, h.listening, h.tasks, h.socks, h.watcher, h.reading, h.task⟩
  | boot x xs hm hb hw =>
    rcases h.place with ⟨-, hp⟩ | ⟨y, -, hp, -⟩
    · by_cases hj : j = 10
      · have hb' : s.boot = late n b := by rw [hp, hj]; rfl
        have hl := late_of_early h hm hb' hj
        refine .inr ⟨⟨hl.furnished, ?_, ?_, hl.watcher, hl.reading, hl.socks, hl.tasks, hl.task, hl.tick⟩, ?_⟩
        · intro y hy; exact hl.boot y (by rw [hb]; exact List.mem_cons_of_mem _ hy)
        · rintro y ⟨⟩; exact hl.boot x (by rw [hb]; exact List.mem_cons_self)
        · rw [← hb', hb]; simp
      · have hj' : j < early.length := by have := h.le; rw [early_length]; omega
        rw [List.drop_eq_getElem_cons hj', List.cons_append, hb, List.cons.injEq] at hp
        obtain ⟨rfl, rfl⟩ := hp
        exact .inl ⟨j, h.le, h.model, .inr ⟨_, List.getElem?_eq_getElem hj', rfl, rfl⟩, h.listening, h.tasks, h.socks, h.watcher, h.reading, h.task⟩
    · rw [hm] at hp; cases hp
  | accept p c hw0 hp hf hw =>
    obtain ⟨i, hi⟩ := hwait _ (List.mem_of_find?_eq_some hf)
    have := h.listening p hp
    simp only at hi
    subst hi
    rcases this with h | h | h <;> cases h
  | read c k hw0 hc => rw [h.reading] at hc; cases hc
  | shut c hw0 hc => rw [h.reading] at hc; cases hc
  | task t ts ht0 ht => rw [h.tasks] at ht; cases ht
  | tick l ht0 ht hdf =>
    have : l = [] := by
      cases l with
      | nil => rfl
      | cons d l =>
        have := hdf d List.mem_cons_self
        rw [deaf, h.socks] at this
        simp at this
    subst this
    exact .inl ⟨j, h.le, h.model, h.place, h.listening, h.tasks, h.socks, h.watcher, h.reading, .inr rfl⟩
  | listened t p h1 =>
    obtain ⟨rfl, h2⟩ := hT.boot h1
    rcases h.place with ⟨hm, -⟩ | ⟨y, hy, hm, hb⟩
    · rw [hm] at h2; cases h2
    · rw [hm] at h2
      cases h2
      have hj : j < 10 := by rw [← early_length]; exact (List.getElem?_eq_some_iff.mp hy).1
      obtain ⟨g1, g2⟩ := stage_listen j hj p hy
      refine .inl ⟨j + 1, by omega, h.model.trans g1.symm, .inl ⟨rfl, hb⟩, ?_, h.tasks, h.socks, h.watcher, h.reading, h.task⟩
      intro q hq
      rcases List.mem_append.mp hq with hq | hq
      · exact h.listening q hq
      · simp only [List.mem_singleton] at hq; subst hq; exact g2
  | booted t k m ts x y h1 h2 h3 h5 =>
    obtain ⟨rfl, h4⟩ := hT.boot h1
    rcases h.place with ⟨hm, -⟩ | ⟨y, hy, hm, hb⟩
    · rw [hm] at h4; cases h4
    · rw [hm] at h4
      cases h4
      have hj : j < 10 := by rw [← early_length]; exact (List.getElem?_eq_some_iff.mp hy).1
      rw [h.model] at h2
      obtain ⟨g1, g2⟩ := stage_command cfg j hj k m hy h2
      have hts : ts = [] := by
        rcases h3 with h3 | ⟨h3, -⟩
        · rw [h3, h.tasks]
        · exact absurd h3 g2
      exact .inl ⟨j + 1, by omega, g1, .inl ⟨rfl, hb⟩, h.listening, hts, h.socks, h.watcher, h.reading, h.task⟩
  | sniffed t m h1 =>
    obtain ⟨rfl, h2⟩ := hT.boot h1
    rcases h.place with ⟨hm, -⟩ | ⟨y, hy, hm, hb⟩
    · rw [hm] at h2; cases h2
    · rw [hm] at h2
      cases h2
      exact absurd hy (early_sniffer j)
  | commanded t c k m ts n b h0 h1 => obtain ⟨rfl, h4⟩ := hT.taskOf h1; rcases h.task with h | h <;> rw [h] at h4 <;> cases h4
  | controller t c m h1 => obtain ⟨rfl, h4⟩ := hT.taskOf h1; rcases h.task with h | h <;> rw [h] at h4 <;> cases h4
  | closed t d h1 => obtain ⟨rfl, h4⟩ := hT.taskOf h1; rcases h.task with h | h <;> rw [h] at h4 <;> cases h4
  | already t d h1 => obtain ⟨rfl, h4⟩ := hT.taskOf h1; rcases h.task with h | h <;> rw [h] at h4 <;> cases h4
  | ended t c h1 => obtain ⟨rfl, h4⟩ := hT.taskOf h1; rcases h.task with h | h <;> rw [h] at h4 <;> cases h4
  | cleared t m h1 => obtain ⟨rfl, h4⟩ := hT.taskOf h1; rcases h.task with h | h <;> rw [h] at h4 <;> cases h4
  | ticked t l h1 =>
    obtain ⟨rfl, h4⟩ := hT.tickOf h1
    have : l = [] := by
      rcases h.task with h | h <;> rw [h] at h4 <;> cases h4
      rfl
    subst this
    exact .inl ⟨j, h.le, h.model, h.place, h.listening, by simp [free, h.tasks], h.socks, h.watcher, h.reading, .inl rfl⟩
  | admitted t i c h1 => obtain ⟨rfl, h2⟩ := hT.accept h1; rw [h.watcher] at h2; cases h2
  | joined t p c u m h1 => obtain ⟨rfl, h2⟩ := hT.accept h1; rw [h.watcher] at h2; cases h2
  | refused t c h1 => obtain ⟨rfl, h2⟩ := hT.accept h1; rw [h.watcher] at h2; cases h2
  | greeted t c h1 => obtain ⟨rfl, h2⟩ := hT.accept h1; rw [h.watcher] at h2; cases h2

theorem two_le {k : Nat} {m : Phy.Model} (hi : Phy.Inv k m) (hf : Furnished m) : 2 ≤ m.nextDev := by
  have := (used_of_present hi (hf.beacons 1 (by omega)).1).1
  omega

/-- A new device leaves the furniture as it is. -/
theorem furnished_new {m m' : Phy.Model} {c : Nat} {R : Nat → Prop} (hc : 2 ≤ c) (hf : Furnished m)
    (h1 : ∀ x p, DeviceLists m' x p ↔ DeviceLists m x p ∨ (x = c ∧ R p)) (h2 : ∀ x, Present m' x ↔ Present m x ∨ x = c)
    (h3 : ∀ p t, PhyPresent m' p t ↔ PhyPresent m p t) : Furnished m' := by
  refine ⟨fun p t => (h3 p t).trans (hf.phys p t), fun d hd => ⟨(h2 d).mpr (.inl (hf.beacons d hd).1), fun p => ?_⟩⟩
  rw [h1, (hf.beacons d hd).2]
  exact ⟨fun h => h.elim id (fun h => by omega), .inl⟩

theorem late_step {cfg : Config} {k : Nat} {s s' : Sys} {outs : List Out} {a : Act} {o : List Out} (hk : k + 1 < 2 ^ 30) (hi : Inv k s outs) (h : Late s)
    (hwait : ∀ e ∈ s.waiting, ∃ i, e.1 = .hci i) (hd : Did cfg s a s' o) : Late s' ∧ s'.boot.length ≤ s.boot.length := by
  have hT := hi.typed
  cases hd with
  | connect | leave => exact ⟨⟨h.furnished, h.boot, h.main, h.watcher, h.reading, h.socks, h.tasks, h.task, h.tick⟩, Nat.le_refl _⟩
  | boot x xs hm hb hw =>
    refine ⟨⟨h.furnished, ?_, ?_, h.watcher, h.reading, h.socks, h.tasks, h.task, h.tick⟩, by rw [hb]; simp⟩
    · intro y hy; exact h.boot y (by rw [hb]; exact List.mem_cons_of_mem _ hy)
    · rintro y ⟨⟩; exact h.boot x (by rw [hb]; exact List.mem_cons_self)
  | accept p c hw0 hp hf hw =>
    refine ⟨⟨h.furnished, h.boot, h.main, ?_, h.reading, h.socks, h.tasks, h.task, h.tick⟩, Nat.le_refl _⟩
    rintro q c' ⟨⟩
    exact hwait _ (List.mem_of_find?_eq_some hf)
  | read c k hw0 hc => rw [h.reading] at hc; cases hc
  | shut c hw0 hc => rw [h.reading] at hc; cases hc
  | task t ts ht0 ht =>
    refine ⟨⟨h.furnished, h.boot, h.main, h.watcher, h.reading, h.socks, ?_, ?_, ?_⟩, Nat.le_refl _⟩
    · intro x hx; exact h.tasks x (by rw [ht]; exact List.mem_cons_of_mem _ hx)
    · rintro x ⟨⟩; exact h.tasks t (by rw [ht]; exact List.mem_cons_self)
    · intro l hl; cases hl
  | tick l ht0 ht hdf =>
    refine ⟨⟨h.furnished, h.boot, h.main, h.watcher, h.reading, h.socks, h.tasks, (fun t ht => by cases ht), ?_⟩, Nat.le_refl _⟩
    rintro l ⟨⟩ d hdl
    have := hdf d hdl
    simp only [deaf, List.any_eq_true, Bool.and_eq_true, decide_eq_true_eq] at this
    obtain ⟨x, hx, ⟨rfl, -⟩, -⟩ := this
    exact h.socks x hx
  | listened t p h1 =>
    obtain ⟨rfl, h2⟩ := hT.boot h1
    exact ⟨⟨h.furnished, h.boot, (fun x hx => by cases hx), h.watcher, h.reading, h.socks, h.tasks, h.task, h.tick⟩, Nat.le_refl _⟩
  | booted t k m ts x y h1 h2 h3 h5 =>
    obtain ⟨rfl, h4⟩ := hT.boot h1
    rcases h.main _ h4 with h | ⟨i, h⟩ <;> cases h
  | sniffed t m h1 hm =>
    obtain ⟨rfl, h2⟩ := hT.boot h1
    obtain ⟨g1, g2, g3⟩ := newLinkDevice_spec hi.phy (by omega) hm
    exact ⟨⟨furnished_new (two_le hi.phy h.furnished) h.furnished g1 g2 g3, h.boot, (fun x hx => by cases hx), h.watcher, h.reading, h.socks, h.tasks, h.task, h.tick⟩, Nat.le_refl _⟩
  | commanded t c k m ts n b h0 h1 =>
    obtain ⟨rfl, h4⟩ := hT.taskOf h1
    rcases h.task _ h4 with ⟨i, h⟩ | ⟨i, h, -⟩ <;> cases h
  | controller t c m h1 hm =>
    obtain ⟨rfl, h4⟩ := hT.taskOf h1
    obtain ⟨g1, g2, g3⟩ := newController_spec hi.phy (by omega) hm
    have h2 := two_le hi.phy h.furnished
    refine ⟨⟨furnished_new h2 h.furnished g1 g2 g3, h.boot, h.main, h.watcher, h.reading, ?_, h.tasks, (fun t ht => by cases ht), (fun t ht => by cases ht)⟩, Nat.le_refl _⟩
    intro x hx
    rcases List.mem_append.mp hx with hx | hx
    · exact h.socks x hx
    · simp only [List.mem_singleton] at hx; subst hx; exact h2
  | closed t d h1 =>
    obtain ⟨rfl, h4⟩ := hT.taskOf h1
    have h2 : 2 ≤ d := by
      rcases h.task _ h4 with ⟨i, h⟩ | ⟨i, h, h'⟩ <;> cases h
      exact h'
    obtain ⟨-, g1, g2, g3⟩ := Phy.removeDevice_spec hi.phy d
    refine ⟨⟨⟨fun p t => (g3 p t).trans (h.furnished.phys p t), fun x hx => ⟨(g2 x).mpr ⟨(h.furnished.beacons x hx).1, by omega⟩, fun p => ?_⟩⟩, h.boot, h.main, h.watcher, h.reading, h.socks, ?_, (fun t ht => by cases ht), (fun t ht => by cases ht)⟩, Nat.le_refl _⟩
    · rw [g1, (h.furnished.beacons x hx).2]
      exact ⟨fun h => h.1, fun h => ⟨h, by omega⟩⟩
    · exact fun t ht => h.tasks t (List.mem_of_mem_filter ht)
  | already t d h1 =>
    obtain ⟨rfl, h4⟩ := hT.taskOf h1
    exact ⟨⟨h.furnished, h.boot, h.main, h.watcher, h.reading, h.socks, h.tasks, (fun t ht => by cases ht), (fun t ht => by cases ht)⟩, Nat.le_refl _⟩
  | ended t c h1 =>
    obtain ⟨rfl, h4⟩ := hT.taskOf h1
    rcases h.task _ h4 with ⟨i, h⟩ | ⟨i, h, -⟩ <;> cases h
  | cleared t m h1 =>
    obtain ⟨rfl, h4⟩ := hT.taskOf h1
    rcases h.task _ h4 with ⟨i, h⟩ | ⟨i, h, -⟩ <;> cases h
  | ticked t l h1 =>
    obtain ⟨rfl, h4⟩ := hT.tickOf h1
    refine ⟨⟨h.furnished, h.boot, h.main, h.watcher, h.reading, h.socks, ?_, (fun t ht => by cases ht), (fun t ht => by cases ht)⟩, Nat.le_refl _⟩
    intro t ht
    rcases List.mem_append.mp ht with ht | ht
    · exact h.tasks t ht
    · obtain ⟨d, hdl, rfl⟩ := List.mem_map.mp ht
      exact .inr ⟨d, rfl, h.tick l h4 d hdl⟩
  | admitted t i c h1 =>
    obtain ⟨rfl, h2⟩ := hT.accept h1
    refine ⟨⟨h.furnished, h.boot, h.main, (fun p c hx => by cases hx), h.reading, h.socks, ?_, h.task, h.tick⟩, Nat.le_refl _⟩
    intro t ht
    rcases List.mem_append.mp ht with ht | ht
    · exact h.tasks t ht
    · simp only [List.mem_singleton] at ht; subst ht; exact .inl ⟨c, rfl⟩
  | joined t p c u m h1 h5 =>
    obtain ⟨rfl, h2⟩ := hT.accept h1
    obtain ⟨i, hp⟩ := h.watcher _ _ h2
    subst hp
    simp at h5
  | refused t c h1 => obtain ⟨rfl, h2⟩ := hT.accept h1; obtain ⟨i, hp⟩ := h.watcher _ _ h2; cases hp
  | greeted t c h1 => obtain ⟨rfl, h2⟩ := hT.accept h1; obtain ⟨i, hp⟩ := h.watcher _ _ h2; cases hp

theorem start_step {cfg : Config} {n : Nat} {b : Bool} {k : Nat} {s s' : Sys} {outs : List Out} {a : Act} {o : List Out} (hk : k + 1 < 2 ^ 30)
    (hq : a ≠ .connect .test ∧ a ≠ .connect .link ∧ a ≠ .connect .ble) (hi : Inv k s outs) (h : Start n b s) (hd : Did cfg s a s' o) : Start n b s' := by
  refine ⟨?_, ?_⟩
  · cases hd with
    | connect p =>
      intro e he
      rcases List.mem_append.mp he with he | he
      · exact h.waiting e he
      · simp only [List.mem_singleton] at he
        subst he
        cases p with
        | hci i => exact ⟨i, rfl⟩
        | link => exact absurd rfl hq.2.1
        | ble => exact absurd rfl hq.2.2
        | test => exact absurd rfl hq.1
    | accept => exact fun e he => h.waiting e (List.mem_of_mem_erase he)
    | leave | boot | read | shut | task | tick => exact h.waiting
    | listened t | booted t | commanded t | sniffed t | controller t | closed t | already t | ended t | cleared t | ticked t | admitted t | joined t | refused t | greeted t =>
      cases t <;> exact h.waiting
  · rcases h.where_ with ⟨j, hj⟩ | ⟨hl, hb⟩
    · exact early_step hi.typed hj h.waiting hd
    · obtain ⟨g1, g2⟩ := late_step hk hi hl h.waiting hd
      exact .inr ⟨g1, by omega⟩

end Verif.Env
