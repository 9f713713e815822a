import Verif.Env.MoreLemmas
/-! # Races, the end, the clock and the first devices -/

namespace Verif.Env
open Verif.Phy (Config PhyType Op Present PhyPresent DeviceLists)

/-! ## Data races -/

theorem effect_not_race (cfg : Config) (s : Sys) (w : Work) : effect cfg s w ≠ .race := by
  have hc : ∀ s o k, command cfg s o k ≠ .race := by
    intro s o k
    unfold command
    split <;> simp
  have hl : ∀ s c t, acceptLink cfg s c t ≠ .race := by
    intro s c t
    unfold acceptLink
    split <;> simp
  cases w with
  | boot b =>
    cases b with
    | listen p => simp [effect]
    | command k => exact hc _ _ _
    | sniffer => simp only [effect]; split <;> simp
  | accept p c =>
    have ha : accept cfg s p c ≠ .race := by
      unfold accept
      split
      · simp
      · exact hl _ _ _
      · exact hl _ _ _
      · split <;> simp
    simp only [effect]
    split
    · simp
    · exact ha
  | task t =>
    simp only [effect]
    cases t with
    | hci c => simp only [runTask]; split <;> simp
    | closed d => simp only [runTask]; split <;> simp
    | clear => simp only [runTask]; split <;> simp
    | command c k =>
      cases k with
      | endSimulation => simp only [runTask]; split <;> simp
      | _ => simp only [runTask]; exact hc _ _ _
  | tick l => simp [effect]

theorem begin_not_race {s : Sys} {t : Thread} {w : Work} {o : List Out} (h : ∀ v ∈ s.works, clash s w v = false) : begin_ s t w o ≠ .race := by
  have : s.works.any (clash s w) = false := List.any_eq_false.mpr (fun v hv => by simp [h v hv])
  unfold begin_
  rw [this]
  cases t <;> simp

/-- Only the two link-layer ports lead to the test model from the thread of the watcher. -/
structure NoLink (s : Sys) (outs : List Out) : Prop where
  waiting : ∀ e ∈ s.waiting, e.1 ≠ .link ∧ e.1 ≠ .ble
  watcher : ∀ p c, s.watcher = some (.accept p c) → p ≠ .link ∧ p ≠ .ble
  tester : testers outs ≠ [] → s.testOpen = true

theorem nolink_step {cfg : Config} {s s' : Sys} {outs : List Out} {a : Act} {o : List Out} (hT : Typed s)
    (hq : a ≠ .connect .link ∧ a ≠ .connect .ble ∧ ∀ c, a ≠ .read c none) (hd : Did cfg s a s' o) (h : NoLink s outs) : NoLink s' (outs ++ o) := by
  have keep : s'.waiting = s.waiting → (s'.watcher = s.watcher ∨ s'.watcher = none) → s'.testOpen = s.testOpen → testers o = [] → NoLink s' (outs ++ o) := by
    intro e1 e2 e3 e4
    refine ⟨?_, ?_, ?_⟩
    · rw [e1]; exact h.waiting
    · rcases e2 with e2 | e2 <;> rw [e2]
      · exact h.watcher
      · intro p c hp; cases hp
    · rw [testers_append, e4, List.append_nil, e3]; exact h.tester
  cases hd with
  | connect p =>
    refine ⟨?_, h.watcher, ?_⟩
    · intro e he
      rcases List.mem_append.mp he with he | he
      · exact h.waiting e he
      · simp only [List.mem_singleton] at he
        subst he
        exact ⟨fun hp => hq.1 (by rw [show p = .link from hp]), fun hp => hq.2.1 (by rw [show p = .ble from hp])⟩
    · rw [List.append_nil]; exact h.tester
  | accept p c hw0 hp hf hw =>
    refine ⟨fun e he => h.waiting e (List.mem_of_mem_erase he), ?_, ?_⟩
    · rintro q c' ⟨⟩
      exact h.waiting _ (List.mem_of_find?_eq_some hf)
    · rw [testers_append]; simpa [testers] using h.tester
  | shut c => exact absurd rfl (hq.2.2 c)
  | leave | boot | read | task | tick => exact keep rfl (.inl rfl) rfl rfl
  | listened t p h1 => obtain ⟨rfl, h2⟩ := hT.boot h1; exact keep rfl (.inl rfl) rfl rfl
  | sniffed t m h1 => obtain ⟨rfl, h2⟩ := hT.boot h1; exact keep rfl (.inl rfl) rfl rfl
  | booted t k m ts n b h1 => obtain ⟨rfl, h2⟩ := hT.boot h1; exact keep rfl (.inl rfl) rfl (answer_none s _).2.2.2.1
  | commanded t c k m ts n b h0 h1 => obtain ⟨rfl, h2⟩ := hT.taskOf h1; exact keep rfl (.inl rfl) rfl (answer_none s _).2.2.2.1
  | controller t c m h1 => obtain ⟨rfl, h2⟩ := hT.taskOf h1; exact keep rfl (.inl rfl) rfl rfl
  | closed t d h1 => obtain ⟨rfl, h2⟩ := hT.taskOf h1; exact keep rfl (.inl rfl) rfl rfl
  | already t d h1 => obtain ⟨rfl, h2⟩ := hT.taskOf h1; exact keep rfl (.inl rfl) rfl rfl
  | ended t c h1 => obtain ⟨rfl, h2⟩ := hT.taskOf h1; exact keep rfl (.inl rfl) rfl rfl
  | cleared t m h1 => obtain ⟨rfl, h2⟩ := hT.taskOf h1; exact keep rfl (.inl rfl) rfl rfl
  | ticked t l h1 => obtain ⟨rfl, h2⟩ := hT.tickOf h1; exact keep rfl (.inl rfl) rfl rfl
  | admitted t i c h1 => obtain ⟨rfl, h2⟩ := hT.accept h1; exact keep rfl (.inr rfl) rfl rfl
  | joined t p c u m h1 => obtain ⟨rfl, h2⟩ := hT.accept h1; exact keep rfl (.inr rfl) rfl rfl
  | refused t c h1 => obtain ⟨rfl, h2⟩ := hT.accept h1; exact keep rfl (.inr rfl) rfl rfl
  | greeted t c h1 =>
    obtain ⟨rfl, h2⟩ := hT.accept h1
    exact ⟨h.waiting, fun p c hp => (by cases hp), fun _ => rfl⟩

theorem no_clash {s : Sys} {outs : List Out} (h : NoLink s outs) {p : Port} {c : Client} (hp : p ≠ .link ∧ p ≠ .ble) {w : Work}
    (hw : (∃ l, w = .tick l) ∨ ∃ t, w = .task t ∧ ∀ c k, t = .command c k → c ∈ testers outs) :
    clash s (.accept p c) w = false ∧ clash s w (.accept p c) = false := by
  have hm : usesModel (.accept p c) = false := by
    cases p with
    | link => exact absurd rfl hp.1
    | ble => exact absurd rfl hp.2
    | _ => rfl
  have hh : (usesHandler s (.accept p c) && usesHandler s w) = false := by
    cases p with
    | test =>
      rcases hw with ⟨l, rfl⟩ | ⟨t, rfl, ht⟩
      · simp [usesHandler]
      · cases t with
        | command c' k =>
          have := h.tester (List.ne_nil_of_mem (ht c' k rfl))
          simp [usesHandler, this]
        | _ => simp [usesHandler]
    | _ => simp [usesHandler]
  unfold clash
  constructor
  · rw [hm, hh]; rfl
  · rw [hm, Bool.and_false, Bool.and_comm, hh]; rfl

/-! ## The end of the simulation -/

/-- The command that ends the simulation. -/
def Task.ends : Task → Bool
  | .command _ .endSimulation => true
  | _ => false

def workEnds : Option Work → Nat
  | some (.task t) => t.ends.toNat
  | _ => 0

def Sys.ends (s : Sys) : Nat := s.tasks.countP Task.ends + workEnds s.task + s.ended.toNat

theorem ends_closed (l : List Nat) : (l.map Task.closed).countP Task.ends = 0 := by
  induction l with
  | nil => rfl
  | cons a l ih => rw [List.map_cons, List.countP_cons, ih]; rfl

theorem ends_step {cfg : Config} {s s' : Sys} {a : Act} {o : List Out} (hT : Typed s) (hd : Did cfg s a s' o) : s'.ends ≤ s.ends + a.ends.toNat := by
  cases hd with
  | connect | leave | boot | accept | shut => simp [Sys.ends, Act.ends]
  | read c k =>
    simp only [Sys.ends, List.countP_append, List.countP_cons, List.countP_nil]
    cases k <;> simp [Task.ends, Act.ends] <;> omega
  | task t ts ht0 ht =>
    simp only [Sys.ends, ht, ht0, workEnds, List.countP_cons]
    cases h : t.ends <;> simp <;> omega
  | tick l ht0 => simp [Sys.ends, ht0, workEnds]
  | listened t p h1 => obtain ⟨rfl, h2⟩ := hT.boot h1; simp [Sys.ends, free]
  | sniffed t m h1 => obtain ⟨rfl, h2⟩ := hT.boot h1; simp [Sys.ends, free]
  | booted t k m ts n b h1 h2 h3 =>
    obtain ⟨rfl, h4⟩ := hT.boot h1
    rcases h3 with rfl | ⟨-, rfl⟩ <;> simp [Sys.ends, free, Task.ends]
  | commanded t c k m ts n b h0 h1 h2 h3 =>
    obtain ⟨rfl, h4⟩ := hT.taskOf h1
    rcases h3 with rfl | ⟨-, rfl⟩ <;> simp [Sys.ends, free, Task.ends, workEnds, h4] <;> omega
  | controller t c m h1 => obtain ⟨rfl, h4⟩ := hT.taskOf h1; simp [Sys.ends, free, workEnds, h4]; omega
  | closed t d h1 =>
    obtain ⟨rfl, h4⟩ := hT.taskOf h1
    have := (List.filter_sublist (p := fun x => decide (x ≠ Task.closed d)) (l := s.tasks)).countP_le (p := Task.ends)
    simp only [Sys.ends, free, workEnds]
    omega
  | already t d h1 => obtain ⟨rfl, h4⟩ := hT.taskOf h1; simp [Sys.ends, free, workEnds, h4]; omega
  | ended t c h1 he =>
    obtain ⟨rfl, h4⟩ := hT.taskOf h1
    simp [Sys.ends, free, workEnds, h4, he, Task.ends]
  | cleared t m h1 => obtain ⟨rfl, h4⟩ := hT.taskOf h1; simp [Sys.ends, free, workEnds, h4]; omega
  | ticked t l h1 =>
    obtain ⟨rfl, h4⟩ := hT.tickOf h1
    simp only [Sys.ends, free, workEnds, h4, List.countP_append, ends_closed]
    omega
  | admitted t i c h1 => obtain ⟨rfl, h2⟩ := hT.accept h1; simp [Sys.ends, free, Task.ends]
  | joined t p c u m h1 => obtain ⟨rfl, h2⟩ := hT.accept h1; simp [Sys.ends, free]
  | refused t c h1 => obtain ⟨rfl, h2⟩ := hT.accept h1; simp [Sys.ends, free]
  | greeted t c h1 => obtain ⟨rfl, h2⟩ := hT.accept h1; simp [Sys.ends, free]

theorem ends_run {cfg : Config} : ∀ (as : List Act) {s s' : Sys} {o : List Out}, Typed s → run cfg s as = .ok s' o →
    s'.ends ≤ s.ends + as.countP Act.ends := by
  intro as
  induction as with
  | nil => intro s s' o _ hr; cases hr; simp
  | cons a as ih =>
    intro s s' o hT hr
    obtain ⟨s1, c1, c2, h1, h2, rfl⟩ := run_cons_ok hr
    have g1 := ends_step hT (did h1)
    have g2 := ih (typed_step hT (did h1)) h2
    rw [List.countP_cons]
    cases ha : a.ends <;> simp [ha] at g1 ⊢ <;> omega

theorem begin_not_terminated (s : Sys) (t : Thread) (w : Work) (o : List Out) : begin_ s t w o ≠ .terminated := by
  unfold begin_
  split
  · simp
  · cases t <;> simp

theorem terminated_two {cfg : Config} {s : Sys} {a : Act} (hT : Typed s) (h : step cfg s a = .terminated) : 2 ≤ s.ends := by
  have hc : ∀ s o k, command cfg s o k ≠ .terminated := by
    intro s o k
    unfold command
    split <;> simp
  have hl : ∀ s c t, acceptLink cfg s c t ≠ .terminated := by
    intro s c t
    unfold acceptLink
    split <;> simp
  cases a with
  | connect p => simp [step] at h
  | leave c => simp only [step] at h; split at h <;> cases h
  | boot => simp only [step] at h; split at h
            · exact absurd h (begin_not_terminated _ _ _ _)
            · cases h
  | accept p =>
    simp only [step] at h
    split at h
    · split at h
      · exact absurd h (begin_not_terminated _ _ _ _)
      · cases h
    · cases h
  | read c k => simp only [step] at h; split at h <;> (try split at h) <;> cases h
  | task => simp only [step] at h; split at h
            · exact absurd h (begin_not_terminated _ _ _ _)
            · cases h
  | tick l => simp only [step] at h; split at h
              · exact absurd h (begin_not_terminated _ _ _ _)
              · cases h
  | finish t =>
    simp only [step] at h
    split at h
    · rename_i w hd
      cases w with
      | boot b =>
        cases b with
        | listen p => simp [effect] at h
        | command k => exact absurd h (hc _ _ _)
        | sniffer => simp only [effect] at h; split at h <;> cases h
      | accept p c =>
        have ha : accept cfg (free s t) p c ≠ .terminated := by
          unfold accept
          split
          · simp
          · exact hl _ _ _
          · exact hl _ _ _
          · split <;> simp
        simp only [effect] at h
        split at h
        · cases h
        · exact absurd h ha
      | task k =>
        simp only [effect] at h
        cases k with
        | hci c => simp only [runTask] at h; split at h <;> cases h
        | closed d => simp only [runTask] at h; split at h <;> cases h
        | clear => simp only [runTask] at h; split at h <;> cases h
        | command c k =>
          cases k with
          | endSimulation =>
            obtain ⟨rfl, h4⟩ := hT.taskOf hd
            simp only [runTask] at h
            split at h
            · rename_i he
              have he : s.ended = true := he
              simp [Sys.ends, h4, workEnds, Task.ends, he]
            · cases h
          | _ => simp only [runTask] at h; exact absurd h (hc _ _ _)
      | tick l => simp [effect] at h
    · cases h

/-! ## The clock -/

def Task.starts : Task → Bool
  | .command _ .startTimer => true
  | _ => false

def Boot.starts : Boot → Bool
  | .command .startTimer => true
  | _ => false

def mainStarts : Option Work → Nat
  | some (.boot b) => b.starts.toNat
  | _ => 0

structure OneClock (s : Sys) : Prop where
  clock : s.ticking = s.timer.toNat
  boot : s.boot.countP Boot.starts + mainStarts s.main + s.timer.toNat ≤ 1
  tasks : ∀ t ∈ s.tasks, t.starts = false
  task : ∀ t, s.task = some (.task t) → t.starts = false

theorem clock_init (n : Nat) (b : Bool) : OneClock (Sys.init n b) := by
  refine ⟨rfl, ?_, by simp [Sys.init], by simp [Sys.init]⟩
  have h1 : ∀ l : List Nat, (l.map (fun i => Boot.listen (.hci i))).countP Boot.starts = 0 := by
    intro l
    induction l with
    | nil => rfl
    | cons a l ih => rw [List.map_cons, List.countP_cons, ih]; rfl
  simp only [Sys.init, bootSteps, List.countP_append, h1, mainStarts]
  cases b <;> decide

theorem clock_not_start {k : Cmd} (h : k ≠ .startTimer) {s : Sys} (hc : s.ticking = s.timer.toNat) {n : Nat} {b : Bool}
    (hn : (n, b) = clock k (s.ticking, s.timer)) : n = b.toNat ∧ b.toNat ≤ s.timer.toNat := by
  cases k <;> simp only [clock, Prod.mk.injEq] at hn <;> (try exact absurd rfl h) <;> obtain ⟨rfl, rfl⟩ := hn <;>
    cases ht : s.timer <;> simp_all

theorem clock_step {cfg : Config} {s s' : Sys} {a : Act} {o : List Out} (hT : Typed s) (hq : ∀ c, a ≠ .read c (some .startTimer))
    (hd : Did cfg s a s' o) (h : OneClock s) : OneClock s' := by
  cases hd with
  | connect | leave | accept | shut => exact ⟨h.clock, h.boot, h.tasks, h.task⟩
  | boot b bs hm hb hw =>
    have := h.boot
    rw [hm, hb, List.countP_cons] at this
    refine ⟨h.clock, ?_, h.tasks, h.task⟩
    simp only [mainStarts] at this ⊢
    cases hs : b.starts <;> simp [hs] at this ⊢ <;> omega
  | read c k =>
    refine ⟨h.clock, h.boot, ?_, h.task⟩
    intro t ht
    rcases List.mem_append.mp ht with ht | ht
    · exact h.tasks t ht
    · simp only [List.mem_singleton] at ht
      subst ht
      cases k <;> first | rfl | exact absurd rfl (hq c)
  | task t ts ht0 ht =>
    refine ⟨h.clock, h.boot, fun x hx => h.tasks x (by rw [ht]; exact List.mem_cons_of_mem _ hx), ?_⟩
    rintro x ⟨⟩
    exact h.tasks t (by rw [ht]; exact List.mem_cons_self)
  | tick l ht0 => exact ⟨h.clock, h.boot, h.tasks, fun t ht => by cases ht⟩
  | listened t p h1 =>
    obtain ⟨rfl, h2⟩ := hT.boot h1
    have := h.boot
    rw [h2] at this
    exact ⟨h.clock, by simpa [mainStarts, free, Boot.starts] using this, h.tasks, h.task⟩
  | sniffed t m h1 =>
    obtain ⟨rfl, h2⟩ := hT.boot h1
    have := h.boot
    rw [h2] at this
    exact ⟨h.clock, by simpa [mainStarts, free, Boot.starts] using this, h.tasks, h.task⟩
  | booted t k m ts n b h1 h2 h3 h5 =>
    obtain ⟨rfl, h4⟩ := hT.boot h1
    have hb := h.boot
    rw [h4] at hb
    have hts : ∀ t ∈ ts, t.starts = false := by
      rcases h3 with rfl | ⟨-, rfl⟩
      · exact h.tasks
      · intro t ht
        rcases List.mem_append.mp ht with ht | ht
        · exact h.tasks t ht
        · simp only [List.mem_singleton] at ht; subst ht; rfl
    by_cases hk : k = .startTimer
    · subst hk
      simp only [mainStarts, Boot.starts, Bool.toNat_true] at hb
      have hti : s.timer = false := by
        cases ht : s.timer
        · rfl
        · rw [ht, Bool.toNat_true] at hb; omega
      simp only [clock, Prod.mk.injEq] at h5
      obtain ⟨rfl, rfl⟩ := h5
      refine ⟨by simp [h.clock, hti], ?_, hts, h.task⟩
      simp only [free, mainStarts, Bool.toNat_true]
      omega
    · obtain ⟨rfl, hle⟩ := clock_not_start hk h.clock h5
      refine ⟨rfl, ?_, hts, h.task⟩
      simp only [free, mainStarts]
      omega
  | commanded t c k m ts n b h0 h1 h2 h3 h5 =>
    obtain ⟨rfl, h4⟩ := hT.taskOf h1
    have hb := h.boot
    have hts : ∀ t ∈ ts, t.starts = false := by
      rcases h3 with rfl | ⟨-, rfl⟩
      · exact h.tasks
      · intro t ht
        rcases List.mem_append.mp ht with ht | ht
        · exact h.tasks t ht
        · simp only [List.mem_singleton] at ht; subst ht; rfl
    have hk : k ≠ .startTimer := by
      rintro rfl
      have := h.task _ h4
      cases this
    obtain ⟨rfl, hle⟩ := clock_not_start hk h.clock h5
    refine ⟨rfl, ?_, hts, fun t ht => by cases ht⟩
    simp only [free]
    omega
  | controller t c m h1 => obtain ⟨rfl, h4⟩ := hT.taskOf h1; exact ⟨h.clock, h.boot, h.tasks, fun t ht => by cases ht⟩
  | closed t d h1 =>
    obtain ⟨rfl, h4⟩ := hT.taskOf h1
    exact ⟨h.clock, h.boot, fun t ht => h.tasks t (List.mem_of_mem_filter ht), fun t ht => by cases ht⟩
  | already t d h1 => obtain ⟨rfl, h4⟩ := hT.taskOf h1; exact ⟨h.clock, h.boot, h.tasks, fun t ht => by cases ht⟩
  | ended t c h1 => obtain ⟨rfl, h4⟩ := hT.taskOf h1; exact ⟨h.clock, h.boot, h.tasks, fun t ht => by cases ht⟩
  | cleared t m h1 => obtain ⟨rfl, h4⟩ := hT.taskOf h1; exact ⟨h.clock, h.boot, h.tasks, fun t ht => by cases ht⟩
  | ticked t l h1 =>
    obtain ⟨rfl, h4⟩ := hT.tickOf h1
    refine ⟨h.clock, h.boot, ?_, fun t ht => by cases ht⟩
    intro t ht
    rcases List.mem_append.mp ht with ht | ht
    · exact h.tasks t ht
    · obtain ⟨e, -, rfl⟩ := List.mem_map.mp ht; rfl
  | admitted t i c h1 =>
    obtain ⟨rfl, h2⟩ := hT.accept h1
    refine ⟨h.clock, h.boot, ?_, h.task⟩
    intro t ht
    rcases List.mem_append.mp ht with ht | ht
    · exact h.tasks t ht
    · simp only [List.mem_singleton] at ht; subst ht; rfl
  | joined t p c u m h1 => obtain ⟨rfl, h2⟩ := hT.accept h1; exact ⟨h.clock, h.boot, h.tasks, h.task⟩
  | refused t c h1 => obtain ⟨rfl, h2⟩ := hT.accept h1; exact ⟨h.clock, h.boot, h.tasks, h.task⟩
  | greeted t c h1 => obtain ⟨rfl, h2⟩ := hT.accept h1; exact ⟨h.clock, h.boot, h.tasks, h.task⟩

end Verif.Env
