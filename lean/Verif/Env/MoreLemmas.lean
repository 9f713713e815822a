import Verif.Env.HistoryLemmas
/-! # More invariants of the desktop program -/

namespace Verif.Env
open Verif.Phy (Config PhyType Op Present PhyPresent DeviceLists)

/-- A simpler use of `invariant`. -/
theorem along {cfg : Config} {n : Nat} {b : Bool} {acts : List Act} {s : Sys} {outs : List Out} {J : Sys → List Out → Prop} {Q : Act → Prop}
    (h : Gets cfg n b acts s outs) (hq : ∀ a ∈ acts, Q a) (h0 : J (Sys.init n b) [])
    (hs : ∀ k s outs a s' o, k + 1 < 2 ^ 30 → Q a → Inv k s outs → J s outs → Did cfg s a s' o → J s' (outs ++ o)) : J s outs := by
  have := invariant (Q := Q) (P := fun k s outs => Inv k s outs ∧ J s outs)
    (fun k s outs a s' o hk hq hi hr => ⟨inv_step hk hi.1 (did hr), hs k s outs a s' o hk hq hi.1 hi.2 (did hr)⟩) acts 0 _ [] s outs
    (by have := h.1; omega) hq ⟨inv_init n b, h0⟩ h.2
  simpa using this.2

/-! ## The ports -/

/-- A port that is listened to, or will be when a thread goes on. -/
def Opens (s : Sys) (p : Port) : Prop :=
  p ∈ s.listening ∨ (∃ c, s.watcher = some (.accept p c)) ∨ s.main = some (.boot (.listen p)) ∨ .listen p ∈ s.boot

theorem opens_init (n : Nat) (b : Bool) (p : Port) (hp : p ∈ ports n) : Opens (Sys.init n b) p := by
  refine .inr (.inr (.inr ?_))
  simp only [ports, List.mem_append, List.mem_cons, List.not_mem_nil, or_false, List.mem_map, List.mem_range] at hp
  simp only [Sys.init, bootSteps, List.mem_append, List.mem_map, List.mem_range]
  rcases hp with (rfl | rfl | rfl) | ⟨i, hi, rfl⟩
  · simp
  · simp
  · simp
  · exact .inl (.inr ⟨i, hi, rfl⟩)

theorem free_more (s : Sys) (t : Thread) : (free s t).listening = s.listening ∧ (free s t).boot = s.boot ∧ (free s t).reading = s.reading ∧
    (free s t).testOpen = s.testOpen ∧ (free s t).answers = s.answers ∧ (free s t).ended = s.ended ∧ (free s t).ticking = s.ticking ∧
    (free s t).timer = s.timer := by
  cases t <;> exact ⟨rfl, rfl, rfl, rfl, rfl, rfl, rfl, rfl⟩

theorem opens_step {cfg : Config} {s s' : Sys} {a : Act} {o : List Out} (hT : Typed s) (hd : Did cfg s a s' o) (p : Port) (h : Opens s p) :
    Opens s' p := by
  cases hd with
  | connect | leave | read | shut | task | tick => exact h
  | boot b bs hm hb hw =>
    rcases h with h | h | h | h
    · exact .inl h
    · exact .inr (.inl h)
    · rw [hm] at h; cases h
    · rw [hb] at h
      rcases List.mem_cons.mp h with h | h
      · subst h; exact .inr (.inr (.inl rfl))
      · exact .inr (.inr (.inr h))
  | accept q c hw0 hq hf hw =>
    rcases h with h | ⟨c', h⟩ | h | h
    · by_cases hp : p = q
      · subst hp; exact .inr (.inl ⟨c, rfl⟩)
      · exact .inl ((List.mem_erase_of_ne hp).mpr h)
    · rw [hw0] at h; cases h
    · exact .inr (.inr (.inl h))
    · exact .inr (.inr (.inr h))
  | listened t q h1 =>
    obtain ⟨rfl, h2⟩ := hT.boot h1
    rcases h with h | h | h | h
    · exact .inl (List.mem_append_left _ h)
    · exact .inr (.inl h)
    · rw [h2] at h; cases h; exact .inl (by simp)
    · exact .inr (.inr (.inr h))
  | booted t k m ts n b h1 =>
    obtain ⟨rfl, h2⟩ := hT.boot h1
    rcases h with h | h | h | h
    · exact .inl h
    · exact .inr (.inl h)
    · rw [h2] at h; cases h
    · exact .inr (.inr (.inr h))
  | sniffed t m h1 =>
    obtain ⟨rfl, h2⟩ := hT.boot h1
    rcases h with h | h | h | h
    · exact .inl h
    · exact .inr (.inl h)
    · rw [h2] at h; cases h
    · exact .inr (.inr (.inr h))
  | commanded t c k m ts n b h0 h1 => obtain ⟨rfl, h2⟩ := hT.taskOf h1; exact h
  | controller t c m h1 => obtain ⟨rfl, h2⟩ := hT.taskOf h1; exact h
  | closed t d h1 => obtain ⟨rfl, h2⟩ := hT.taskOf h1; exact h
  | already t d h1 => obtain ⟨rfl, h2⟩ := hT.taskOf h1; exact h
  | ended t c h1 => obtain ⟨rfl, h2⟩ := hT.taskOf h1; exact h
  | cleared t m h1 => obtain ⟨rfl, h2⟩ := hT.taskOf h1; exact h
  | ticked t l h1 => obtain ⟨rfl, h2⟩ := hT.tickOf h1; exact h
  | admitted t i c h1 =>
    obtain ⟨rfl, h2⟩ := hT.accept h1
    rcases h with h | ⟨c', h⟩ | h | h
    · exact .inl (List.mem_append_left _ h)
    · rw [h2] at h; cases h; exact .inl (by simp)
    · exact .inr (.inr (.inl h))
    · exact .inr (.inr (.inr h))
  | joined t q c u m h1 =>
    obtain ⟨rfl, h2⟩ := hT.accept h1
    rcases h with h | ⟨c', h⟩ | h | h
    · exact .inl (List.mem_append_left _ h)
    · rw [h2] at h; cases h; exact .inl (by simp)
    · exact .inr (.inr (.inl h))
    · exact .inr (.inr (.inr h))
  | refused t c h1 =>
    obtain ⟨rfl, h2⟩ := hT.accept h1
    rcases h with h | ⟨c', h⟩ | h | h
    · exact .inl (List.mem_append_left _ h)
    · rw [h2] at h; cases h; exact .inl (by simp)
    · exact .inr (.inr (.inl h))
    · exact .inr (.inr (.inr h))
  | greeted t c h1 =>
    obtain ⟨rfl, h2⟩ := hT.accept h1
    rcases h with h | ⟨c', h⟩ | h | h
    · exact .inl (List.mem_append_left _ h)
    · rw [h2] at h; cases h; exact .inl (by simp)
    · exact .inr (.inr (.inl h))
    · exact .inr (.inr (.inr h))

/-! ## The test channel -/

/-- One client at most, and the flag tells. -/
def OneReader (s : Sys) : Prop := (s.testOpen = true ∧ ∃ c, s.reading = [c]) ∨ (s.testOpen = false ∧ s.reading = [])

theorem reader_step {cfg : Config} {s s' : Sys} {a : Act} {o : List Out} (hd : Did cfg s a s' o) (h : OneReader s) : OneReader s' := by
  have keepF : ∀ t, s'.testOpen = (free s t).testOpen → s'.reading = (free s t).reading → OneReader s' := by
    intro t h1 h2
    unfold OneReader
    rw [h1, h2, (free_more s t).2.2.1, (free_more s t).2.2.2.1]
    exact h
  cases hd with
  | connect | leave | boot | accept | read | task | tick => exact h
  | shut c hw hc =>
    rcases h with ⟨-, c', h⟩ | ⟨-, h⟩
    · rw [h] at hc
      simp only [List.mem_singleton] at hc
      subst hc
      exact .inr ⟨rfl, by simp [h]⟩
    · rw [h] at hc; cases hc
  | greeted t c h1 ho =>
    rcases h with ⟨h, -⟩ | ⟨-, h⟩
    · rw [ho] at h; cases h
    · exact .inl ⟨rfl, c, by simp [h]⟩
  | listened t | booted t | commanded t | sniffed t | controller t | closed t | already t | ended t | cleared t | admitted t | joined t
  | refused t | ticked t => exact keepF t rfl rfl

/-- The senders of the commands that are under way, of the answers, and the receivers of the answers, were let in. -/
structure Known (s : Sys) (outs : List Out) : Prop where
  reading : ∀ c ∈ s.reading, c ∈ testers outs
  answers : ∀ c, s.answers = some c → c ∈ testers outs
  tasks : ∀ c k, .command c k ∈ s.tasks → c ∈ testers outs
  task : ∀ c k, s.task = some (.task (.command c k)) → c ∈ testers outs
  answered : ∀ e ∈ Env.answers outs, e.2 ∈ testers outs ∧ ∀ c, e.1 = some c → c ∈ testers outs

theorem answer_some {s : Sys} {x : Option Client} {e : Option Client × Client} (h : e ∈ answers (answer s x)) : s.answers = some e.2 ∧ e.1 = x := by
  unfold answer at h
  split at h
  · cases h
  · rename_i c hc
    simp only [answers, List.filterMap_cons, List.filterMap_nil, List.mem_singleton] at h
    subst h
    exact ⟨hc, rfl⟩

theorem known_step {cfg : Config} {s s' : Sys} {outs : List Out} {a : Act} {o : List Out} (hT : Typed s) (hd : Did cfg s a s' o)
    (h : Known s outs) : Known s' (outs ++ o) := by
  have mono : ∀ c, c ∈ testers outs → c ∈ testers (outs ++ o) := by
    intro c hc; rw [testers_append]; exact List.mem_append_left _ hc
  -- the common case
  have base : (∀ c ∈ s'.reading, c ∈ s.reading) → s'.answers = s.answers → (∀ c k, .command c k ∈ s'.tasks → .command c k ∈ s.tasks) →
      (∀ c k, s'.task = some (.task (.command c k)) → s.task = some (.task (.command c k)) ∨ .command c k ∈ s.tasks) → answers o = [] →
      Known s' (outs ++ o) := by
    intro e1 e2 e3 e4 e5
    refine ⟨fun c hc => mono c (h.reading c (e1 c hc)), fun c hc => mono c (h.answers c (e2 ▸ hc)),
      fun c k hc => mono c (h.tasks c k (e3 c k hc)), fun c k hc => ?_, ?_⟩
    · rcases e4 c k hc with h1 | h1
      · exact mono c (h.task c k h1)
      · exact mono c (h.tasks c k h1)
    · intro e he
      rw [answers_append, e5, List.append_nil] at he
      exact ⟨mono _ (h.answered e he).1, fun c hc => mono _ ((h.answered e he).2 c hc)⟩
  cases hd with
  | connect | leave | boot | accept => exact base (fun _ h => h) rfl (fun _ _ h => h) (fun _ _ h => .inl h) rfl
  | read c k hw hc =>
    refine ⟨fun c hc => mono c (h.reading c hc), fun c hc => mono c (h.answers c hc), ?_, fun c k hc => mono c (h.task c k hc), ?_⟩
    · intro c' k' hm
      rcases List.mem_append.mp hm with hm | hm
      · exact mono _ (h.tasks c' k' hm)
      · simp only [List.mem_singleton] at hm; cases hm; exact mono _ (h.reading c hc)
    · intro e he
      rw [List.append_nil] at he ⊢
      exact h.answered e he
  | shut c => exact base (fun _ h => List.mem_of_mem_erase h) rfl (fun _ _ h => h) (fun _ _ h => .inl h) rfl
  | task t ts ht0 ht =>
    refine base (fun _ h => h) rfl (fun c k h => ?_) (fun c k h => .inr ?_) rfl
    · rw [ht]; exact List.mem_cons_of_mem _ h
    · cases h; rw [ht]; exact List.mem_cons_self
  | tick l ht0 => exact base (fun _ h => h) rfl (fun _ _ h => h) (fun c k h => by cases h) rfl
  | listened t p h1 => obtain ⟨rfl, h2⟩ := hT.boot h1; exact base (fun _ h => h) rfl (fun _ _ h => h) (fun _ _ h => .inl h) rfl
  | sniffed t p h1 => obtain ⟨rfl, h2⟩ := hT.boot h1; exact base (fun _ h => h) rfl (fun _ _ h => h) (fun _ _ h => .inl h) rfl
  | booted t k m ts n b h1 h2 h3 =>
    obtain ⟨rfl, h4⟩ := hT.boot h1
    refine ⟨fun c hc => mono c (h.reading c hc), fun c hc => mono c (h.answers c hc), ?_, fun c k hc => mono c (h.task c k hc), ?_⟩
    · intro c k' hm
      rcases h3 with rfl | ⟨-, rfl⟩
      · exact mono _ (h.tasks c k' hm)
      · rcases List.mem_append.mp hm with hm | hm
        · exact mono _ (h.tasks c k' hm)
        · simp at hm
    · intro e he
      rw [answers_append] at he
      rcases List.mem_append.mp he with he | he
      · exact ⟨mono _ (h.answered e he).1, fun c hc => mono _ ((h.answered e he).2 c hc)⟩
      · obtain ⟨g1, g2⟩ := answer_some he
        exact ⟨mono _ (h.answers _ g1), fun c hc => by rw [g2] at hc; cases hc⟩
  | commanded t c k m ts n b h0 h1 h2 h3 =>
    obtain ⟨rfl, h4⟩ := hT.taskOf h1
    refine ⟨fun c hc => mono c (h.reading c hc), fun c hc => mono c (h.answers c hc), ?_, fun c k hc => (by cases hc), ?_⟩
    · intro c k' hm
      rcases h3 with rfl | ⟨-, rfl⟩
      · exact mono _ (h.tasks c k' hm)
      · rcases List.mem_append.mp hm with hm | hm
        · exact mono _ (h.tasks c k' hm)
        · simp at hm
    · intro e he
      rw [answers_append] at he
      rcases List.mem_append.mp he with he | he
      · exact ⟨mono _ (h.answered e he).1, fun c hc => mono _ ((h.answered e he).2 c hc)⟩
      · obtain ⟨g1, g2⟩ := answer_some he
        refine ⟨mono _ (h.answers _ g1), fun c' hc => ?_⟩
        rw [g2] at hc
        cases hc
        exact mono _ (h.task c k h4)
  | controller t c m h1 => obtain ⟨rfl, h2⟩ := hT.taskOf h1; exact base (fun _ h => h) rfl (fun _ _ h => h) (fun _ _ h => by cases h) rfl
  | closed t d h1 =>
    obtain ⟨rfl, h2⟩ := hT.taskOf h1
    exact base (fun _ h => h) rfl (fun _ _ h => List.mem_of_mem_filter h) (fun _ _ h => by cases h) rfl
  | already t d h1 => obtain ⟨rfl, h2⟩ := hT.taskOf h1; exact base (fun _ h => h) rfl (fun _ _ h => h) (fun _ _ h => by cases h) rfl
  | ended t c h1 => obtain ⟨rfl, h2⟩ := hT.taskOf h1; exact base (fun _ h => h) rfl (fun _ _ h => h) (fun _ _ h => by cases h) rfl
  | cleared t m h1 => obtain ⟨rfl, h2⟩ := hT.taskOf h1; exact base (fun _ h => h) rfl (fun _ _ h => h) (fun _ _ h => by cases h) rfl
  | admitted t i c h1 =>
    obtain ⟨rfl, h2⟩ := hT.accept h1
    refine base (fun _ h => h) rfl (fun c k h => ?_) (fun _ _ h => .inl h) rfl
    rcases List.mem_append.mp h with h | h
    · exact h
    · simp at h
  | joined t p c u m h1 => obtain ⟨rfl, h2⟩ := hT.accept h1; exact base (fun _ h => h) rfl (fun _ _ h => h) (fun _ _ h => .inl h) rfl
  | refused t c h1 => obtain ⟨rfl, h2⟩ := hT.accept h1; exact base (fun _ h => h) rfl (fun _ _ h => h) (fun _ _ h => .inl h) rfl
  | greeted t c h1 =>
    obtain ⟨rfl, h2⟩ := hT.accept h1
    have hc : c ∈ testers (outs ++ [.greeted c]) := by rw [testers_append]; exact List.mem_append_right _ (by simp [testers])
    refine ⟨?_, ?_, fun c k hc => mono c (h.tasks c k hc), fun c k hc => mono c (h.task c k hc), ?_⟩
    · intro x hx
      rcases List.mem_append.mp hx with hx | hx
      · exact mono _ (h.reading x hx)
      · simp only [List.mem_singleton] at hx; subst hx; exact hc
    · rintro x ⟨⟩; exact hc
    · intro e he
      rw [answers_append] at he
      simp only [answers, List.filterMap_cons, List.filterMap_nil, List.append_nil] at he
      exact ⟨mono _ (h.answered e he).1, fun c hc => mono _ ((h.answered e he).2 c hc)⟩
  | ticked t l h1 =>
    obtain ⟨rfl, h2⟩ := hT.tickOf h1
    refine base (fun _ h => h) rfl (fun c k h => ?_) (fun _ _ h => by cases h) rfl
    rcases List.mem_append.mp h with h | h
    · exact h
    · simp at h

/-! ## Departures -/

/-- The device is gone for good, or its removal is under way. -/
def Leaving (d : Nat) (s : Sys) : Prop :=
  Used d s.model ∧ (¬ Present s.model d ∨ .closed d ∈ s.tasks ∨ s.task = some (.task (.closed d)) ∨ ∃ l, s.task = some (.tick l) ∧ d ∈ l)

theorem leaving_step {cfg : Config} {k d : Nat} {s s' : Sys} {outs : List Out} {a : Act} {o : List Out} (hk : k + 1 < 2 ^ 30)
    (hi : Inv k s outs) (hd : Did cfg s a s' o) (h : Leaving d s) : Leaving d s' := by
  refine ⟨used_step hk hi.phy h.1 hd, ?_⟩
  by_cases hp : Present s.model d
  · have h := h.2
    have hT := hi.typed
    rcases h with h | h
    · exact absurd hp h
    · cases hd with
      | connect | leave | boot | accept | shut => exact .inr h
      | read =>
        rcases h with h | h
        · exact .inr (.inl (List.mem_append_left _ h))
        · exact .inr (.inr h)
      | task t ts ht0 ht =>
        rcases h with h | h | ⟨l, h, -⟩
        · rw [ht] at h
          rcases List.mem_cons.mp h with h | h
          · subst h; exact .inr (.inr (.inl rfl))
          · exact .inr (.inl h)
        · rw [ht0] at h; cases h
        · rw [ht0] at h; cases h
      | tick l ht0 =>
        rcases h with h | h | ⟨l, h, -⟩
        · exact .inr (.inl h)
        · rw [ht0] at h; cases h
        · rw [ht0] at h; cases h
      | listened t p h1 => obtain ⟨rfl, h2⟩ := hT.boot h1; exact .inr h
      | sniffed t p h1 => obtain ⟨rfl, h2⟩ := hT.boot h1; exact .inr h
      | booted t k m ts n b h1 h2 h3 =>
        obtain ⟨rfl, h4⟩ := hT.boot h1
        rcases h with h | h
        · rcases h3 with rfl | ⟨-, rfl⟩
          · exact .inr (.inl h)
          · exact .inr (.inl (List.mem_append_left _ h))
        · exact .inr (.inr h)
      | commanded t c k m ts n b h0 h1 h2 h3 =>
        obtain ⟨rfl, h4⟩ := hT.taskOf h1
        rcases h with h | h | ⟨l, h, -⟩
        · rcases h3 with rfl | ⟨-, rfl⟩
          · exact .inr (.inl h)
          · exact .inr (.inl (List.mem_append_left _ h))
        · rw [h4] at h; cases h
        · rw [h4] at h; cases h
      | controller t c m h1 =>
        obtain ⟨rfl, h4⟩ := hT.taskOf h1
        rcases h with h | h | ⟨l, h, -⟩
        · exact .inr (.inl h)
        · rw [h4] at h; cases h
        · rw [h4] at h; cases h
      | closed t e h1 h2 =>
        obtain ⟨rfl, h4⟩ := hT.taskOf h1
        by_cases hed : d = e
        · subst hed
          exact .inl (fun hx => (((Phy.removeDevice_spec hi.phy d).2.2.1 d).mp hx).2 rfl)
        · rcases h with h | h | ⟨l, h, -⟩
          · exact .inr (.inl (List.mem_filter.mpr ⟨h, by simpa using hed⟩))
          · rw [h4] at h; cases h; exact absurd rfl hed
          · rw [h4] at h; cases h
      | already t e h1 h2 =>
        obtain ⟨rfl, h4⟩ := hT.taskOf h1
        rcases h with h | h | ⟨l, h, -⟩
        · exact .inr (.inl h)
        · rw [h4] at h; cases h
          rw [(Phy.hasDev_iff s.model d).mpr hp] at h2; cases h2
        · rw [h4] at h; cases h
      | ended t c h1 =>
        obtain ⟨rfl, h4⟩ := hT.taskOf h1
        rcases h with h | h | ⟨l, h, -⟩
        · exact .inr (.inl h)
        · rw [h4] at h; cases h
        · rw [h4] at h; cases h
      | cleared t m h1 =>
        obtain ⟨rfl, h4⟩ := hT.taskOf h1
        rcases h with h | h | ⟨l, h, -⟩
        · exact .inr (.inl h)
        · rw [h4] at h; cases h
        · rw [h4] at h; cases h
      | admitted t i c h1 =>
        obtain ⟨rfl, h4⟩ := hT.accept h1
        rcases h with h | h
        · exact .inr (.inl (List.mem_append_left _ h))
        · exact .inr (.inr h)
      | joined t p c u m h1 => obtain ⟨rfl, h4⟩ := hT.accept h1; exact .inr h
      | refused t c h1 => obtain ⟨rfl, h4⟩ := hT.accept h1; exact .inr h
      | greeted t c h1 => obtain ⟨rfl, h4⟩ := hT.accept h1; exact .inr h
      | ticked t l h1 =>
        obtain ⟨rfl, h4⟩ := hT.tickOf h1
        rcases h with h | h | ⟨l', h, hl⟩
        · exact .inr (.inl (List.mem_append_left _ h))
        · rw [h4] at h; cases h
        · rw [h4] at h; cases h
          exact .inr (.inl (List.mem_append_right _ (List.mem_map.mpr ⟨d, hl, rfl⟩)))
  · exact .inl (gone_step hk hi.phy h.1 hp hd)

/-! ## Devices that stay -/

theorem present_ops {cfg : Config} {k d : Nat} {m m' : Phy.Model} {c : Cmd} (h : Phy.Inv k m) (hk : k + 2 < 2 ^ 32) (hc : c ≠ .del d)
    (hr : Phy.run cfg m (c.ops m) = some m') (hp : Present m d) : Present m' d := by
  cases c with
  | add a =>
    simp only [Cmd.ops, Phy.run, Option.bind_eq_some_iff, Option.some.injEq] at hr
    obtain ⟨m1, h1, m2, h2, rfl⟩ := hr
    have i1 := Phy.inv_step h (by omega) _ h1
    simp only [Phy.step, Option.some.injEq] at h1
    have hp1 : Present m1 d := by subst h1; exact hp
    have hl : m.nextDev ∈ m1.loose.map (·.1) := by subst h1; simp
    obtain ⟨a₀, ha₀⟩ := Phy.looseAddr_some hl
    simp only [Phy.step, ha₀, Option.some.injEq] at h2
    subst h2
    exact (Phy.addDevice_present (i1.disj _ hl) d).mpr (.inl hp1)
  | del e =>
    simp only [Cmd.ops, Phy.run, Phy.step, Option.bind_eq_some_iff, Option.some.injEq] at hr
    obtain ⟨m1, h1, rfl⟩ := hr
    subst h1
    refine ((Phy.removeDevice_spec h e).2.2.1 d).mpr ⟨hp, ?_⟩
    rintro rfl
    exact hc rfl
  | addPhy t =>
    simp only [Cmd.ops, Phy.run, Phy.step, Option.bind_eq_some_iff, Option.some.injEq] at hr
    obtain ⟨m1, h1, rfl⟩ := hr
    subst h1
    exact ((Phy.addPhy_spec h (by omega) t).2.2.1 d).mpr hp
  | delPhy p =>
    simp only [Cmd.ops, Phy.run, Phy.step, Option.bind_eq_some_iff, Option.some.injEq] at hr
    obtain ⟨m1, h1, rfl⟩ := hr
    subst h1
    exact ((Phy.removePhy_spec h p).2.2.1 d).mpr hp
  | attach e p =>
    simp only [Cmd.ops, Phy.run, Phy.step, Option.bind_eq_some_iff, Option.some.injEq] at hr
    obtain ⟨m1, h1, rfl⟩ := hr
    subst h1
    exact ((Phy.addDeviceToPhy_spec h e p).2.1.present d).mpr hp
  | detach e p =>
    simp only [Cmd.ops, Phy.run, Phy.step, Option.bind_eq_some_iff, Option.some.injEq] at hr
    obtain ⟨m1, h1, rfl⟩ := hr
    subst h1
    exact ((Phy.removeDeviceFromPhy_spec h e p).2.1.present d).mpr hp
  | setAddress e a =>
    simp only [Cmd.ops, Phy.run, Phy.step, Option.bind_eq_some_iff, Option.some.injEq] at hr
    obtain ⟨m1, h1, rfl⟩ := hr
    subst h1
    rw [Phy.present_ids] at hp ⊢
    have := Phy.modDev_map e (fun x => { x with addr := a }) (fun x : Phy.Dev => x.id) (fun _ => rfl) m.devs
    exact this ▸ hp
  | startTimer | stopTimer | reset | endSimulation | other =>
    simp only [Cmd.ops, Phy.run, Option.some.injEq] at hr
    subst hr
    exact hp

theorem inj_of_nodup {α β : Type} {f : α → β} : ∀ {l : List α}, (l.map f).Nodup → ∀ {x y : α}, x ∈ l → y ∈ l → f x = f y → x = y := by
  intro l
  induction l with
  | nil => intro _ x y hx; cases hx
  | cons a l ih =>
    intro hn x y hx hy he
    rw [List.map_cons, List.nodup_cons] at hn
    rcases List.mem_cons.mp hx with hx | hx
    · rcases List.mem_cons.mp hy with hy | hy
      · rw [hx, hy]
      · exact absurd (List.mem_map.mpr ⟨y, hy, by rw [← he, hx]⟩) hn.1
    · rcases List.mem_cons.mp hy with hy | hy
      · exact absurd (List.mem_map.mpr ⟨x, hx, by rw [he, hy]⟩) hn.1
      · exact ih hn.2 hx hy he

/-- The removal of the device is under way. -/
def Closing (d : Nat) (s : Sys) : Prop :=
  .closed d ∈ s.tasks ∨ s.task = some (.task (.closed d)) ∨ ∃ l, s.task = some (.tick l) ∧ d ∈ l

/-- A task that removes the device, without its client having gone. -/
def Task.hostile (d : Nat) : Task → Prop
  | .command _ k => k = .del d ∨ k = .reset
  | .clear => True
  | _ => False

def Boot.hostile (d : Nat) : Boot → Prop
  | .command k => k = .del d ∨ k = .reset
  | _ => False

structure Stays (d : Nat) (s : Sys) (outs : List Out) : Prop where
  here : ∀ c, (c, d) ∈ standins outs → c ∉ s.gone → Present s.model d
  closing : Closing d s → Used d s.model ∧ ∀ c, (c, d) ∈ standins outs → c ∈ s.gone
  tasks : ∀ t ∈ s.tasks, ¬ t.hostile d
  task : ∀ t, s.task = some (.task t) → ¬ t.hostile d
  boot : ∀ b ∈ s.boot, ¬ b.hostile d
  main : ∀ b, s.main = some (.boot b) → ¬ b.hostile d

theorem stays_init (n : Nat) (b : Bool) (d : Nat) : Stays d (Sys.init n b) [] := by
  refine ⟨by simp [standins], ?_, by simp [Sys.init], by simp [Sys.init], ?_, by simp [Sys.init]⟩
  · rintro (h | h | ⟨l, h, -⟩) <;> simp [Sys.init] at h
  · intro x hx
    simp only [Sys.init, bootSteps, List.mem_append, List.mem_map, List.mem_range] at hx
    rcases hx with (hx | ⟨i, -, rfl⟩) | hx
    · simp only [List.mem_cons, List.not_mem_nil, or_false] at hx
      rcases hx with rfl | rfl | rfl | rfl | rfl | rfl | rfl | rfl | rfl | rfl <;> simp [Boot.hostile]
    · simp [Boot.hostile]
    · split at hx
      · simp only [List.mem_singleton] at hx; subst hx; simp [Boot.hostile]
      · cases hx

theorem mem_standins {s : Sys} {outs : List Out} {k : Nat} (hi : Inv k s outs) {c d : Nat} (h : (c, d) ∈ standins outs) : Used d s.model := by
  rw [← hi.socks] at h
  obtain ⟨x, hx, he⟩ := List.mem_map.mp h
  cases he
  exact hi.used x hx

theorem stays_step {cfg : Config} {k d : Nat} {s s' : Sys} {outs : List Out} {a : Act} {o : List Out} (hk : k + 1 < 2 ^ 30)
    (hq : ∀ c, a ≠ .read c (some (.del d)) ∧ a ≠ .read c (some .reset)) (hi : Inv k s outs) (h : Stays d s outs)
    (hd : Did cfg s a s' o) : Stays d s' (outs ++ o) := by
  have hT := hi.typed
  -- steps that add nobody and keep what is there
  have keep : standins o = [] → (∀ c, c ∈ s.gone → c ∈ s'.gone) → (Present s.model d → Present s'.model d) → (Used d s.model → Used d s'.model) →
      (Closing d s' → Closing d s) → (∀ t ∈ s'.tasks, ¬ t.hostile d) → (∀ t, s'.task = some (.task t) → ¬ t.hostile d) →
      (∀ b ∈ s'.boot, ¬ b.hostile d) → (∀ b, s'.main = some (.boot b) → ¬ b.hostile d) → Stays d s' (outs ++ o) := by
    intro e1 e2 e3 e4 e5 e6 e7 e8 e9
    refine ⟨?_, ?_, e6, e7, e8, e9⟩
    · intro c hc hg
      rw [standins_append, e1, List.append_nil] at hc
      exact e3 (h.here c hc (fun hx => hg (e2 c hx)))
    · intro hx
      obtain ⟨g1, g2⟩ := h.closing (e5 hx)
      refine ⟨e4 g1, fun c hc => ?_⟩
      rw [standins_append, e1, List.append_nil] at hc
      exact e2 c (g2 c hc)
  have hu : Used d s.model → Used d s'.model := fun hu => used_step hk hi.phy hu hd
  -- steps that add a client
  have new : ∀ c, standins o = [(c, s.model.nextDev)] → s'.gone = s.gone → (∀ x, Present s'.model x ↔ Present s.model x ∨ x = s.model.nextDev) →
      (Closing d s' → Closing d s) → (∀ t ∈ s'.tasks, ¬ t.hostile d) → (∀ t, s'.task = some (.task t) → ¬ t.hostile d) →
      (∀ b ∈ s'.boot, ¬ b.hostile d) → (∀ b, s'.main = some (.boot b) → ¬ b.hostile d) → Stays d s' (outs ++ o) := by
    intro c e1 e2 e3 e5 e6 e7 e8 e9
    refine ⟨?_, ?_, e6, e7, e8, e9⟩
    · intro x hx hg
      rw [standins_append, e1] at hx
      rcases List.mem_append.mp hx with hx | hx
      · rw [e2] at hg; exact (e3 d).mpr (.inl (h.here x hx hg))
      · simp only [List.mem_singleton] at hx; cases hx; exact (e3 _).mpr (.inr rfl)
    · intro hx
      obtain ⟨g1, g2⟩ := h.closing (e5 hx)
      refine ⟨hu g1, fun x hx => ?_⟩
      rw [standins_append, e1] at hx
      rcases List.mem_append.mp hx with hx | hx
      · rw [e2]; exact g2 x hx
      · simp only [List.mem_singleton] at hx
        cases hx
        exact absurd g1.1 (Nat.lt_irrefl _)
  cases hd with
  | connect p => exact keep rfl (fun _ h => h) (fun h => h) hu (fun h => h) h.tasks h.task h.boot h.main
  | leave c => exact keep rfl (fun _ h => List.mem_append_left _ h) (fun h => h) hu (fun h => h) h.tasks h.task h.boot h.main
  | boot b bs hm hb hw =>
    refine keep rfl (fun _ h => h) (fun h => h) hu (fun h => h) h.tasks h.task (fun x hx => h.boot x ?_) ?_
    · rw [hb]; exact List.mem_cons_of_mem _ hx
    · rintro x ⟨⟩; exact h.boot b (by rw [hb]; exact List.mem_cons_self)
  | accept => exact keep rfl (fun _ h => h) (fun h => h) hu (fun h => h) h.tasks h.task h.boot h.main
  | read c k hw hc =>
    refine keep rfl (fun _ h => h) (fun h => h) hu ?_ ?_ h.task h.boot h.main
    · rintro (hx | hx)
      · refine .inl ?_
        rcases List.mem_append.mp hx with hx | hx
        · exact hx
        · simp at hx
      · exact .inr hx
    · intro t ht
      rcases List.mem_append.mp ht with ht | ht
      · exact h.tasks t ht
      · simp only [List.mem_singleton] at ht
        subst ht
        rintro (rfl | rfl)
        · exact (hq c).1 rfl
        · exact (hq c).2 rfl
  | shut => exact keep rfl (fun _ h => h) (fun h => h) hu (fun h => h) h.tasks h.task h.boot h.main
  | task t ts ht0 ht =>
    refine keep rfl (fun _ h => h) (fun h => h) hu ?_ (fun x hx => h.tasks x ?_) ?_ h.boot h.main
    · rintro (hx | hx | ⟨l, hx, -⟩)
      · exact .inl (by rw [ht]; exact List.mem_cons_of_mem _ hx)
      · cases hx; exact .inl (by rw [ht]; exact List.mem_cons_self)
      · cases hx
    · rw [ht]; exact List.mem_cons_of_mem _ hx
    · rintro x ⟨⟩; exact h.tasks t (by rw [ht]; exact List.mem_cons_self)
  | tick l ht0 ht hdf hm hw =>
    refine ⟨?_, ?_, h.tasks, fun t ht => (by cases ht), h.boot, h.main⟩
    · rw [List.append_nil]; exact h.here
    · rw [List.append_nil]
      rintro (hx | hx | ⟨l', hx, hl⟩)
      · exact h.closing (.inl hx)
      · cases hx
      · cases hx
        have := hdf d hl
        simp only [deaf, List.any_eq_true, Bool.and_eq_true, decide_eq_true_eq] at this
        obtain ⟨x, hx, ⟨hxd, -⟩, hg⟩ := this
        refine ⟨hxd ▸ hi.used x hx, ?_⟩
        intro c hc
        rw [← hi.socks] at hc
        obtain ⟨y, hy, he⟩ := List.mem_map.mp hc
        cases he
        have : x = y := inj_of_nodup hi.distinct hx hy hxd
        subst this
        exact hg
  | listened t p h1 => obtain ⟨rfl, h2⟩ := hT.boot h1; exact keep rfl (fun _ h => h) (fun h => h) hu (fun h => h) h.tasks h.task h.boot (fun b hb => by cases hb)
  | sniffed t m h1 h2 =>
    obtain ⟨rfl, h3⟩ := hT.boot h1
    exact keep rfl (fun _ h => h) (fun h => ((newLinkDevice_spec hi.phy (by omega) h2).2.1 d).mpr (.inl h)) hu (fun h => h) h.tasks h.task h.boot
      (fun b hb => by cases hb)
  | booted t c m ts n b h1 h2 h3 =>
    obtain ⟨rfl, h4⟩ := hT.boot h1
    have hh := h.main _ h4
    have h3 : ts = s.tasks := by
      rcases h3 with h3 | ⟨h3, -⟩
      · exact h3
      · exact absurd (.inr h3) hh
    subst h3
    exact keep (answer_none s _).2.2.1 (fun _ h => h) (present_ops hi.phy (by omega) (fun e => hh (.inl e)) h2) hu (fun h => h) h.tasks h.task h.boot
      (fun b hb => by cases hb)
  | commanded t c k m ts n b h0 h1 h2 h3 =>
    obtain ⟨rfl, h4⟩ := hT.taskOf h1
    have hh := h.task _ h4
    have h3 : ts = s.tasks := by
      rcases h3 with h3 | ⟨h3, -⟩
      · exact h3
      · exact absurd (.inr h3) hh
    subst h3
    refine keep (answer_none s _).2.2.1 (fun _ h => h) (present_ops hi.phy (by omega) (fun e => hh (.inl e)) h2) hu ?_ h.tasks
      (fun b hb => by cases hb) h.boot h.main
    rintro (hx | hx | ⟨l, hx, -⟩)
    · exact .inl hx
    · cases hx
    · cases hx
  | controller t c m h1 h2 =>
    obtain ⟨rfl, h4⟩ := hT.taskOf h1
    refine new c rfl rfl (newController_spec hi.phy (by omega) h2).2.1 ?_ h.tasks (fun b hb => by cases hb) h.boot h.main
    rintro (hx | hx | ⟨l, hx, -⟩)
    · exact .inl hx
    · cases hx
    · cases hx
  | closed t e h1 h2 =>
    obtain ⟨rfl, h4⟩ := hT.taskOf h1
    have hcl : Closing d { free s .tasks with model := Phy.removeDevice s.model e, tasks := s.tasks.filter (· ≠ .closed e) } → Closing d s := by
      rintro (hx | hx | ⟨l, hx, -⟩)
      · exact .inl (List.mem_of_mem_filter hx)
      · cases hx
      · cases hx
    by_cases hed : d = e
    · subst hed
      obtain ⟨g1, g2⟩ := h.closing (.inr (.inl h4))
      refine ⟨?_, ?_, fun t ht => h.tasks t (List.mem_of_mem_filter ht), fun b hb => (by cases hb), h.boot, h.main⟩
      · intro c hc hg
        rw [List.append_nil] at hc
        exact absurd (g2 c hc) hg
      · intro _
        rw [List.append_nil]
        exact ⟨hu g1, g2⟩
    · exact keep rfl (fun _ h => h) (fun h => ((Phy.removeDevice_spec hi.phy e).2.2.1 d).mpr ⟨h, hed⟩) hu hcl
        (fun t ht => h.tasks t (List.mem_of_mem_filter ht)) (fun b hb => by cases hb) h.boot h.main
  | already t e h1 h2 =>
    obtain ⟨rfl, h4⟩ := hT.taskOf h1
    refine keep rfl (fun _ h => h) (fun h => h) hu ?_ h.tasks (fun b hb => by cases hb) h.boot h.main
    rintro (hx | hx | ⟨l, hx, -⟩)
    · exact .inl hx
    · cases hx
    · cases hx
  | ended t c h1 =>
    obtain ⟨rfl, h4⟩ := hT.taskOf h1
    refine keep rfl (fun _ h => h) (fun h => h) hu ?_ h.tasks (fun b hb => by cases hb) h.boot h.main
    rintro (hx | hx | ⟨l, hx, -⟩)
    · exact .inl hx
    · cases hx
    · cases hx
  | cleared t m h1 => obtain ⟨rfl, h4⟩ := hT.taskOf h1; exact absurd trivial (h.task _ h4)
  | admitted t i c h1 =>
    obtain ⟨rfl, h4⟩ := hT.accept h1
    refine keep rfl (fun _ h => h) (fun h => h) hu ?_ ?_ h.task h.boot h.main
    · rintro (hx | hx)
      · refine .inl ?_
        rcases List.mem_append.mp hx with hx | hx
        · exact hx
        · simp at hx
      · exact .inr hx
    · intro t ht
      rcases List.mem_append.mp ht with ht | ht
      · exact h.tasks t ht
      · simp only [List.mem_singleton] at ht; subst ht; exact fun h => h
  | joined t p c u m h1 h2 h3 =>
    obtain ⟨rfl, h4⟩ := hT.accept h1
    exact new c rfl rfl (newLinkDevice_spec hi.phy (by omega) h3).2.1 (fun h => h) h.tasks h.task h.boot h.main
  | refused t c h1 => obtain ⟨rfl, h4⟩ := hT.accept h1; exact keep rfl (fun _ h => h) (fun h => h) hu (fun h => h) h.tasks h.task h.boot h.main
  | greeted t c h1 => obtain ⟨rfl, h4⟩ := hT.accept h1; exact keep rfl (fun _ h => h) (fun h => h) hu (fun h => h) h.tasks h.task h.boot h.main
  | ticked t l h1 =>
    obtain ⟨rfl, h4⟩ := hT.tickOf h1
    refine keep rfl (fun _ h => h) (fun h => h) hu ?_ ?_ (fun b hb => by cases hb) h.boot h.main
    · rintro (hx | hx | ⟨l', hx, -⟩)
      · rcases List.mem_append.mp hx with hx | hx
        · exact .inl hx
        · obtain ⟨e, he, hee⟩ := List.mem_map.mp hx
          cases hee
          exact .inr (.inr ⟨l, h4, he⟩)
      · cases hx
      · cases hx
    · intro t ht
      rcases List.mem_append.mp ht with ht | ht
      · exact h.tasks t ht
      · obtain ⟨e, -, rfl⟩ := List.mem_map.mp ht; exact fun h => h

end Verif.Env
