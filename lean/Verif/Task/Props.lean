import Verif.Task.Lemmas
/-!
# C38: the task queue of the controllers
-/

namespace Verif.Task

/-- How often the task of the scheduling call number `serial` was called. -/
def timesCalled (serial : Nat) (log : List Event) : Nat := (log.filter (fun e => e.task.serial == serial)).length

/-! ## Never early, and in order -/

/-- Facts about the clock. -/
structure Clocked (m : M) : Prop where
  log : ∀ e ∈ m.log, e.task.time ≤ e.at_ ∧ e.at_ ≤ m.clock
  loop : ∀ now, m.phase = .loop now → now ≤ m.clock
  callback : ∀ now t, m.phase = .callback now t → now ≤ m.clock

theorem clocked_step {m m' : M} {a : Action} (hc : Clocked m) (h : step m a = some m') : Clocked m' := by
  cases a <;> simp only [step] at h
  case wait d =>
    cases h
    refine ⟨fun e he => ⟨(hc.log e he).1, ?_⟩, fun n hn => ?_, fun n t hn => ?_⟩
    · have := (hc.log e he).2; simp only; omega
    · have := hc.loop n hn; simp only; omega
    · have := hc.callback n t hn; simp only; omega
  case schedule =>
    split at h
    · cases h
    · cases h; exact ⟨hc.log, hc.loop, hc.callback⟩
  case cancel => cases h; exact ⟨hc.log, hc.loop, hc.callback⟩
  case run =>
    split at h
    · cases h
      refine ⟨hc.log, fun n hn => ?_, fun n t hn => ?_⟩
      · cases hn; exact Int.le_refl _
      · cases hn
    · cases h
  case pick =>
    split at h
    · rename_i now t q hph hq
      split at h
      · cases h
      · rename_i hle
        cases h
        have hl := hc.loop now hph
        refine ⟨fun e he => ?_, fun n hn => (nomatch hn), fun n y hn => ?_⟩
        · rcases List.mem_append.1 he with he | he
          · exact hc.log e he
          · rw [List.mem_singleton] at he; subst he
            simp only; omega
        · cases hn; exact hl
    · cases h
  case finish =>
    split at h
    · rename_i now t hph
      have hl := hc.callback now t hph
      split at h
      · cases h; exact ⟨hc.log, fun n hn => by cases hn; exact hl, fun n y hn => (nomatch hn)⟩
      · cases h; exact ⟨hc.log, fun n hn => by cases hn; exact hl, fun n y hn => (nomatch hn)⟩
    · cases h
  case done =>
    split at h
    · cases h; exact ⟨hc.log, fun n hn => (nomatch hn), fun n y hn => (nomatch hn)⟩
    · split at h
      · cases h; exact ⟨hc.log, fun n hn => (nomatch hn), fun n y hn => (nomatch hn)⟩
      · cases h
    · cases h

/-- **C38 (never early).** No task is called before its due time. -/
theorem C38_never_early {c : Int} {as : List Action} {m : M} (h : runs as (initial c) = some m) :
    ∀ e ∈ m.log, e.task.time ≤ e.at_ := by
  have : Clocked m := runs_invariant (fun _ _ _ => clocked_step) as
    (by constructor <;> simp [initial]) h
  exact fun e he => (this.log e he).1

/-- Delays and periods are not negative. -/
def Action.sensible : Action → Prop
  | .schedule delay period => 0 ≤ delay ∧ ∀ p, period = some p → 0 ≤ p
  | _ => True

/-- The order of the callbacks, and of what is still to come. -/
structure Ordered (m : M) : Prop where
  log : m.log.Pairwise (fun a b => a.task.time ≤ b.task.time)
  queue : ∀ e ∈ m.log, ∀ t ∈ m.queue, e.task.time ≤ t.time
  clock : ∀ e ∈ m.log, e.task.time ≤ m.clock
  loop : ∀ now, m.phase = .loop now → now ≤ m.clock ∧ ∀ e ∈ m.log, e.task.time ≤ now
  callback : ∀ now t, m.phase = .callback now t → now ≤ m.clock ∧ (∀ e ∈ m.log, e.task.time ≤ now) ∧
    ∀ p, t.period = some p → 0 ≤ p
  periods : ∀ t ∈ m.queue, ∀ p, t.period = some p → 0 ≤ p
  sorted : m.queue.Pairwise (fun a b => a.time ≤ b.time)

theorem insert_times {t : Task} (q : List Task) (hs : q.Pairwise (fun a b => a.time ≤ b.time)) :
    (insert t q).Pairwise (fun a b => a.time ≤ b.time) := by
  induction q with
  | nil => exact List.pairwise_singleton _ _
  | cons x q ih =>
    have hp := List.pairwise_cons.1 hs
    simp only [insert]
    split
    · rename_i h1
      refine List.pairwise_cons.2 ⟨fun y hy => ?_, hs⟩
      have := lt_le h1
      rcases List.mem_cons.1 hy with rfl | hy
      · exact this
      · have := hp.1 y hy; omega
    · split
      · rename_i h1
        refine List.pairwise_cons.2 ⟨fun y hy => ?_, ih hp.2⟩
        rcases insert_subset t q y hy with rfl | hy
        · exact lt_le h1
        · exact hp.1 y hy
      · exact hs

theorem ordered_step {m m' : M} {a : Action} (ha : a.sensible) (hc : Ordered m) (h : step m a = some m') :
    Ordered m' := by
  cases a <;> simp only [step] at h
  case wait d =>
    cases h
    refine ⟨hc.log, hc.queue, fun e he => ?_, fun n hn => ⟨?_, (hc.loop n hn).2⟩,
      fun n t hn => ⟨?_, (hc.callback n t hn).2⟩, hc.periods, hc.sorted⟩
    · have := hc.clock e he; simp only; omega
    · have := (hc.loop n hn).1; simp only; omega
    · have := (hc.callback n t hn).1; simp only; omega
  case schedule delay period =>
    split at h
    · cases h
    · cases h
      refine ⟨hc.log, fun e he t ht => ?_, hc.clock, hc.loop, hc.callback, fun t ht p hp => ?_, insert_times _ hc.sorted⟩
      · rcases insert_subset _ _ t ht with rfl | ht
        · have := hc.clock e he; have := ha.1; simp only; omega
        · exact hc.queue e he t ht
      · rcases insert_subset _ _ t ht with rfl | ht
        · exact ha.2 p hp
        · exact hc.periods t ht p hp
  case cancel k =>
    cases h
    have hsub := cancel_sublist k m.queue
    exact ⟨hc.log, fun e he t ht => hc.queue e he t (hsub.subset ht), hc.clock, hc.loop, hc.callback,
      fun t ht => hc.periods t (hsub.subset ht), hc.sorted.sublist hsub⟩
  case run =>
    split at h
    · cases h
      refine ⟨hc.log, hc.queue, hc.clock, fun n hn => ?_, fun n t hn => (nomatch hn), hc.periods, hc.sorted⟩
      cases hn; exact ⟨Int.le_refl _, hc.clock⟩
    · cases h
  case pick =>
    split at h
    · rename_i now t q hph hq
      split at h
      · cases h
      · rename_i hle
        cases h
        obtain ⟨l1, l2⟩ := hc.loop now hph
        have hs := hc.sorted
        have hqueue := hc.queue
        have hper := hc.periods
        rw [hq] at hs hqueue hper
        obtain ⟨s1, s2⟩ := List.pairwise_cons.1 hs
        refine ⟨?_, fun e he y hy => ?_, fun e he => ?_, fun n hn => (nomatch hn), fun n y hn => ?_,
          fun y hy => hper y (List.mem_cons_of_mem _ hy), s2⟩
        · refine List.pairwise_append.2 ⟨hc.log, List.pairwise_singleton _ _, fun e he e' he' => ?_⟩
          rw [List.mem_singleton] at he'; subst he'
          exact hqueue e he t List.mem_cons_self
        · rcases List.mem_append.1 he with he | he
          · exact hqueue e he y (List.mem_cons_of_mem _ hy)
          · rw [List.mem_singleton] at he; subst he; exact s1 y hy
        · rcases List.mem_append.1 he with he | he
          · exact hc.clock e he
          · rw [List.mem_singleton] at he; subst he; simp only; omega
        · cases hn
          refine ⟨l1, fun e he => ?_, hper t List.mem_cons_self⟩
          rcases List.mem_append.1 he with he | he
          · exact l2 e he
          · rw [List.mem_singleton] at he; subst he; simp only; omega
    · cases h
  case finish =>
    split at h
    · rename_i now t hph
      obtain ⟨l1, l2, l3⟩ := hc.callback now t hph
      split at h
      · cases h
        exact ⟨hc.log, hc.queue, hc.clock, fun n hn => by cases hn; exact ⟨l1, l2⟩, fun n y hn => (nomatch hn),
          hc.periods, hc.sorted⟩
      · rename_i p hp
        cases h
        have h0 := l3 p hp
        refine ⟨hc.log, fun e he y hy => ?_, hc.clock, fun n hn => by cases hn; exact ⟨l1, l2⟩,
          fun n y hn => (nomatch hn), fun y hy q hq => ?_, insert_times _ hc.sorted⟩
        · rcases insert_subset _ _ y hy with rfl | hy
          · have := l2 e he; simp only; omega
          · exact hc.queue e he y hy
        · rcases insert_subset _ _ y hy with rfl | hy
          · exact l3 q hq
          · exact hc.periods y hy q hq
    · cases h
  case done =>
    have hm : m' = { m with phase := .idle } := by
      split at h
      · cases h; rfl
      · split at h
        · cases h; rfl
        · cases h
      · cases h
    subst hm
    exact ⟨hc.log, hc.queue, hc.clock, fun n hn => (nomatch hn), fun n y hn => (nomatch hn), hc.periods, hc.sorted⟩

/-- **C38 (in order).** The callbacks come in order of their due times, over the whole
history, provided no delay and no period is negative. -/
theorem C38_in_order {c : Int} (as : List Action) (hs : ∀ a ∈ as, a.sensible) {m : M}
    (h : runs as (initial c) = some m) : m.log.Pairwise (fun a b => a.task.time ≤ b.task.time) := by
  have : ∀ (as : List Action), (∀ a ∈ as, a.sensible) → ∀ {m m' : M}, Ordered m → runs as m = some m' → Ordered m' := by
    intro as
    induction as with
    | nil => intro _ m m' h0 h; cases h; exact h0
    | cons a as ih =>
      intro hs m m' h0 h
      simp only [runs] at h
      split at h
      · cases h
      · rename_i m1 h1
        exact ih (fun b hb => hs b (List.mem_cons_of_mem _ hb)) (ordered_step (hs a List.mem_cons_self) h0 h1) h
  refine (this as hs (m := initial c) ?_ h).log
  constructor <;> simp [initial]

/-! ## One-shot tasks -/

theorem timesCalled_oneShots {m : M} (hi : Inv m) {r : Task} (hr : r ∈ m.requests) (hp : r.period = none) :
    timesCalled r.serial m.log = (m.oneShots.map (·.serial)).count r.serial := by
  have key : ∀ (l : List Event), (∀ e ∈ l, Asked m e.task) → timesCalled r.serial l =
      (((l.map (·.task)).filter (fun t => t.period.isNone)).map (·.serial)).count r.serial := by
    intro l
    induction l with
    | nil => intro _; rfl
    | cons e l ih =>
      intro hl
      have ih := ih (fun e he => hl e (List.mem_cons_of_mem _ he))
      simp only [timesCalled, List.filter_cons, List.map_cons] at ih ⊢
      by_cases he : e.task.serial = r.serial
      · have hper : e.task.period = none := by
          obtain ⟨r', h1, h2, -, h3⟩ := (hl e List.mem_cons_self).2
          rw [← h3, hi.request_eq h1 hr (by rw [h2, he]), hp]
        simp only [he, BEq.rfl, if_true, List.length_cons, hper, Option.isNone_none, List.map_cons, List.count_cons_self]
        rw [ih]
      · have hb : (e.task.serial == r.serial) = false := by simpa using he
        simp only [hb, Bool.false_eq_true, if_false]
        split
        · rw [List.map_cons, List.count_cons_of_ne he]; exact ih
        · exact ih
  exact key m.log hi.logAsked

/-- **C38 (at most once).** A one-shot task is called at most once, and for exactly the
request that was made: with its due time. -/
theorem C38_at_most_once {c : Int} {as : List Action} {m : M} (h : runs as (initial c) = some m)
    {r : Task} (hr : r ∈ m.requests) (hp : r.period = none) :
    timesCalled r.serial m.log ≤ 1 ∧ ∀ e ∈ m.log, e.task.serial = r.serial → e.task = r := by
  have hi := inv_of_runs h
  refine ⟨?_, fun e he hid => ?_⟩
  · rw [timesCalled_oneShots hi hr hp]
    exact List.nodup_iff_count.1 hi.once r.serial
  · have ha := hi.logAsked e he
    obtain ⟨r', h1, h2, -, h3⟩ := ha.2
    have : r' = r := hi.request_eq h1 hr (by rw [h2, hid])
    subst this
    exact hi.request_eq (ha.1 (by rw [← h3, hp])) hr hid

/-- **C38 (requests).** A scheduling call makes a request that is due after the delay,
and its identifier is not that of a queued task. -/
theorem C38_request {m m' : M} {delay : Int} {period : Option Int} (h : step m (.schedule delay period) = some m') :
    ∃ r, m'.requests = m.requests ++ [r] ∧ r.time = m.clock + delay ∧ r.period = period ∧ r ∈ m'.queue ∧
      r.id ≠ 0 ∧ ∀ t ∈ m.queue, t.id ≠ r.id := by
  simp only [step] at h
  split at h
  · cases h
  · rename_i id c' hid
    cases h
    obtain ⟨h0, h1⟩ := nextId_fresh hid
    exact ⟨_, rfl, rfl, rfl, (mem_insert _ h1 _).2 (Or.inl rfl), h0, fun t ht e => h1 (List.mem_map.2 ⟨t, ht, e⟩)⟩

/-- **C38 (exactly once).** When `RunPendingTasks` returns, every one-shot task that was
due when it started and that nobody has cancelled since it was scheduled has been called
exactly once. -/
theorem C38_exactly_once {c now : Int} {as : List Action} {m m' : M} (h : runs as (initial c) = some m)
    (hph : m.phase = .loop now) (hd : step m .done = some m')
    {r : Task} (hr : r ∈ m.requests) (hp : r.period = none) (hdue : r.time ≤ now) (hc : NotCancelled m r) :
    timesCalled r.serial m.log = 1 := by
  have hi := inv_of_runs h
  have hle := (C38_at_most_once h hr hp).1
  have hnot : r ∉ m.queue := by
    intro hq
    simp only [step, hph] at hd
    split at hd
    · rename_i hx hqe; rw [hqe] at hq; cases hq
    · rename_i n t q hx hqe
      cases hx
      split at hd
      · rename_i hlt
        have hs := hi.sorted
        rw [hqe] at hs hq
        rcases List.mem_cons.1 hq with rfl | hq
        · omega
        · have := lt_le ((List.pairwise_cons.1 hs).1 r hq); omega
      · cases hd
    · cases hd
  rcases hi.kept r hr hp hc with h1 | h1
  · exact absurd h1 hnot
  · rw [timesCalled_oneShots hi hr hp] at hle ⊢
    have := List.count_pos_iff.2 (List.mem_map_of_mem (f := (·.serial)) h1)
    omega

/-! ## Cancellation -/

/-- The task is neither queued nor running. -/
def Gone (k : Nat) (m : M) : Prop :=
  k < m.requests.length ∧ k ∉ m.queue.map (·.serial) ∧
    ∀ now t, m.phase = .callback now t → t.period.isSome → t.serial ≠ k

theorem gone_step {k : Nat} {m m' : M} {a : Action} (hg : Gone k m) (h : step m a = some m') :
    Gone k m' ∧ timesCalled k m'.log = timesCalled k m.log := by
  obtain ⟨g2, g3, g4⟩ := hg
  cases a <;> simp only [step] at h
  case wait => cases h; exact ⟨⟨g2, g3, g4⟩, rfl⟩
  case schedule delay period =>
    split at h
    · cases h
    · cases h
      refine ⟨⟨by simp only [List.length_append, List.length_cons, List.length_nil]; omega, ?_, g4⟩, rfl⟩
      intro hk
      obtain ⟨y, hy, e⟩ := List.mem_map.1 hk
      rcases insert_subset _ _ y hy with rfl | hy
      · have e : m.requests.length = k := e
        omega
      · exact g3 (List.mem_map.2 ⟨y, hy, e⟩)
  case cancel j =>
    cases h
    refine ⟨⟨g2, fun hk => ?_, g4⟩, rfl⟩
    obtain ⟨y, hy, e⟩ := List.mem_map.1 hk
    exact g3 (List.mem_map.2 ⟨y, (cancel_sublist j m.queue).subset hy, e⟩)
  case run =>
    split at h
    · cases h; exact ⟨⟨g2, g3, fun n t hn => (nomatch hn)⟩, rfl⟩
    · cases h
  case pick =>
    split at h
    · rename_i now t q hph hq
      split at h
      · cases h
      · cases h
        rw [hq, List.map_cons, List.mem_cons, not_or] at g3
        have hb : (t.serial == k) = false := by simpa using fun e => g3.1 (Eq.symm e)
        refine ⟨⟨g2, g3.2, fun n y hn _ e => ?_⟩, ?_⟩
        · cases hn; exact g3.1 e.symm
        · simp [timesCalled, hb]
    · cases h
  case finish =>
    split at h
    · rename_i now t hph
      split at h
      · cases h; exact ⟨⟨g2, g3, fun n t hn => (nomatch hn)⟩, rfl⟩
      · rename_i p hp
        cases h
        refine ⟨⟨g2, fun hk => ?_, fun n t hn => (nomatch hn)⟩, rfl⟩
        obtain ⟨y, hy, e⟩ := List.mem_map.1 hk
        rcases insert_subset _ _ y hy with rfl | hy
        · exact g4 now t hph (by rw [hp]; rfl) e
        · exact g3 (List.mem_map.2 ⟨y, hy, e⟩)
    · cases h
  case done =>
    have hm : m' = { m with phase := .idle } := by
      split at h
      · cases h; rfl
      · split at h
        · cases h; rfl
        · cases h
      · cases h
    subst hm
    exact ⟨⟨g2, g3, fun n t hn => (nomatch hn)⟩, rfl⟩

/-- **C38 (cancellation), partial.** A task that is cancelled by its identifier is not
called any more, whatever follows. Missing: a periodic task that is cancelled while its
callback runs (`C38_cancel_running_violated`), and cancelling after more than 2^32 - 1
scheduling calls, when an identifier can belong to two tasks. -/
theorem C38_cancel_is_final_partial {c : Int} {as as' : List Action} {m m1 m2 : M} {r : Task}
    (h : runs as (initial c) = some m) (hb : m.requests.length < 2 ^ 32) (hr : r ∈ m.requests)
    (hc : step m (.cancel r.id) = some m1) (h' : runs as' m1 = some m2)
    (hrun : ∀ now t, m.phase = .callback now t → t.period.isSome → t.serial ≠ r.serial) :
    timesCalled r.serial m2.log = timesCalled r.serial m.log := by
  have hi := inv_of_runs h
  have hd := ids_of_runs h (show m.requests.length < idLimit from hb)
  have hlt : r.serial < m.requests.length := by
    have : r.serial ∈ m.requests.map (·.serial) := List.mem_map_of_mem hr
    rw [hi.serials, List.mem_range'_1] at this
    omega
  have hid : ∀ t ∈ m.queue, t.id = t.serial + 1 :=
    fun t ht => hd.of_asked (hi.asked t (List.mem_append_left _ ht))
  have hq : (m.queue.map (·.id)).Nodup := by
    have h1 := hi.nodup
    rw [List.map_append] at h1
    have h1 := (List.nodup_append.1 h1).1
    have h2 : m.queue.map (·.id) = (m.queue.map (·.serial)).map (· + 1) := by
      rw [List.map_map]; exact List.map_congr_left hid
    rw [h2, List.nodup_iff_pairwise_ne, List.pairwise_map]
    rw [List.nodup_iff_pairwise_ne] at h1
    exact h1.imp (fun h e => h (by omega))
  have hg : Gone r.serial m1 := by
    cases hc
    refine ⟨hlt, fun hm => ?_, hrun⟩
    obtain ⟨z, hz, e⟩ := List.mem_map.1 hm
    obtain ⟨z1, z2⟩ := (mem_cancel _ _ hq z).1 hz
    exact z2 (by rw [hid z z1, hd.ids r hr, e])
  have hlog : m1.log = m.log := by cases hc; rfl
  rw [← hlog]
  clear hc hlog
  induction as' generalizing m1 with
  | nil => cases h'; rfl
  | cons a as' ih =>
    simp only [runs] at h'
    split at h'
    · cases h'
    · rename_i m3 h3
      obtain ⟨g1, g2⟩ := gone_step hg h3
      rw [← g2]
      exact ih h' g1

/-- **C38, violated.** A periodic task that cancels itself in its callback is called
again. -/
theorem C38_cancel_running_violated : ∃ m m1 m2,
    runs [.schedule 0 (some 20), .run, .pick] (initial 0) = some m ∧
    m.requests = [⟨0, 1, 0, some 20⟩] ∧
    step m (.cancel 1) = some m1 ∧
    runs [.finish, .done, .wait 20, .run, .pick] m1 = some m2 ∧
    timesCalled 0 m.log = 1 ∧ timesCalled 0 m2.log = 2 := by
  have hid : nextId [] idLimit 0 = some (1, 2) := nextId_first (n := 0) (by decide) (by simp)
  refine ⟨⟨0, [], 2, .callback 0 ⟨0, 1, 0, some 20⟩, [⟨0, 1, 0, some 20⟩], [⟨⟨0, 1, 0, some 20⟩, 0⟩], []⟩, _, _,
    ?_, rfl, rfl, rfl, rfl, rfl⟩
  simp only [runs, step, initial, List.map_nil, hid]
  rfl

/-! ## The hypotheses can be met -/

/-- A one-shot and a periodic task; the tick comes late and both run, in order; the one-shot task was
called once and the loop can end. -/
example : ∃ m m', runs [.schedule 10 none, .schedule 5 (some 20), .wait 12, .run, .pick, .wait 1, .finish,
      .pick, .finish] (initial 0) = some m ∧ m.phase = .loop 12 ∧ step m .done = some m' ∧
    m.log.map (fun e => (e.task.id, e.task.time, e.at_)) = [(2, 5, 12), (1, 10, 13)] ∧
    (⟨0, 1, 10, none⟩ : Task) ∈ m.requests ∧ NotCancelled m ⟨0, 1, 10, none⟩ ∧ timesCalled 0 m.log = 1 := by
  have h1 : nextId [] idLimit 0 = some (1, 2) := nextId_first (n := 0) (by decide) (by simp)
  have h2 : nextId [1] idLimit 2 = some (2, 3) := nextId_first (n := 1) (by decide) (by simp)
  refine ⟨⟨13, [⟨1, 2, 32, some 20⟩], 3, .loop 12, [⟨0, 1, 10, none⟩, ⟨1, 2, 5, some 20⟩],
    [⟨⟨1, 2, 5, some 20⟩, 12⟩, ⟨⟨0, 1, 10, none⟩, 13⟩], []⟩, _, ?_, rfl, rfl, rfl, by decide,
    fun _ h => absurd h List.not_mem_nil, rfl⟩
  simp only [runs, step, initial, List.map_nil, h1, insert, List.map_cons]
  simp only [h2]
  rfl

end Verif.Task
