import Verif.Async.Lemmas
/-!
# Properties C08, C09: asynchronous tasks
-/

namespace Verif.Async

/-- A state reachable by some interleaving. -/
def Reachable (m : M) : Prop := ∃ as, run M.init as = some m

theorem reachable_inv {m : M} (h : Reachable m) : Inv m := by
  obtain ⟨as, h⟩ := h
  exact inv_run as inv_init h

/-! ## C08 -/

/-- **C08.** Cancelling removes exactly the pending task with that identifier, and reports whether
there was one. -/
theorem C08_cancel_exact (m : M) (hr : Reachable m) (id : Nat) :
    (∀ t, t ∈ (cancel m id).2.queue ↔ t ∈ m.queue ∧ t.id ≠ id) ∧
    ((cancel m id).1 = true ↔ ∃ t ∈ m.queue, t.id = id) := by
  obtain ⟨-, h1, -, -, -, -, -, -, -, h2⟩ := cancelLocked_spec (reachable_inv hr) id
  exact ⟨h1, h2⟩

/-- **C08**, outside a window of the thread: once a cancelling call has returned, whatever happens
next, the task is not invoked any more, provided the thread was not holding its callback, picked but
not started. The full property has no such proviso; it fails, see the `_violated` theorems. -/
theorem C08_cancelled_never_runs_partial (m m1 : M) (hr : Reachable m) (id : Nat) (self : Bool) (t : Task)
    (ht : t ∈ m.queue) (hid : t.id = id) (hc : step m (.cancel id self) = some m1)
    (hp : ∀ e, m.phase = .picked e → e.serial ≠ t.serial)
    (as : List Act) (m2 : M) (h : run m1 as = some m2) :
    invocations t.serial m2 = invocations t.serial m := by
  have hi := reachable_inv hr
  obtain ⟨-, c2, -, c4, c5, -, c7, -⟩ := cancelLocked_spec hi id
  have hm1 : m1 = (cancelLocked m id).2 := by
    simp only [step, cancel] at hc
    split at hc
    · split at hc
      · simp at hc; exact hc.symm
      · simp at hc
    · split at hc
      · simp at hc
      · simp at hc; exact hc.symm
  have hd : Dead t.serial m1 := by
    rw [hm1]
    refine ⟨by rw [c7]; exact hi.serial t ht, ?_, by rw [c4]; exact hp⟩
    intro y hy he
    obtain ⟨h1, h2⟩ := (c2 y).mp hy
    have := hi.serialInj y h1 t ht he
    subst this
    exact h2 hid
  rw [dead_run as (inv_step _ hi hc) hd h]
  simp [invocations, hm1, c5]

/-- **C08**, outside the same window: once all tasks of a user have been cancelled, none of the tasks
this user had is invoked any more. -/
theorem C08_user_cancelled_never_runs_partial (m m1 : M) (hr : Reachable m) (u : Nat) (self : Bool)
    (hc : step m (.cancelUser u self) = some m1) (t : Task) (ht : t ∈ m.queue) (hu : t.user = u)
    (hp : ∀ e, m.phase = .picked e → e.serial ≠ t.serial)
    (as : List Act) (m2 : M) (h : run m1 as = some m2) :
    invocations t.serial m2 = invocations t.serial m := by
  have hi := reachable_inv hr
  obtain ⟨-, c2, -, c4, c5, -, c7, -⟩ := cancelUser_spec hi u
  have hm1 : m1 = (cancelUser m u).2 := by
    simp only [step] at hc
    split at hc
    · split at hc
      · simp at hc; exact hc.symm
      · simp at hc
    · split at hc
      · simp at hc
      · simp at hc; exact hc.symm
  have hd : Dead t.serial m1 := by
    rw [hm1]
    refine ⟨by rw [c7]; exact hi.serial t ht, ?_, by rw [c4]; exact hp⟩
    intro y hy he
    obtain ⟨h1, h2⟩ := (c2 y).mp hy
    have := hi.serialInj y h1 t ht he
    subst this
    exact h2 (hu ▸ hi.users y h1)
  rw [dead_run as (inv_step _ hi hc) hd h]
  simp [invocations, hm1, c5]

/-- **C08.** After `stopThread` no pending task is ever invoked, with the same proviso. -/
theorem C08_stopped_never_runs_partial (m : M) (hr : Reachable m) (t : Task) (ht : t ∈ m.queue)
    (hp : ∀ e, m.phase = .picked e → e.serial ≠ t.serial)
    (as : List Act) (m2 : M) (h : run (stop m) as = some m2) :
    invocations t.serial m2 = invocations t.serial m := by
  have hi := reachable_inv hr
  have hd : Dead t.serial (stop m) := ⟨hi.serial t ht, by simp [stop], hp⟩
  rw [dead_run as (inv_step .stop hi rfl) hd h]
  rfl

/-- As long as no identifier has been given out twice. -/
structure Fresh (m : M) : Prop where
  last : m.last = m.count
  users : ∀ e ∈ m.byUser, e.2 ≤ m.count
  ids : ∀ t ∈ m.queue, t.id ≤ m.count
  owner : ∀ t ∈ m.queue, ∀ e ∈ m.byUser, e.2 = t.id → e.1 = t.user

theorem count_mono {m m' : M} (hi : Inv m) (a : Act) (h : step m a = some m') : m.count ≤ m'.count := by
  cases a with
  | tick d => simp only [step, Option.some.injEq] at h; subst h; exact Nat.le_refl _
  | schedule u d p =>
    simp only [step] at h
    rcases schedule_spec hi u d p with ⟨-, h1⟩ | ⟨i, m1, h1, -, -, -, -, -, h4, -⟩
    · simp [h1] at h; subst h; exact Nat.le_refl _
    · simp [h1] at h; subst h; omega
  | cancel i self =>
    simp only [step, cancel] at h
    obtain ⟨-, -, -, -, -, -, c7, -⟩ := cancelLocked_spec hi i
    grind
  | cancelUser u self =>
    simp only [step] at h
    obtain ⟨-, -, -, -, -, -, c7, -⟩ := cancelUser_spec hi u
    grind
  | pick =>
    simp only [step] at h
    split at h
    · rename_i hc
      simp only [Bool.and_eq_true, decide_eq_true_eq] at hc
      simp at h; subst h
      rcases pick_spec hi hc.2 with ⟨h1, -⟩ | ⟨t, ht, -, -, p1, p2, p3, -⟩
      · rw [h1]; exact Nat.le_refl _
      · rw [p3]; exact Nat.le_refl _
    · simp at h
  | start => simp only [step] at h; split at h <;> simp at h; subst h; exact Nat.le_refl _
  | finish => simp only [step] at h; split at h <;> simp at h; subst h; exact Nat.le_refl _
  | stop => simp only [step, stop, Option.some.injEq] at h; subst h; exact Nat.le_refl _

theorem fresh_step {m m' : M} (hi : Inv m) (hf : Fresh m) (a : Act) (h : step m a = some m')
    (hc : m'.count ≤ maxTaskId) : Fresh m' := by
  have shrink : ∀ m1 : M, (∀ t ∈ m1.queue, t ∈ m.queue) → m1.count = m.count → m1.last = m.last →
      (∀ e ∈ m1.byUser, e ∈ m.byUser) → Fresh m1 := by
    intro m1 h1 h2 h3 h4
    exact ⟨by rw [h2, h3]; exact hf.last, fun e he => by rw [h2]; exact hf.users e (h4 e he),
      fun t ht => by rw [h2]; exact hf.ids t (h1 t ht),
      fun t ht e he => hf.owner t (h1 t ht) e (h4 e he)⟩
  cases a with
  | tick d =>
    simp only [step, Option.some.injEq] at h; subst h
    exact shrink _ (fun t h => h) rfl rfl (fun e h => h)
  | schedule u d p =>
    simp only [step] at h
    rcases schedule_spec hi u d p with ⟨-, h1⟩ | ⟨i, m1, h1, hi1, r1, r2, h2, h3, h4, h5, h6, h7, h8, h9⟩
    · simp [h1] at h; subst h; exact hf
    · simp [h1] at h; subst h
      have hlast := hf.last
      -- the identifier is the successor of the last one
      have hi' : i = m.count + 1 := by
        unfold schedule at h1
        split at h1
        · simp at h1; omega
        · split at h1
          · simp at h1
          · rename_i j hs
            simp at h1
            obtain ⟨rfl, -⟩ := h1
            obtain ⟨-, n, -, hn, hused⟩ := Conn.search_some _ _ _ _ _ _ hs
            have hnx : nextId m.last = m.count + 1 := by
              unfold nextId
              rw [if_neg (by omega), hlast]
            cases n with
            | zero => rw [hn]; simp only [Conn.tried]; exact hnx
            | succ n =>
              exfalso
              have := hused 0 (by omega)
              simp only [Conn.tried] at this
              rw [ne_eq, Conn.find_none_iff, hnx] at this
              simp only [not_not] at this
              obtain ⟨⟨k, t⟩, hm, hk⟩ := List.mem_map.mp this
              simp only at hk
              subst hk
              have hid := hi.ids _ hm
              simp only at hid
              have hq : t ∈ m.queue := (hi.agree t).mpr (by rw [hid]; exact hm)
              have := hf.ids t hq
              omega
      refine ⟨by rw [h8, h4, hi'], ?_, ?_, ?_⟩
      · intro e he
        rcases (h9 e).mp he with rfl | he
        · simp only; omega
        · have := hf.users e he; omega
      · intro t ht
        rcases (h3 t).mp ht with rfl | ht
        · simp only; omega
        · have := hf.ids t ht; omega
      · intro t ht e he hid
        rcases (h3 t).mp ht with rfl | ht <;> rcases (h9 e).mp he with rfl | he
        · rfl
        · have := hf.users e he; simp only at hid; omega
        · have := hf.ids t ht; simp only at hid; omega
        · exact hf.owner t ht e he hid
  | cancel i self =>
    simp only [step, cancel] at h
    obtain ⟨-, c2, c3, -, -, -, c7, c8, -⟩ := cancelLocked_spec hi i
    have := shrink _ (fun t ht => ((c2 t).mp ht).1) c7 c8 (fun e he => by rw [c3] at he; exact he)
    grind
  | cancelUser u self =>
    simp only [step] at h
    obtain ⟨-, c2, c3, -, -, -, c7, c8⟩ := cancelUser_spec hi u
    have := shrink _ (fun t ht => ((c2 t).mp ht).1) c7 c8 (fun e he => ((c3 e).mp he).1)
    grind
  | pick =>
    simp only [step] at h
    split at h
    · rename_i hen
      simp only [Bool.and_eq_true, decide_eq_true_eq] at hen
      simp at h; subst h
      rcases pick_spec hi hen.2 with ⟨h1, -⟩ | ⟨t, ht, -, -, p1, p2, p3, p4, p5, p6, p7, -⟩
      · rw [h1]; exact hf
      · refine ⟨by rw [p3, p5]; exact hf.last, ?_, ?_, ?_⟩
        · intro e he; rw [p3]; exact hf.users e ((p7 e).mp he).1
        · intro y hy
          rw [p3]
          rcases (p6 y).mp hy with ⟨h1, -⟩ | ⟨q, -, rfl⟩
          · exact hf.ids y h1
          · exact hf.ids t ht
        · intro y hy e he hid
          rcases (p6 y).mp hy with ⟨h1, -⟩ | ⟨q, -, rfl⟩
          · exact hf.owner y h1 e ((p7 e).mp he).1 hid
          · exact hf.owner t ht e ((p7 e).mp he).1 hid
    · simp at h
  | start =>
    simp only [step] at h
    split at h <;> simp at h
    subst h; exact shrink _ (fun t h => h) rfl rfl (fun e h => h)
  | finish =>
    simp only [step] at h
    split at h <;> simp at h
    subst h; exact shrink _ (fun t h => h) rfl rfl (fun e h => h)
  | stop =>
    simp only [step, stop, Option.some.injEq] at h; subst h
    exact shrink _ (by simp) rfl rfl (fun e h => h)

theorem fresh_run : ∀ (as : List Act) {m m' : M}, Inv m → Fresh m → run m as = some m' →
    m'.count ≤ maxTaskId → Fresh m' := by
  intro as
  induction as with
  | nil => intro m m' _ hf h _; simp [run] at h; exact h ▸ hf
  | cons a as ih =>
    intro m m' hi hf h hc
    simp only [run] at h
    split at h
    · simp at h
    · rename_i m1 h1
      have hi1 := inv_step a hi h1
      have mono : ∀ (as : List Act) {m m' : M}, Inv m → run m as = some m' → m.count ≤ m'.count := by
        intro as
        induction as with
        | nil => intro m m' _ h; simp [run] at h; rw [h]; exact Nat.le_refl _
        | cons a as ih =>
          intro m m' hi h
          simp only [run] at h
          split at h
          · simp at h
          · rename_i m1 h1
            exact Nat.le_trans (count_mono hi a h1) (ih (inv_step a hi h1) h)
      have := mono as hi1 h
      exact ih hi1 (fresh_step hi hf a h1 (by omega)) h hc

/-- **C08.** Cancelling the tasks of a user cancels all pending tasks of that user and no other, as
long as at most 65535 tasks have been scheduled since start-up (`count` counts them). Missing: the
same without this bound, which fails, see `C08_cancel_user_isolated_violated`. -/
theorem C08_cancel_user_isolated_partial (m : M) (hr : Reachable m) (hcount : m.count ≤ 65535) (u : Nat)
    (t : Task) : t ∈ (cancelUser m u).2.queue ↔ t ∈ m.queue ∧ t.user ≠ u := by
  have hi := reachable_inv hr
  have hf : Fresh m := by
    obtain ⟨as, h⟩ := hr
    exact fresh_run as inv_init ⟨rfl, by simp [M.init], by simp [M.init], by simp [M.init]⟩ h hcount
  obtain ⟨-, c2, -⟩ := cancelUser_spec hi u
  rw [c2]
  constructor
  · rintro ⟨h1, h2⟩
    exact ⟨h1, fun he => h2 (he ▸ hi.users t h1)⟩
  · rintro ⟨h1, h2⟩
    exact ⟨h1, fun he => h2 (hf.owner t h1 _ he rfl).symm⟩

/-- **C08 is violated**: the thread picks a periodic task, another thread cancels the task
successfully, and then the callback runs. -/
theorem C08_periodic_runs_after_cancel_violated :
    ∃ m m2, run M.init [.schedule 1 0 (some 10), .tick 1, .pick] = some m ∧
      (cancel m 1).1 = true ∧ run m [.cancel 1 false, .start] = some m2 ∧
      (invocations 0 m).length = 0 ∧ (invocations 0 m2).length = 1 := by
  refine ⟨(run M.init [.schedule 1 0 (some 10), .tick 1, .pick]).get (by decide +kernel),
    (run M.init [.schedule 1 0 (some 10), .tick 1, .pick, .cancel 1 false, .start]).get (by decide +kernel),
    by simp, ?_, ?_, ?_, ?_⟩ <;> decide +kernel

/-- **C08 is violated**: for a one-shot task the cancelling call in the same window reports that there
is no such task, and the task runs after the call has returned. -/
theorem C08_one_shot_runs_after_cancel_violated :
    ∃ m m2, run M.init [.schedule 1 0 none, .tick 1, .pick] = some m ∧
      (cancel m 1).1 = false ∧ run m [.cancel 1 false, .cancelUser 1 false, .start] = some m2 ∧
      (invocations 0 m).length = 0 ∧ (invocations 0 m2).length = 1 := by
  refine ⟨(run M.init [.schedule 1 0 none, .tick 1, .pick]).get (by decide +kernel),
    (run M.init [.schedule 1 0 none, .tick 1, .pick, .cancel 1 false, .cancelUser 1 false, .start]).get
      (by decide +kernel),
    by simp, ?_, ?_, ?_, ?_⟩ <;> decide +kernel

/-- State after user 1 has scheduled and cancelled a task and user 2 has scheduled and cancelled
`k - 1` tasks. -/
def leftover (k : Nat) : M :=
  { M.init with last := k, byUser := [(1, 1)], running := true, count := k }

/-- User 2 schedules a task and cancels its tasks. -/
def round : List Act := [.schedule 2 0 none, .cancelUser 2 false]

theorem run_append : ∀ (a b : List Act) (m : M), run m (a ++ b) = (run m a).bind (fun m' => run m' b) := by
  intro a
  induction a with
  | nil => intro b m; rfl
  | cons x a ih =>
    intro b m
    simp only [List.cons_append, run]
    cases step m x with
    | none => rfl
    | some m' => exact ih b m'

theorem round_step (k : Nat) (_h1 : 1 ≤ k) (h2 : k < 65535) :
    run (leftover k) round = some (leftover (k + 1)) := by
  have hn : nextId k = k + 1 := by unfold nextId; rw [if_neg (by simp only [maxTaskId]; omega)]
  have hs : Conn.searchUnused ([] : Conn.Table Task) 1 65535 (k + 1) 65535 = some (k + 1) := by
    unfold Conn.searchUnused; simp [Conn.find]
  simp [run, round, step, schedule, leftover, M.init, hn, hs, maxTaskId, cancelUser, idsOf, busy, insert,
    cancelLocked, Conn.find, remove, Conn.erase, lt_irrefl]

theorem rounds (n : Nat) : ∀ k, 1 ≤ k → k + n ≤ 65535 →
    run (leftover k) (List.replicate n round).flatten = some (leftover (k + n)) := by
  induction n with
  | zero => intro k _ _; simp [run]
  | succ n ih =>
    intro k h1 h2
    rw [List.replicate_succ, List.flatten_cons, run_append, round_step k h1 (by omega)]
    simp only [Option.bind_some]
    rw [ih (k + 1) (by omega) (by omega)]
    congr 2; omega

/-- Then user 2 schedules a task, which gets identifier 1 again. -/
def reused : M :=
  { M.init with last := 1, byId := [(1, ⟨65535, 1, 2, 0, none⟩)], byUser := [(2, 1), (1, 1)], queue := [⟨65535, 1, 2, 0, none⟩], running := true, count := 65536 }

theorem wrapped : Reachable (leftover 65535) := by
  have h0 : run M.init [.schedule 1 0 none, .cancel 1 false] = some (leftover 1) := by decide +kernel
  have gen : ∀ n, 1 + n ≤ 65535 → Reachable (leftover (1 + n)) := by
    intro n hn
    refine ⟨[.schedule 1 0 none, .cancel 1 false] ++ (List.replicate n round).flatten, ?_⟩
    rw [run_append, h0]
    exact rounds n 1 (by omega) hn
  exact gen 65534 (by omega)

/-- **C08 is violated**: the identifier of a task cancelled individually stays recorded for its user;
when the identifiers have wrapped around, cancelling that user's tasks cancels a task of another user. -/
theorem C08_cancel_user_isolated_violated :
    ∃ m, Reachable m ∧ ∃ t ∈ m.queue, t.user = 2 ∧ t ∉ (cancelUser m 1).2.queue := by
  obtain ⟨as, h1⟩ := wrapped
  have h2 : step (leftover 65535) (.schedule 2 0 none) =
      some reused := by
    have hs : Conn.searchUnused ([] : Conn.Table Task) 1 65535 1 65535 = some 1 := by
      unfold Conn.searchUnused; simp [Conn.find]
    have hn : nextId 65535 = 1 := by decide
    simp [step, schedule, leftover, M.init, hn, hs, insert, maxTaskId, reused]
  refine ⟨reused, ⟨as ++ [.schedule 2 0 none], by rw [run_append, h1]; simp only [Option.bind_some, run, h2]⟩,
    ⟨65535, 1, 2, 0, none⟩, List.mem_cons_self, rfl, ?_⟩
  · decide +kernel

/-! ## C09 -/

/-- **C09.** Identifiers of pending tasks are distinct, non-zero and below 2^16, and at most 65535 tasks
are pending. -/
theorem C09_ids_unique (m : M) (hr : Reachable m) :
    (m.queue.map (·.id)).Nodup ∧ (∀ t ∈ m.queue, 1 ≤ t.id ∧ t.id ≤ 65535) := by
  have hi := reachable_inv hr
  refine ⟨?_, fun t ht => hi.keys.range t.id (Conn.mem_keys ((hi.agree t).mp ht))⟩
  rw [List.Nodup, List.pairwise_map]
  refine List.Pairwise.imp_of_mem ?_ hi.sorted
  intro a b ha hb hlt he
  have := inv_queue_inj hi a ha b hb he
  subst this
  simp [lt_irrefl] at hlt

/-- **C09.** Scheduling either adds exactly the requested task, due `delay` from now, under an unused
identifier, or fails with identifier 0 because 65535 tasks are pending. It always terminates. -/
theorem C09_schedule (m : M) (hr : Reachable m) (u d : Nat) (p : Option Nat) :
    (m.byId.length = 65535 ∧ schedule m u d p = some (0, m)) ∨
    ∃ i m', schedule m u d p = some (i, m') ∧ i ≠ 0 ∧ (∀ t ∈ m.queue, t.id ≠ i) ∧
      ∀ t, t ∈ m'.queue ↔ t = ⟨m.count, i, u, m.now + d, p⟩ ∨ t ∈ m.queue := by
  rcases schedule_spec (reachable_inv hr) u d p with h | ⟨i, m', h1, -, h2, -, h3, h4, -⟩
  · exact Or.inl h
  · exact Or.inr ⟨i, m', h1, by omega, h3, h4⟩

/-- **C09.** No invocation is early: each happens when the clock is strictly past its deadline. -/
theorem C09_never_early (m : M) (hr : Reachable m) : ∀ e ∈ m.log, e.due < e.at_ ∧ e.at_ ≤ m.now :=
  fun e he => (reachable_inv hr).due e (List.mem_append_left _ he)

/-- **C09.** The invocations of a whole history are in the order of their deadlines. -/
theorem C09_deadline_order (m : M) (hr : Reachable m) : m.log.Pairwise (fun a b => a.due ≤ b.due) := by
  have := (reachable_inv hr).dueSorted
  rw [hist, List.pairwise_append] at this
  exact this.1

/-- **C09.** No invocation overtakes a pending task that was due earlier. -/
theorem C09_no_overtaking (m : M) (hr : Reachable m) : ∀ e ∈ m.log, ∀ t ∈ m.queue, e.due ≤ t.time :=
  fun e he t ht => (reachable_inv hr).dueQueue e (List.mem_append_left _ he) t ht

/-- **C09.** A one-shot task is invoked at most once, and is no longer pending once invoked. -/
theorem C09_one_shot_once (m : M) (hr : Reachable m) :
    ((m.log.filter (·.oneShot)).map (·.serial)).Nodup ∧
    ∀ e ∈ m.log, e.oneShot = true → ∀ t ∈ m.queue, t.serial ≠ e.serial := by
  have hi := reachable_inv hr
  constructor
  · have := hi.once
    rw [hist, List.filter_append, List.map_append, List.nodup_append] at this
    exact this.1
  · intro e he; exact hi.oneShot e (List.mem_append_left _ he)

/-- **C09.** When the thread looks at the queue it takes a due task if there is one, the one with the
least (deadline, identifier); a periodic task stays pending, due one period later; a one-shot task does
not; nothing else changes. -/
theorem C09_pick (m : M) (hr : Reachable m) (hrun : m.running = true) (hidle : m.phase = .idle) :
    ∃ m', step m .pick = some m' ∧
    ((m' = m ∧ ∀ t ∈ m.queue, m.now ≤ t.time) ∨
     ∃ t ∈ m.queue, t.time < m.now ∧
      (∀ y ∈ m.queue, y ≠ t → t.time < y.time ∨ (t.time = y.time ∧ t.id < y.id)) ∧
      m'.phase = .picked ⟨t.serial, t.time, m.now, t.period.isNone⟩ ∧
      ∀ y, y ∈ m'.queue ↔ (y ∈ m.queue ∧ y ≠ t) ∨
        ∃ q, t.period = some q ∧ y = { t with time := t.time + q }) := by
  refine ⟨pick m, by simp [step, hrun, hidle], ?_⟩
  rcases pick_spec (reachable_inv hr) hidle with h | ⟨t, ht, h1, h2, h3, -, -, -, -, h4, -⟩
  · exact Or.inl h
  · refine Or.inr ⟨t, ht, h1, ?_, h3, h4⟩
    intro y hy hne
    have := h2 y hy hne
    simpa only [Task.lt, Bool.or_eq_true, Bool.and_eq_true, decide_eq_true_eq] using this

/-- A history with two users, a periodic and two one-shot tasks, one of them cancelled. -/
def exampleActs : List Act :=
  [.schedule 1 5 (some 10), .schedule 2 3 none, .schedule 2 4 none, .tick 7, .pick, .start,
   .cancel 1 true, .schedule 1 0 none, .finish, .pick, .start, .finish, .tick 1, .pick, .start, .finish, .pick]

example : (run M.init exampleActs).map (fun m => (m.log, m.queue)) =
    some ([⟨1, 3, 7, true⟩, ⟨2, 4, 7, true⟩, ⟨3, 7, 8, true⟩], []) := by decide +kernel

/-- A cancellation to which `C08_cancelled_never_runs_partial` applies. -/
example : ∃ m, run M.init [.schedule 1 0 (some 1), .schedule 2 9 none, .tick 4, .pick, .start] = some m ∧
    (m.queue.map (·.id), (step m (.cancel 2 false)).isSome, (step m (.cancel 1 false)).isSome,
      (step m (.cancel 1 true)).isSome) = ([1, 2], true, false, true) := by
  refine ⟨(run M.init [.schedule 1 0 (some 1), .schedule 2 9 none, .tick 4, .pick, .start]).get
    (by decide +kernel), by simp, ?_⟩
  decide +kernel

end Verif.Async
