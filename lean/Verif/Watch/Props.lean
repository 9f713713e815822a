import Verif.Watch.HistoryLemmas
/-!
# C98: a watched descriptor is served, and one that is no longer watched is left alone

For every interleaving of the watcher's thread, of the callbacks and of any number of other threads.
-/

namespace Verif.Watch

/-! ## Which callbacks are called -/

theorem round_run {w w' : W} {as : List Act} {cs todo : List Reg} {cur : Option Reg} (hp : w.phase = .round cur todo)
    (hr : .release ∉ as) (h : run w as = .ok w' cs) : ∃ cur' todo', w'.phase = .round cur' todo' ∧ cs ++ todo' = todo := by
  induction as generalizing w cs todo cur with
  | nil => cases h; exact ⟨cur, todo, hp, rfl⟩
  | cons a as ih =>
    obtain ⟨w1, c1, c2, h1, h2, rfl⟩ := run_cons_ok h
    have hr' := List.not_mem_cons_of_ne_of_not_mem (List.ne_of_not_mem_cons hr) (List.not_mem_of_not_mem_cons hr)
    have hr2 : .release ∉ as := List.not_mem_of_not_mem_cons hr
    have same : ∀ {w2}, w1 = w2 → w2.phase = w.phase → c1 = [] → ∃ cur' todo', w'.phase = .round cur' todo' ∧ c1 ++ c2 ++ todo' = todo := by
      intro w2 e hq hc
      subst e hc
      exact ih (hq.trans hp) hr2 h2
    cases did h1 with
    | call r t hp1 =>
      rw [hp] at hp1
      cases hp1
      obtain ⟨cur', todo', h3, h4⟩ := ih (w := { w with phase := .round (some r) t }) rfl hr2 h2
      exact ⟨cur', todo', h3, by simp [h4]⟩
    | ret r t hp1 =>
      rw [hp] at hp1
      cases hp1
      exact ih (w := { w with phase := .round none todo }) rfl hr2 h2
    | release => exact absurd (List.mem_cons_self ..) hr
    | watch => exact same rfl rfl rfl
    | unwatch => exact same rfl rfl rfl
    | started => exact same rfl rfl rfl
    | notify => exact same rfl rfl rfl
    | stop => exact same rfl rfl rfl
    | stopped => exact same rfl rfl rfl
    | start _ _ hp1 => rw [hp] at hp1; cases hp1
    | join _ hp1 => rw [hp] at hp1; cases hp1
    | leave hp1 => rw [hp] at hp1; cases hp1
    | setUp hp1 => rw [hp] at hp1; cases hp1
    | select _ _ hp1 => rw [hp] at hp1; cases hp1
    | fails _ hp1 => rw [hp] at hp1; cases hp1
    | take _ _ hp1 => rw [hp] at hp1; cases hp1
    | quit _ _ hp1 => rw [hp] at hp1; cases hp1

theorem woken_run {w w' : W} {as : List Act} {cs : List Reg} {ready : List Int} {noted : Bool} (hp : w.phase = .woken ready noted)
    (ht : .take ∉ as) (h : run w as = .ok w' cs) : w'.phase = .woken ready noted ∧ cs = [] := by
  induction as generalizing w cs with
  | nil => cases h; exact ⟨hp, rfl⟩
  | cons a as ih =>
    obtain ⟨w1, c1, c2, h1, h2, rfl⟩ := run_cons_ok h
    have ht2 : .take ∉ as := List.not_mem_of_not_mem_cons ht
    have same : ∀ {w2}, w1 = w2 → w2.phase = w.phase → c1 = [] → w'.phase = .woken ready noted ∧ c1 ++ c2 = [] := by
      intro w2 e hq hc
      subst e hc
      exact ih (hq.trans hp) ht2 h2
    cases did h1 with
    | take => exact absurd (List.mem_cons_self ..) ht
    | quit => exact absurd (List.mem_cons_self ..) ht
    | watch => exact same rfl rfl rfl
    | unwatch => exact same rfl rfl rfl
    | started => exact same rfl rfl rfl
    | notify => exact same rfl rfl rfl
    | stop => exact same rfl rfl rfl
    | stopped => exact same rfl rfl rfl
    | start _ _ hp1 => rw [hp] at hp1; cases hp1
    | join _ hp1 => rw [hp] at hp1; cases hp1
    | leave hp1 => rw [hp] at hp1; cases hp1
    | setUp hp1 => rw [hp] at hp1; cases hp1
    | select _ _ hp1 => rw [hp] at hp1; cases hp1
    | fails _ hp1 => rw [hp] at hp1; cases hp1
    | call _ _ hp1 => rw [hp] at hp1; cases hp1
    | ret _ _ hp1 => rw [hp] at hp1; cases hp1
    | release hp1 => rw [hp] at hp1; cases hp1

/-- A callback is only called in a round: after `select` reported its descriptor, and it was the one registered when the
round began. -/
theorem C98_only {acts : List Act} {w w' : W} {cs : List Reg} (h : run W.init acts = .ok w cs) {fd : Int} {s : Nat}
    (hc : step w .call = .ok w' [(fd, s)]) :
    ∃ before ready mid after, acts = before ++ .select ready :: mid ++ .take :: after ∧ .take ∉ mid ∧ .release ∉ after ∧
      fd ∈ ready ∧ registered fd (before ++ .select ready :: mid) = some s := by
  have hi := (inv_of h).fits
  cases did hc with
  | call r todo hp =>
    rw [hp] at hi
    obtain ⟨b, rd, m, af, e, hm, ha, -, -, ht⟩ := hi
    exact ⟨b, rd, m, af, e, hm, ha, ht (fd, s) (List.mem_cons_self ..)⟩

/-- In a round the callbacks of the descriptors that `select` reported and that are registered when it begins are called,
each once, in the order of the descriptors: none is left out when the round is over. -/
theorem C98_round {before mid after : List Act} {ready : List Int} {w1 w2 w : W} {c1 c2 c3 : List Reg}
    (h1 : run W.init (before ++ .select ready :: mid) = .ok w1 c1) (hm : .take ∉ mid) (hrun : w1.running = true)
    (h2 : step w1 .take = .ok w2 c2) (h3 : run w2 after = .ok w c3) (ha : .release ∉ after) :
    ∃ due, (∀ fd s, (fd, s) ∈ due ↔ fd ∈ ready ∧ registered fd (before ++ .select ready :: mid) = some s) ∧
      due.Pairwise (fun a b => a.1 < b.1) ∧ c2 = [] ∧ c3 <+: due ∧ (∀ w' c4, step w .release = .ok w' c4 → c3 = due) := by
  have hi := inv_of h1
  obtain ⟨v, d1, d2, k1, k2, -⟩ := run_append_ok h1
  obtain ⟨v1, d3, d4, k3, k4, -⟩ := run_cons_ok k2
  have hp : ∃ noted, w1.phase = .woken ready noted := by
    cases did k3 with
    | select _ set hp hr h0 => exact ⟨v.pipe, (woken_run (w := { v with phase := .woken ready v.pipe }) rfl hm k4).1⟩
  obtain ⟨noted, hp⟩ := hp
  cases did h2 with
  | quit r n hp' h0 => rw [hrun] at h0; cases h0
  | take r n hp' h0 =>
    rw [hp] at hp'
    cases hp'
    obtain ⟨cur', todo', h4, h5⟩ := round_run (w := { w1 with phase := _, pipe := _ }) rfl ha h3
    refine ⟨w1.watched.filter (fun e => e.1 ∈ ready), ?_, hi.sorted.filter _, rfl, ⟨todo', h5⟩, ?_⟩
    · intro fd s
      simp only [List.mem_filter, decide_eq_true_eq, hi.watched (fd, s)]
      exact And.comm
    · intro w' c4 h6
      cases did h6 with
      | release hp2 =>
        rw [h4] at hp2
        cases hp2
        simpa using h5

/-- Two descriptors, a round for both. -/
def both : List Act :=
  [.watch false 5, .start, .notify, .watch false 7, .start, .notify, .setUp, .select [7, 5], .take, .call, .ret, .call, .ret, .release]

example : (run W.init both).calls = some [(5, 0), (7, 1)] := by decide +kernel

/-! ## The end of a registration -/

/-- Once a call of StopWatchingFileDescriptor by another thread has returned, no callback that was registered before it is
called. -/
theorem C98_unwatched {acts rest : List Act} {fd : Int} {w : W} {cs : List Reg}
    (h : run W.init (acts ++ .unwatch false fd :: rest) = .ok w cs) :
    ∃ w1 c1 c2, run W.init acts = .ok w1 c1 ∧ cs = c1 ++ c2 ∧ ∀ s, (fd, s) ∈ c2 → registrations acts ≤ s := by
  obtain ⟨w1, c1, c2, h1, h2, rfl⟩ := run_append_ok h
  obtain ⟨w2, c3, c4, h3, h4, rfl⟩ := run_cons_ok h2
  have hi := inv_of h1
  refine ⟨w1, c1, c3 ++ c4, h1, rfl, ?_⟩
  cases did h3 with
  | unwatch own f h0 =>
    have hg : Gone fd (registrations acts) { w1 with watched := w1.watched.filter (fun e => e.1 ≠ fd) } := by
      refine ⟨Nat.le_of_eq hi.serial.symm, ?_, ?_⟩
      · intro e he hf
        have := (List.mem_filter.mp he).2
        simp only [decide_eq_true_eq] at this
        exact absurd hf this
      · intro e he
        simp only [W.todo] at he
        split at he
        · rename_i r t hp
          have : w1.phase = .round r t := hp
          simp only [W.enters, this] at h0
          cases r <;> cases h0
        · cases he
    intro s hs
    exact gone_run (sorted_step hi.sorted h3) hg h4 (fd, s) (by simpa using hs) rfl

example : (run W.init ([.watch false 5, .start, .notify, .setUp, .select [5], .take, .call, .ret, .release] ++ .unwatch false 5 ::
    [.watch false 5, .start, .setUp, .select [5], .take, .call])).calls = some [(5, 0), (5, 1)] := by decide +kernel

theorem inside_run {w w' : W} {as : List Act} {cs todo : List Reg} {r : Reg} (hp : w.phase = .round (some r) todo) (hr : .ret ∉ as)
    (h : run w as = .ok w' cs) : w'.phase = .round (some r) todo := by
  induction as generalizing w cs with
  | nil => cases h; exact hp
  | cons a as ih =>
    obtain ⟨w1, c1, c2, h1, h2, rfl⟩ := run_cons_ok h
    have hr2 : .ret ∉ as := List.not_mem_of_not_mem_cons hr
    have same : ∀ {w2}, w1 = w2 → w2.phase = w.phase → w'.phase = .round (some r) todo := by
      intro w2 e hq
      subst e
      exact ih (hq.trans hp) hr2 h2
    cases did h1 with
    | ret => exact absurd (List.mem_cons_self ..) hr
    | watch => exact same rfl rfl
    | unwatch => exact same rfl rfl
    | started => exact same rfl rfl
    | notify => exact same rfl rfl
    | stop => exact same rfl rfl
    | stopped => exact same rfl rfl
    | start _ _ hp1 => rw [hp] at hp1; cases hp1
    | join _ hp1 => rw [hp] at hp1; cases hp1
    | leave hp1 => rw [hp] at hp1; cases hp1
    | setUp hp1 => rw [hp] at hp1; cases hp1
    | select _ _ hp1 => rw [hp] at hp1; cases hp1
    | fails _ hp1 => rw [hp] at hp1; cases hp1
    | take _ _ hp1 => rw [hp] at hp1; cases hp1
    | quit _ _ hp1 => rw [hp] at hp1; cases hp1
    | call _ _ hp1 => rw [hp] at hp1; cases hp1
    | release hp1 => rw [hp] at hp1; cases hp1

/-- The same for a callback that stops watching its own descriptor. The full claim is about any descriptor; see the next
theorem. -/
theorem C98_unwatched_inside_partial {acts during rest : List Act} {fd : Int} {s : Nat} {w1 w2 w : W} {c1 cs : List Reg}
    (h1 : run W.init acts = .ok w1 c1) (hc : step w1 .call = .ok w2 [(fd, s)]) (hr : .ret ∉ during)
    (h : run W.init (acts ++ .call :: during ++ .unwatch true fd :: rest) = .ok w cs) :
    ∃ c2 c3, cs = c1 ++ [(fd, s)] ++ c2 ++ c3 ∧ ∀ s, (fd, s) ∈ c3 → registrations (acts ++ .call :: during) ≤ s := by
  obtain ⟨w3, d1, d2, k1, k2, rfl⟩ := run_append_ok h
  have hi := inv_of k1
  obtain ⟨v1, e1, e2, k3, k4, rfl⟩ := run_append_ok k1
  rw [h1] at k3
  cases k3
  obtain ⟨v2, e3, e4, k5, k6, rfl⟩ := run_cons_ok k4
  rw [hc] at k5
  cases k5
  obtain ⟨w4, e5, e6, k7, k8, rfl⟩ := run_cons_ok k2
  have hp : ∃ todo, w3.phase = .round (some (fd, s)) todo := by
    cases did hc with
    | call r todo hp => exact ⟨todo, inside_run (w := { w1 with phase := .round (some (fd, s)) todo }) rfl hr k6⟩
  obtain ⟨todo, hp⟩ := hp
  refine ⟨e4, e5 ++ e6, by simp, ?_⟩
  cases did k7 with
  | unwatch own f h0 =>
    have hf := hi.fits
    rw [hp] at hf
    obtain ⟨-, -, -, -, -, -, -, -, hlt, -⟩ := hf
    have hg : Gone fd (registrations (acts ++ .call :: during)) { w3 with watched := w3.watched.filter (fun e => e.1 ≠ fd) } := by
      refine ⟨Nat.le_of_eq hi.serial.symm, ?_, ?_⟩
      · intro e he hf
        have := (List.mem_filter.mp he).2
        simp only [decide_eq_true_eq] at this
        exact absurd hf this
      · intro e he hf
        simp only [W.todo, hp] at he
        have := hlt (fd, s) rfl e he
        simp only [hf] at this
        omega
    intro t ht
    exact gone_run (sorted_step hi.sorted k7) hg k8 (fd, t) (by simpa using ht) rfl

example : (run W.init ([.watch false 5, .start, .notify, .setUp, .select [5], .take] ++ .call :: [.watch true 7] ++ .unwatch true 5 ::
    [.ret, .release, .start, .notify, .setUp, .select [7], .take, .call])).calls = some [(5, 0), (7, 1)] := by decide +kernel

/-- A callback can register and stop watching descriptors without waiting for anybody. -/
theorem C98_reentrant {w : W} {r : Reg} {todo : List Reg} (h : w.phase = .round (some r) todo) (fd : Int) :
    step w (.watch true fd) ≠ .blocked ∧ step w (.unwatch true fd) ≠ .blocked := by
  simp [step, watch, unwatch, W.enters, h]

/-- A callback that stops watching another descriptor of its round does not stop it. -/
theorem C98_unwatched_inside_violated : ∃ acts, (run W.init acts).calls = some [(5, 0)] ∧
    (run W.init (acts ++ [.unwatch true 7, .ret, .call])).calls = some [(5, 0), (7, 1)] ∧ registrations acts = 2 :=
  ⟨[.watch false 5, .start, .notify, .watch false 7, .start, .notify, .setUp, .select [5, 7], .take, .call], by decide +kernel⟩

/-! ## Stale reports -/

theorem registered_before {fd : Int} {n : Nat} {r : Option Nat} {s : Nat} {mid : List Act} (hw : ∀ own, .watch own fd ∉ mid)
    (h : registeredFrom fd n r mid = some s) : r = some s := by
  induction mid generalizing n r with
  | nil => exact h
  | cons a as ih =>
    simp only [registeredFrom] at h
    have := ih (fun own ho => hw own (List.mem_cons_of_mem _ ho)) h
    cases a with
    | watch own f =>
      have hf : f ≠ fd := by
        intro e
        subst e
        exact hw own (List.mem_cons_self ..)
      simpa [says, hf] using this
    | unwatch own f =>
      simp only [says] at this
      split at this
      · simp at this
      · simpa using this
    | join => simp [says] at this
    | _ => simpa [says] using this

/-- A callback is called because its own descriptor was reported: it was already registered when `select` returned, if nobody
registers a callback for that descriptor between `select` and the round. The full claim has no such condition. -/
theorem C98_reported_partial {acts : List Act} {w w' : W} {cs : List Reg} (h : run W.init acts = .ok w cs) {fd : Int} {s : Nat}
    (hc : step w .call = .ok w' [(fd, s)]) :
    ∃ before ready mid after, acts = before ++ .select ready :: mid ++ .take :: after ∧ .take ∉ mid ∧ .release ∉ after ∧ fd ∈ ready ∧
      ((∀ own, .watch own fd ∉ mid) → registered fd before = some s) := by
  obtain ⟨b, rd, m, af, e, hm, ha, hr, hg⟩ := C98_only h hc
  refine ⟨b, rd, m, af, e, hm, ha, hr, ?_⟩
  intro hw
  unfold registered at hg
  rw [registeredFrom_append] at hg
  exact registered_before (mid := .select rd :: m) (by simpa using hw) hg

/-- A descriptor is closed and its number used again while the thread is between `select` and the round: the callback of the
new descriptor is called although `select` never reported it. -/
theorem C98_stale_violated : (run W.init
    [.watch false 5, .start, .notify, .setUp, .select [5], .unwatch false 5, .watch false 5, .start, .notify, .take, .call]).calls = some [(5, 1)] ∧
    registered 5 [.watch false 5, .start, .notify, .setUp] = some 0 := by decide +kernel

/-! ## Every watched descriptor is served -/

/-- The descriptor is on its way to its callback. -/
def Served (fd : Int) (w : W) : Prop := (∃ s, (fd, s) ∈ w.watched) ∧ w.running = true ∧
  ((∃ set, w.phase = .waiting set ∧ fd ∈ set) ∨ (∃ r n, w.phase = .woken r n ∧ fd ∈ r) ∨ ∃ cur todo s, w.phase = .round cur todo ∧ (fd, s) ∈ todo)

theorem served_step {fd : Int} {w w' : W} {a : Act} {c : List Reg} (hs : Sorted w.watched) (hj : Served fd w) (h : step w a = .ok w' c)
    (h1 : ∀ own, a ≠ .unwatch own fd) (h2 : a ≠ .stop) (h3 : a ≠ .fails) (h4 : ∀ r, a = .select r → fd ∈ r) :
    (∃ s, (fd, s) ∈ c) ∨ Served fd w' := by
  obtain ⟨⟨s, hw⟩, hr, hp⟩ := hj
  cases did h with
  | watch own f h0 =>
    refine .inr ⟨?_, hr, hp⟩
    by_cases hf : fd = f
    · exact ⟨w.serial, (mem_put hs _).mpr (.inl (by rw [hf]))⟩
    · exact ⟨s, (mem_put hs _).mpr (.inr ⟨hw, hf⟩)⟩
  | unwatch own f h0 =>
    refine .inr ⟨⟨s, List.mem_filter.mpr ⟨hw, ?_⟩⟩, hr, hp⟩
    simp only [decide_eq_true_eq]
    intro e
    exact h1 own (by rw [← e])
  | started => exact .inr ⟨⟨s, hw⟩, hr, hp⟩
  | start h0 h9 => rw [hr] at h9; cases h9
  | notify => exact .inr ⟨⟨s, hw⟩, hr, hp⟩
  | stop => exact absurd rfl h2
  | stopped => exact absurd rfl h2
  | join h0 hp0 =>
    rcases hp with ⟨_, hq, -⟩ | ⟨_, _, hq, -⟩ | ⟨_, _, _, hq, -⟩ <;> rw [hp0] at hq <;> cases hq
  | leave hp0 =>
    rcases hp with ⟨_, hq, -⟩ | ⟨_, _, hq, -⟩ | ⟨_, _, _, hq, -⟩ <;> rw [hp0] at hq <;> cases hq
  | setUp hp0 =>
    rcases hp with ⟨_, hq, -⟩ | ⟨_, _, hq, -⟩ | ⟨_, _, _, hq, -⟩ <;> rw [hp0] at hq <;> cases hq
  | select ready set hp0 h5 h6 => exact .inr ⟨⟨s, hw⟩, hr, .inr (.inl ⟨ready, w.pipe, rfl, h4 ready rfl⟩)⟩
  | fails => exact absurd rfl h3
  | take ready noted hp0 h0 =>
    rcases hp with ⟨_, hq, -⟩ | ⟨r, _, hq, hf⟩ | ⟨_, _, _, hq, -⟩
    · rw [hp0] at hq; cases hq
    · rw [hp0] at hq
      cases hq
      exact .inr ⟨⟨s, hw⟩, hr, .inr (.inr ⟨none, _, s, rfl, List.mem_filter.mpr ⟨hw, by simpa using hf⟩⟩)⟩
    · rw [hp0] at hq; cases hq
  | quit ready noted hp0 h0 => rw [hr] at h0; cases h0
  | call r todo hp0 =>
    rcases hp with ⟨_, hq, -⟩ | ⟨_, _, hq, -⟩ | ⟨cur, t, s', hq, hm⟩
    · rw [hp0] at hq; cases hq
    · rw [hp0] at hq; cases hq
    · rw [hp0] at hq
      cases hq
      rcases List.mem_cons.mp hm with e | hm
      · exact .inl ⟨s', by rw [e]; exact List.mem_cons_self ..⟩
      · exact .inr ⟨⟨s, hw⟩, hr, .inr (.inr ⟨_, _, s', rfl, hm⟩)⟩
  | ret r todo hp0 =>
    rcases hp with ⟨_, hq, -⟩ | ⟨_, _, hq, -⟩ | ⟨cur, t, s', hq, hm⟩
    · rw [hp0] at hq; cases hq
    · rw [hp0] at hq; cases hq
    · rw [hp0] at hq
      cases hq
      exact .inr ⟨⟨s, hw⟩, hr, .inr (.inr ⟨_, _, s', rfl, hm⟩)⟩
  | release hp0 =>
    rcases hp with ⟨_, hq, -⟩ | ⟨_, _, hq, -⟩ | ⟨cur, t, s', hq, hm⟩
    · rw [hp0] at hq; cases hq
    · rw [hp0] at hq; cases hq
    · rw [hp0] at hq
      cases hq
      cases hm

theorem served_run {fd : Int} {w w' : W} {as : List Act} {cs : List Reg} (hs : Sorted w.watched) (hj : Served fd w) (h : run w as = .ok w' cs)
    (h1 : ∀ own, .unwatch own fd ∉ as) (h2 : .stop ∉ as) (h3 : .fails ∉ as) (h4 : ∀ r, .select r ∈ as → fd ∈ r) :
    (∃ s, (fd, s) ∈ cs) ∨ Served fd w' := by
  induction as generalizing w cs with
  | nil => cases h; exact .inr hj
  | cons a as ih =>
    obtain ⟨w1, c1, c2, k1, k2, rfl⟩ := run_cons_ok h
    simp only [List.mem_cons, not_or] at h1 h2 h3
    rcases served_step hs hj k1 (fun own e => (h1 own).1 e.symm) (fun e => h2.1 e.symm) (fun e => h3.1 e.symm)
        (fun r e => h4 r (by rw [e]; exact List.mem_cons_self ..)) with ⟨s, hc⟩ | hj'
    · exact .inl ⟨s, List.mem_append_left _ hc⟩
    · rcases ih (sorted_step hs k1) hj' k2 (fun own => (h1 own).2) h2.2 h3.2 (fun r hr => h4 r (List.mem_cons_of_mem _ hr)) with ⟨s, hc⟩ | hj'
      · exact .inl ⟨s, List.mem_append_right _ hc⟩
      · exact .inr hj'

/-- A descriptor that is watched and stays readable has its callback called in every turn of the thread: whatever else
happens, between one preparation of `select` and the next. -/
theorem C98_served {acts mid : List Act} {fd : Int} {w1 w : W} {c1 cs : List Reg} (h1 : run W.init acts = .ok w1 c1)
    (hw : registered fd acts ≠ none) (hrun : w1.running = true) (h : run w1 (.setUp :: mid ++ [.setUp]) = .ok w cs)
    (hu : ∀ own, .unwatch own fd ∉ mid) (hs : .stop ∉ mid) (hf : .fails ∉ mid) (hr : ∀ r, .select r ∈ mid → fd ∈ r) :
    ∃ s, (fd, s) ∈ cs := by
  have hi := inv_of h1
  obtain ⟨s, hw⟩ := Option.ne_none_iff_exists'.mp hw
  have hw := (hi.watched (fd, s)).mpr hw
  obtain ⟨w2, c2, c3, k1, k2, rfl⟩ := run_append_ok h
  obtain ⟨w3, c4, c5, k3, k4, rfl⟩ := run_cons_ok k1
  cases did k3 with
  | leave hp h0 => rw [hrun] at h0; cases h0
  | setUp hp h0 hg =>
    have hj : Served fd { w1 with phase := .waiting (w1.watched.map (·.1)) } :=
      ⟨⟨s, hw⟩, hrun, .inl ⟨_, rfl, List.mem_map_of_mem (f := (·.1)) hw⟩⟩
    rcases served_run (w := { w1 with phase := .waiting (w1.watched.map (·.1)) }) hi.sorted hj k4 hu hs hf hr with ⟨s, hc⟩ | ⟨-, -, hp'⟩
    · exact ⟨s, List.mem_append_left _ (List.mem_append_right _ hc)⟩
    · exfalso
      have ht : w2.phase = .top := by
        cases did (run_one k2) with
        | leave hp => exact hp
        | setUp hp => exact hp
      rcases hp' with ⟨_, hq, -⟩ | ⟨_, _, hq, -⟩ | ⟨_, _, _, hq, -⟩ <;> rw [ht] at hq <;> cases hq

/-- Non-vacuous: a turn in which another thread registers a second descriptor and the callback registers a third. -/
example : registered 5 [.watch false 5, .start, .notify] ≠ none ∧
    (run W.init [.watch false 5, .start, .notify]).ends (fun w => w.running && decide ((run w (.setUp :: [.watch false 7, .start,
      .select [5], .notify, .take, .call, .watch true 9, .start, .ret, .release, .notify] ++ [.setUp])).calls = some [(5, 0)])) = true := by
  decide +kernel

/-- No registration is slept through: while the thread waits for other descriptors than a registered one, either the call
that registered it has not returned, or the wait can end at once. -/
theorem C98_awake {acts : List Act} {w : W} {cs : List Reg} (h : run W.init acts = .ok w cs) {set : List Int} (hp : w.phase = .waiting set)
    {fd : Int} (hw : registered fd acts ≠ none) (hn : fd ∉ set) (hd : w.toStart = 0 ∧ w.toNotify = 0) :
    ∃ w', step w (.select []) = .ok w' [] := by
  have hi := inv_of h
  obtain ⟨s, hw⟩ := Option.ne_none_iff_exists'.mp hw
  rcases hi.wake set hp (fd, s) ((hi.watched (fd, s)).mpr hw) with h | h | h
  · exact absurd h hn
  · simp only [step, select, hp, h]
    exact ⟨_, rfl⟩
  · omega

example : registered 7 [.watch false 5, .start, .notify, .setUp, .watch false 7, .start, .notify] ≠ none ∧
    (run W.init [.watch false 5, .start, .notify, .setUp, .watch false 7, .start, .notify]).ends
      (fun w => decide (w.phase = .waiting [5] ∧ w.toStart = 0 ∧ w.toNotify = 0)) = true := by decide +kernel

/-! ## Failures -/

theorem step_undefined {w : W} {a : Act} (h : step w a = .undefined) : ∃ e ∈ w.watched, ¬(0 ≤ e.1 ∧ e.1 < 1024) := by
  cases a with
  | setUp =>
    simp only [step, setUp] at h
    split at h
    · cases h
    · split at h
      · cases h
      · split at h
        · cases h
        · rename_i h1
          simp only [Bool.not_eq_true, List.all_eq_false] at h1
          obtain ⟨e, he, hs⟩ := h1
          exact ⟨e, he, by simpa [settable] using hs⟩
  | watch => simp only [step, watch] at h; split at h <;> cases h
  | unwatch => simp only [step, unwatch] at h; split at h <;> cases h
  | start => simp only [step, start] at h; repeat (first | (split at h) | cases h)
  | notify => simp only [step, notify] at h; split at h <;> cases h
  | stop => simp only [step, stop] at h; split at h <;> cases h
  | join => simp only [step, join] at h; split at h <;> cases h
  | select => simp only [step, select] at h; repeat (first | (split at h) | cases h)
  | fails => simp only [step, fails] at h; repeat (first | (split at h) | cases h)
  | take => simp only [step, take] at h; repeat (first | (split at h) | cases h)
  | call => simp only [step, call] at h; repeat (first | (split at h) | cases h)
  | ret => simp only [step, ret] at h; repeat (first | (split at h) | cases h)
  | release => simp only [step, release] at h; repeat (first | (split at h) | cases h)

theorem run_undefined {w : W} {as : List Act} (hs : Sorted w.watched) (hw : ∀ e ∈ w.watched, 0 ≤ e.1 ∧ e.1 < 1024)
    (ha : ∀ own fd, .watch own fd ∈ as → 0 ≤ fd ∧ fd < 1024) : run w as ≠ .undefined := by
  induction as generalizing w with
  | nil => simp [run]
  | cons a as ih =>
    intro h
    simp only [run] at h
    split at h
    · rename_i w1 c h1
      have hw1 : ∀ e ∈ w1.watched, 0 ≤ e.1 ∧ e.1 < 1024 := by
        cases did h1 with
        | watch own fd h0 =>
          intro e he
          rcases (mem_put hs e).mp he with h2 | h2
          · subst h2; exact ha own fd (List.mem_cons_self ..)
          · exact hw e h2.1
        | unwatch => intro e he; exact hw e (List.mem_filter.mp he).1
        | join => simp
        | _ => exact hw
      have := ih (sorted_step hs h1) hw1 (fun own fd hm => ha own fd (List.mem_cons_of_mem _ hm))
      split at h
      · cases h
      · exact this h
    · obtain ⟨e, he, hn⟩ := step_undefined h
      exact hn (hw e he)

/-- No behaviour is undefined as long as the descriptors are in the range of a descriptor set. The full claim has no such
condition. -/
theorem C98_range_partial {acts : List Act} (h : ∀ own fd, .watch own fd ∈ acts → 0 ≤ fd ∧ fd < 1024) : run W.init acts ≠ .undefined :=
  run_undefined (by simp [Sorted, W.init]) (by simp [W.init]) h

/-- With more than a thousand descriptors open, for instance one for each host, the next one that is watched is out of range;
so is -1, the descriptor of a socket that was closed. -/
theorem C98_range_violated : run W.init [.watch false 1024, .start, .notify, .setUp] = .undefined ∧
    run W.init [.watch false (-1), .start, .notify, .setUp] = .undefined := by decide +kernel

/-- Does no thread get to `tryStartThread` between a call of `stopThread` and its return? -/
def orderly : Bool → List Act → Bool
  | _, [] => true
  | b, .start :: as => !b && orderly b as
  | _, .stop :: as => orderly true as
  | _, .join :: as => orderly false as
  | b, _ :: as => orderly b as

theorem step_terminated {w : W} {a : Act} (h : step w a = .terminated) : a = .start ∧ w.running = false ∧ w.phase ≠ .off := by
  cases a with
  | start =>
    simp only [step, start] at h
    split at h
    · cases h
    · split at h
      · cases h
      · split at h
        · cases h
        · exact ⟨rfl, by simpa using ‹¬w.running = true›, ‹_›⟩
  | setUp => simp only [step, setUp] at h; repeat (first | (split at h) | cases h)
  | watch => simp only [step, watch] at h; split at h <;> cases h
  | unwatch => simp only [step, unwatch] at h; split at h <;> cases h
  | notify => simp only [step, notify] at h; split at h <;> cases h
  | stop => simp only [step, stop] at h; split at h <;> cases h
  | join => simp only [step, join] at h; split at h <;> cases h
  | select => simp only [step, select] at h; repeat (first | (split at h) | cases h)
  | fails => simp only [step, fails] at h; repeat (first | (split at h) | cases h)
  | take => simp only [step, take] at h; repeat (first | (split at h) | cases h)
  | call => simp only [step, call] at h; repeat (first | (split at h) | cases h)
  | ret => simp only [step, ret] at h; repeat (first | (split at h) | cases h)
  | release => simp only [step, release] at h; repeat (first | (split at h) | cases h)

theorem run_terminated {w : W} {b : Bool} {as : List Act} (hw : b = false → w.running = false → w.phase = .off)
    (ho : orderly b as = true) : run w as ≠ .terminated := by
  induction as generalizing w b with
  | nil => simp [run]
  | cons a as ih =>
    intro h
    simp only [run] at h
    split at h
    · rename_i w1 c h1
      have key : ∃ b1, (b1 = false → w1.running = false → w1.phase = .off) ∧ orderly b1 as = true := by
        cases did h1 with
        | start h0 hr hp =>
          simp only [orderly, Bool.and_eq_true] at ho
          exact ⟨b, by simp, ho.2⟩
        | started h0 hr =>
          simp only [orderly, Bool.and_eq_true] at ho
          exact ⟨b, by simp [hr], ho.2⟩
        | stop => exact ⟨true, by simp, ho⟩
        | stopped => exact ⟨true, by simp, ho⟩
        | join => exact ⟨false, by simp, ho⟩
        | watch => exact ⟨b, hw, ho⟩
        | unwatch => exact ⟨b, hw, ho⟩
        | notify => exact ⟨b, hw, ho⟩
        | leave hp hr => refine ⟨b, fun hb => ?_, ho⟩; have := hw hb hr; rw [hp] at this; cases this
        | setUp hp hr => exact ⟨b, by simp [hr], ho⟩
        | select r s hp => refine ⟨b, fun hb hr => ?_, ho⟩; have := hw hb hr; rw [hp] at this; cases this
        | fails s hp => refine ⟨b, fun hb hr => ?_, ho⟩; have := hw hb hr; rw [hp] at this; cases this
        | take r n hp hr => exact ⟨b, by simp [hr], ho⟩
        | quit r n hp hr => refine ⟨b, fun hb => ?_, ho⟩; have := hw hb hr; rw [hp] at this; cases this
        | call r t hp => refine ⟨b, fun hb hr => ?_, ho⟩; have := hw hb hr; rw [hp] at this; cases this
        | ret r t hp => refine ⟨b, fun hb hr => ?_, ho⟩; have := hw hb hr; rw [hp] at this; cases this
        | release hp => refine ⟨b, fun hb hr => ?_, ho⟩; have := hw hb hr; rw [hp] at this; cases this
      obtain ⟨b1, hb1, ho1⟩ := key
      have := ih hb1 ho1
      split at h
      · cases h
      · exact this h
    · obtain ⟨rfl, hr, hp⟩ := step_terminated h
      cases b with
      | false => exact hp (hw rfl hr)
      | true => simp [orderly] at ho

/-- The process is not ended by the watcher, if nobody registers a descriptor while the watcher is being stopped. The full
claim has no such condition. -/
theorem C98_survives_partial {acts : List Act} (h : orderly false acts = true) : run W.init acts ≠ .terminated :=
  run_terminated (by simp [W.init]) h

example : orderly false (both ++ [.stop, .notify, .setUp, .join, .watch false 5, .start, .notify]) = true ∧
    (run W.init (both ++ [.stop, .notify, .setUp, .join, .watch false 5, .start, .notify])).calls = some [(5, 0), (7, 1)] := by
  decide +kernel

/-- A registration while the watcher is being stopped ends the process. -/
theorem C98_survives_violated : run W.init [.watch false 5, .start, .notify, .stop, .watch false 7, .start] = .terminated := by decide +kernel

theorem quiet_run {w w' : W} {as : List Act} {cs : List Reg} (hp : w.phase = .off) (hs : .start ∉ as) (h : run w as = .ok w' cs) : cs = [] := by
  induction as generalizing w cs with
  | nil => cases h; rfl
  | cons a as ih =>
    obtain ⟨w1, c1, c2, h1, h2, rfl⟩ := run_cons_ok h
    have hs2 : .start ∉ as := List.not_mem_of_not_mem_cons hs
    have same : ∀ {w2}, w1 = w2 → w2.phase = .off → c1 = [] → c1 ++ c2 = [] := by
      intro w2 e hq hc
      subst e hc
      exact ih hq hs2 h2
    cases did h1 with
    | start => exact absurd (List.mem_cons_self ..) hs
    | started => exact absurd (List.mem_cons_self ..) hs
    | watch => exact same rfl hp rfl
    | unwatch => exact same rfl hp rfl
    | notify => exact same rfl hp rfl
    | stop => exact same rfl hp rfl
    | stopped => exact same rfl hp rfl
    | join => exact same rfl rfl rfl
    | leave hp1 => rw [hp] at hp1; cases hp1
    | setUp hp1 => rw [hp] at hp1; cases hp1
    | select _ _ hp1 => rw [hp] at hp1; cases hp1
    | fails _ hp1 => rw [hp] at hp1; cases hp1
    | take _ _ hp1 => rw [hp] at hp1; cases hp1
    | quit _ _ hp1 => rw [hp] at hp1; cases hp1
    | call _ _ hp1 => rw [hp] at hp1; cases hp1
    | ret _ _ hp1 => rw [hp] at hp1; cases hp1
    | release hp1 => rw [hp] at hp1; cases hp1

/-- When `stopThread` has returned nothing is registered any more, and no callback is called until somebody registers one. -/
theorem C98_stopped {acts rest : List Act} {w : W} {cs : List Reg} (hs : .start ∉ rest) (h : run W.init (acts ++ .join :: rest) = .ok w cs) :
    ∃ w1, run W.init acts = .ok w1 cs ∧ ∀ fd, registered fd (acts ++ [.join]) = none := by
  obtain ⟨w1, c1, c2, h1, h2, rfl⟩ := run_append_ok h
  obtain ⟨w2, c3, c4, h3, h4, rfl⟩ := run_cons_ok h2
  refine ⟨w1, ?_, fun fd => by simp [registered_snoc, says]⟩
  cases did h3 with
  | join h0 hp =>
    rw [quiet_run (w := { w1 with phase := .off, stopping := false, watched := [] }) rfl hs h4]
    simpa using h1

example : (run W.init (both ++ [.stop, .notify, .setUp] ++ .join :: [.unwatch false 5, .stop])).calls = some [(5, 0), (7, 1)] := by
  decide +kernel

end Verif.Watch
