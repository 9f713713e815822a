import Verif.Watch.Lemmas
/-! What a history of the descriptor watcher says about its state. -/

namespace Verif.Watch

theorem registrations_append (as bs : List Act) : registrations (as ++ bs) = registrations as + registrations bs := by
  induction as with
  | nil => simp [registrations]
  | cons a as ih =>
    cases a <;> simp only [List.cons_append, registrations, ih] <;> omega

theorem registeredFrom_append (fd : Int) (n : Nat) (r : Option Nat) (as bs : List Act) :
    registeredFrom fd n r (as ++ bs) = registeredFrom fd (n + registrations as) (registeredFrom fd n r as) bs := by
  induction as generalizing n r with
  | nil => rfl
  | cons a as ih =>
    simp only [List.cons_append, registeredFrom, ih]
    have : registrations (a :: as) = registrations [a] + registrations as := by
      rw [← registrations_append]; rfl
    rw [this, Nat.add_assoc]

theorem registered_snoc (fd : Int) (as : List Act) (a : Act) :
    registered fd (as ++ [a]) = (says fd (registrations as) a).getD (registered fd as) := by
  unfold registered
  rw [registeredFrom_append]
  simp [registeredFrom]

/-- How the history explains where the thread is. -/
def Fits (past : List Act) : Phase → Prop
  | .woken ready _ => ∃ before mid, past = before ++ .select ready :: mid ∧ .take ∉ mid
  | .round cur todo => ∃ before ready mid after, past = before ++ .select ready :: mid ++ .take :: after ∧ .take ∉ mid ∧
      .release ∉ after ∧ Sorted todo ∧ (∀ r, cur = some r → ∀ e ∈ todo, r.1 < e.1) ∧
      ∀ e ∈ todo, e.1 ∈ ready ∧ registered e.1 (before ++ .select ready :: mid) = some e.2
  | _ => True

/-- What holds after every history. -/
structure Inv (past : List Act) (w : W) : Prop where
  sorted : Sorted w.watched
  serial : w.serial = registrations past
  watched : ∀ e, e ∈ w.watched ↔ registered e.1 past = some e.2
  old : ∀ e ∈ w.watched, e.2 < w.serial
  fits : Fits past w.phase
  wake : ∀ set, w.phase = .waiting set → ∀ e ∈ w.watched, e.1 ∈ set ∨ w.pipe = true ∨ 0 < w.toStart + w.toNotify
  alive : w.running = true → w.phase ≠ .off ∧ w.phase ≠ .ended

theorem inv_init : Inv [] W.init := by
  constructor <;> simp [W.init, Sorted, registrations, registered, registeredFrom, Fits]

/-- Actions that leave the thread where it is. -/
theorem fits_same {past : List Act} {p : Phase} {a : Act} (h : Fits past p) (h1 : a ≠ .take) (h2 : a ≠ .release) : Fits (past ++ [a]) p := by
  cases p with
  | woken ready noted =>
    obtain ⟨b, m, e, hm⟩ := h
    refine ⟨b, m ++ [a], by simp [e], ?_⟩
    simp only [List.mem_append, List.mem_singleton]
    rintro (h | h)
    · exact hm h
    · exact h1 h.symm
  | round cur todo =>
    obtain ⟨b, r, m, af, e, hm, ha, hs, hc, ht⟩ := h
    refine ⟨b, r, m, af ++ [a], by simp [e], hm, ?_, hs, hc, ht⟩
    simp only [List.mem_append, List.mem_singleton]
    rintro (h | h)
    · exact ha h
    · exact h2 h.symm
  | _ => trivial

theorem enters_waiting {w : W} {own : Bool} {set : List Int} (_ : w.enters own = true) (hp : w.phase = .waiting set) : own = false := by
  simp_all [W.enters]

theorem inv_step {past : List Act} {w w' : W} {a : Act} {c : List Reg} (hi : Inv past w) (h : step w a = .ok w' c) : Inv (past ++ [a]) w' := by
  have hreg : ∀ fd, says fd (registrations past) a = none → registered fd (past ++ [a]) = registered fd past := by
    intro fd h
    rw [registered_snoc, h]
    rfl
  have quiet : (∀ fd, says fd (registrations past) a = none) → ∀ e, e ∈ w.watched ↔ registered e.1 (past ++ [a]) = some e.2 := by
    intro h e
    rw [hreg _ (h _)]
    exact hi.watched e
  have hser : registrations [a] = 0 → w.serial = registrations (past ++ [a]) := by
    intro h
    rw [registrations_append, h]
    exact hi.serial
  cases did h with
  | watch own fd h0 =>
    refine ⟨sorted_put hi.sorted, ?_, ?_, ?_, fits_same hi.fits (by simp) (by simp), ?_, hi.alive⟩
    · rw [registrations_append]; simp [registrations, hi.serial]
    · intro e
      simp only [mem_put hi.sorted, registered_snoc, says]
      by_cases hf : fd = e.1
      · simp only [if_pos hf, Option.getD_some, Option.some.injEq]
        constructor
        · rintro (h | h)
          · rw [h, hi.serial]
          · exact absurd hf.symm h.2
        · intro h
          left
          rw [hi.serial, h, hf]
      · simp only [if_neg hf, Option.getD_none]
        rw [← hi.watched e]
        constructor
        · rintro (h | h)
          · rw [h] at hf; exact absurd rfl hf
          · exact h.1
        · intro h
          exact .inr ⟨h, Ne.symm hf⟩
    · intro e he
      rcases (mem_put hi.sorted e).mp he with h | h
      · subst h; exact Nat.lt_succ_self _
      · exact Nat.lt_succ_of_lt (hi.old e h.1)
    · intro set hp e he
      exact .inr (.inr (by show 0 < w.toStart + 1 + w.toNotify; omega))
  | unwatch own fd h0 =>
    refine ⟨hi.sorted.filter _, hser rfl, ?_, ?_, fits_same hi.fits (by simp) (by simp), ?_, hi.alive⟩
    · intro e
      simp only [List.mem_filter, decide_eq_true_eq, registered_snoc, says]
      by_cases hf : fd = e.1
      · simp [hf]
      · simp only [if_neg hf, Option.getD_none, ← hi.watched e]
        exact ⟨fun h => h.1, fun h => ⟨h, Ne.symm hf⟩⟩
    · intro e he
      exact hi.old e (List.mem_filter.mp he).1
    · intro set hp e he
      exact hi.wake set hp e (List.mem_filter.mp he).1
  | started h0 h1 =>
    refine ⟨hi.sorted, hser rfl, quiet (fun _ => rfl), hi.old, fits_same hi.fits (by simp) (by simp), ?_, hi.alive⟩
    intro set hp e he
    exact .inr (.inr (by show 0 < w.toStart - 1 + (w.toNotify + 1); omega))
  | start h0 h1 hp0 =>
    exact ⟨hi.sorted, hser rfl, quiet (fun _ => rfl), hi.old, trivial, by simp, by simp⟩
  | notify h0 =>
    refine ⟨hi.sorted, hser rfl, quiet (fun _ => rfl), hi.old, fits_same hi.fits (by simp) (by simp), ?_, hi.alive⟩
    intro set hp e he
    exact .inr (.inl rfl)
  | stop h0 =>
    refine ⟨hi.sorted, hser rfl, quiet (fun _ => rfl), hi.old, fits_same hi.fits (by simp) (by simp), ?_, by simp⟩
    intro set hp e he
    exact .inr (.inr (by show 0 < w.toStart + (w.toNotify + 1); omega))
  | stopped h0 => exact ⟨hi.sorted, hser rfl, quiet (fun _ => rfl), hi.old, fits_same hi.fits (by simp) (by simp), hi.wake, hi.alive⟩
  | join h0 hp0 =>
    refine ⟨by simp [Sorted], hser rfl, ?_, by simp, trivial, by simp, ?_⟩
    · intro e
      simp [registered_snoc, says]
    · intro hr
      exact absurd hp0 (hi.alive hr).2
  | leave hp0 h0 => exact ⟨hi.sorted, hser rfl, quiet (fun _ => rfl), hi.old, trivial, by simp, by simp [h0]⟩
  | setUp hp0 h0 hs =>
    refine ⟨hi.sorted, hser rfl, quiet (fun _ => rfl), hi.old, trivial, ?_, by simp⟩
    intro set hp e he
    cases hp
    exact .inl (List.mem_map_of_mem he)
  | select ready set hp0 hr h0 =>
    exact ⟨hi.sorted, hser rfl, quiet (fun _ => rfl), hi.old, ⟨past, [], by simp, by simp⟩, by simp, by simp⟩
  | fails set hp0 => exact ⟨hi.sorted, hser rfl, quiet (fun _ => rfl), hi.old, trivial, by simp, by simp⟩
  | take ready noted hp0 h0 =>
    refine ⟨hi.sorted, hser rfl, quiet (fun _ => rfl), hi.old, ?_, by simp, by simp⟩
    have hf := hi.fits
    rw [hp0] at hf
    obtain ⟨b, m, e, hm⟩ := hf
    refine ⟨b, ready, m, [], by simp [e], hm, by simp, hi.sorted.filter _, by simp, ?_⟩
    intro x hx
    obtain ⟨hx1, hx2⟩ := List.mem_filter.mp hx
    refine ⟨by simpa using hx2, ?_⟩
    rw [← e]
    exact (hi.watched x).mp hx1
  | quit ready noted hp0 h0 => exact ⟨hi.sorted, hser rfl, quiet (fun _ => rfl), hi.old, trivial, by simp, by simp [h0]⟩
  | call r todo hp0 =>
    refine ⟨hi.sorted, hser rfl, quiet (fun _ => rfl), hi.old, ?_, by simp, by simp⟩
    have hf := hi.fits
    rw [hp0] at hf
    obtain ⟨b, rd, m, af, e, hm, ha, hs, hc, ht⟩ := hf
    have hs' := List.pairwise_cons.mp hs
    refine ⟨b, rd, m, af ++ [.call], by simp [e], hm, by simpa using ha, hs'.2, ?_, fun x hx => ht x (List.mem_cons_of_mem _ hx)⟩
    intro r' hr' x hx
    cases hr'
    exact hs'.1 x hx
  | ret r todo hp0 =>
    refine ⟨hi.sorted, hser rfl, quiet (fun _ => rfl), hi.old, ?_, by simp, by simp⟩
    have hf := hi.fits
    rw [hp0] at hf
    obtain ⟨b, rd, m, af, e, hm, ha, hs, hc, ht⟩ := hf
    exact ⟨b, rd, m, af ++ [.ret], by simp [e], hm, by simpa using ha, hs, by simp, ht⟩
  | release hp0 => exact ⟨hi.sorted, hser rfl, quiet (fun _ => rfl), hi.old, trivial, by simp, by simp⟩

theorem inv_run {past : List Act} {w w' : W} {as : List Act} {cs : List Reg} (hi : Inv past w) (h : run w as = .ok w' cs) : Inv (past ++ as) w' := by
  induction as generalizing past w cs with
  | nil => cases h; simpa using hi
  | cons a as ih =>
    obtain ⟨w1, c1, c2, h1, h2, -⟩ := run_cons_ok h
    have := ih (inv_step hi h1) h2
    simpa using this

theorem inv_of {w : W} {as : List Act} {cs : List Reg} (h : run W.init as = .ok w cs) : Inv as w := by
  simpa using inv_run inv_init h

/-! ## Callbacks that are gone -/

/-- The callbacks of a round still to run. -/
def W.todo (w : W) : List Reg := match w.phase with
  | .round _ todo => todo
  | _ => []

/-- No callback older than `n` is registered for the descriptor or waits for its turn. -/
def Gone (fd : Int) (n : Nat) (w : W) : Prop := n ≤ w.serial ∧ (∀ e ∈ w.watched, e.1 = fd → n ≤ e.2) ∧ ∀ e ∈ w.todo, e.1 = fd → n ≤ e.2

theorem gone_step {fd : Int} {n : Nat} {w w' : W} {a : Act} {c : List Reg} (hs : Sorted w.watched) (hg : Gone fd n w) (h : step w a = .ok w' c) :
    Gone fd n w' ∧ ∀ e ∈ c, e.1 = fd → n ≤ e.2 := by
  obtain ⟨h0, h1, h2⟩ := hg
  cases did h with
  | watch own f h3 =>
    refine ⟨⟨Nat.le_succ_of_le h0, ?_, h2⟩, by simp⟩
    intro e he hf
    rcases (mem_put hs e).mp he with h | h
    · subst h; exact h0
    · exact h1 e h.1 hf
  | unwatch own f h3 => exact ⟨⟨h0, fun e he => h1 e (List.mem_filter.mp he).1, h2⟩, by simp⟩
  | join h3 hp => exact ⟨⟨h0, by simp, by simp [W.todo]⟩, by simp⟩
  | take ready noted hp h3 =>
    refine ⟨⟨h0, h1, ?_⟩, by simp⟩
    intro e he
    exact h1 e (List.mem_filter.mp he).1
  | call r todo hp =>
    have h2' : ∀ e ∈ r :: todo, e.1 = fd → n ≤ e.2 := by simpa only [W.todo, hp] using h2
    refine ⟨⟨h0, h1, fun e he => h2' e (List.mem_cons_of_mem _ he)⟩, ?_⟩
    intro e he
    exact h2' e (by simp_all)
  | ret r todo hp =>
    have h2' : ∀ e ∈ todo, e.1 = fd → n ≤ e.2 := by simpa only [W.todo, hp] using h2
    exact ⟨⟨h0, h1, h2'⟩, by simp⟩
  | started => exact ⟨⟨h0, h1, h2⟩, by simp⟩
  | notify => exact ⟨⟨h0, h1, h2⟩, by simp⟩
  | stop => exact ⟨⟨h0, h1, h2⟩, by simp⟩
  | stopped => exact ⟨⟨h0, h1, h2⟩, by simp⟩
  | _ => exact ⟨⟨h0, h1, by simp [W.todo]⟩, by simp⟩

theorem sorted_step {w w' : W} {a : Act} {c : List Reg} (hs : Sorted w.watched) (h : step w a = .ok w' c) : Sorted w'.watched := by
  cases did h with
  | watch => exact sorted_put hs
  | unwatch => exact hs.filter _
  | join => simp [Sorted]
  | _ => exact hs

theorem gone_run {fd : Int} {n : Nat} {w w' : W} {as : List Act} {cs : List Reg} (hs : Sorted w.watched) (hg : Gone fd n w) (h : run w as = .ok w' cs) :
    ∀ e ∈ cs, e.1 = fd → n ≤ e.2 := by
  induction as generalizing w cs with
  | nil => cases h; simp
  | cons a as ih =>
    obtain ⟨w1, c1, c2, h1, h2, rfl⟩ := run_cons_ok h
    obtain ⟨h3, h4⟩ := gone_step hs hg h1
    intro e he hf
    rcases List.mem_append.mp he with he | he
    · exact h4 e he hf
    · exact ih (sorted_step hs h1) h3 h2 e he hf

end Verif.Watch
