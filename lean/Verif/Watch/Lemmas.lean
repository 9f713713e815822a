import Verif.Watch.Spec
/-! Lemmas about the descriptor watcher. -/

namespace Verif.Watch

/-! ## The map -/

/-- Ascending by descriptor. -/
def Sorted (l : List Reg) : Prop := l.Pairwise (fun a b => a.1 < b.1)

theorem mem_put {fd : Int} {s : Nat} {l : List Reg} (hl : Sorted l) (e : Reg) :
    e ∈ put fd s l ↔ e = (fd, s) ∨ (e ∈ l ∧ e.1 ≠ fd) := by
  induction l with
  | nil => simp [put]
  | cons x t ih =>
    have hx := List.pairwise_cons.mp hl
    simp only [put]
    split
    · rename_i h1
      simp only [List.mem_cons]
      constructor
      · rintro (h | h | h)
        · exact .inl h
        · exact .inr ⟨.inl h, by subst h; omega⟩
        · exact .inr ⟨.inr h, by have := hx.1 _ h; omega⟩
      · rintro (h | ⟨h | h, -⟩)
        · exact .inl h
        · exact .inr (.inl h)
        · exact .inr (.inr h)
    · split
      · rename_i h1 h2
        simp only [List.mem_cons, ih hx.2]
        constructor
        · rintro (h | h | h)
          · exact .inr ⟨.inl h, by subst h; omega⟩
          · exact .inl h
          · exact .inr ⟨.inr h.1, h.2⟩
        · rintro (h | ⟨h | h, h'⟩)
          · exact .inr (.inl h)
          · exact .inl h
          · exact .inr (.inr ⟨h, h'⟩)
      · rename_i h1 h2
        have he : x.1 = fd := by omega
        simp only [List.mem_cons]
        constructor
        · rintro (h | h)
          · exact .inl h
          · exact .inr ⟨.inr h, by have := hx.1 _ h; omega⟩
        · rintro (h | ⟨h | h, h'⟩)
          · exact .inl h
          · subst h; exact absurd he h'
          · exact .inr h

theorem sorted_put {fd : Int} {s : Nat} {l : List Reg} (hl : Sorted l) : Sorted (put fd s l) := by
  induction l with
  | nil => simp [put, Sorted]
  | cons x t ih =>
    have hx := List.pairwise_cons.mp hl
    simp only [put]
    split
    · rename_i h1
      refine List.pairwise_cons.mpr ⟨?_, hl⟩
      intro e he
      rcases List.mem_cons.mp he with h | h
      · subst h; exact h1
      · have := hx.1 _ h
        exact Int.lt_trans h1 this
    · split
      · rename_i h1 h2
        refine List.pairwise_cons.mpr ⟨?_, ih hx.2⟩
        intro e he
        rcases (mem_put hx.2 e).mp he with h | h
        · subst h; exact h2
        · exact hx.1 _ h.1
      · rename_i h1 h2
        refine List.pairwise_cons.mpr ⟨?_, hx.2⟩
        intro e he
        have := hx.1 _ he
        show fd < e.1
        omega

/-! ## Histories -/

theorem run_append (w : W) (as bs : List Act) : run w (as ++ bs) =
    match run w as with
    | .ok w' cs => (match run w' bs with
      | .ok w'' ds => .ok w'' (cs ++ ds)
      | r => r)
    | r => r := by
  induction as generalizing w with
  | nil =>
    simp only [List.nil_append, run]
    cases run w bs <;> rfl
  | cons a as ih =>
    simp only [List.cons_append, run]
    cases step w a with
    | ok w1 c =>
      simp only [ih w1]
      cases run w1 as with
      | ok w2 cs =>
        simp only
        cases run w2 bs with
        | ok w3 ds => simp
        | _ => rfl
      | _ => rfl
    | _ => rfl

theorem run_append_ok {w w' : W} {as bs : List Act} {cs : List Reg} (h : run w (as ++ bs) = .ok w' cs) :
    ∃ w1 c1 c2, run w as = .ok w1 c1 ∧ run w1 bs = .ok w' c2 ∧ cs = c1 ++ c2 := by
  rw [run_append] at h
  cases h1 : run w as with
  | ok w1 c1 =>
    rw [h1] at h
    simp only at h
    cases h2 : run w1 bs with
    | ok w2 c2 =>
      rw [h2] at h
      cases h
      exact ⟨w1, c1, c2, rfl, h2, rfl⟩
    | _ => rw [h2] at h; cases h
  | _ => rw [h1] at h; cases h

theorem run_cons_ok {w w' : W} {a : Act} {as : List Act} {cs : List Reg} (h : run w (a :: as) = .ok w' cs) :
    ∃ w1 c1 c2, step w a = .ok w1 c1 ∧ run w1 as = .ok w' c2 ∧ cs = c1 ++ c2 := by
  simp only [run] at h
  cases h1 : step w a with
  | ok w1 c1 =>
    rw [h1] at h
    simp only at h
    cases h2 : run w1 as with
    | ok w2 c2 =>
      rw [h2] at h
      cases h
      exact ⟨w1, c1, c2, rfl, h2, rfl⟩
    | _ => rw [h2] at h; cases h
  | _ => rw [h1] at h; cases h

theorem run_one {w w' : W} {a : Act} {cs : List Reg} (h : run w [a] = .ok w' cs) : step w a = .ok w' cs := by
  obtain ⟨w1, c1, c2, h1, h2, rfl⟩ := run_cons_ok h
  cases h2
  simpa using h1

/-- What a step does, seen from the callbacks: one case per action that succeeds. -/
inductive Did (w : W) : Act → W → List Reg → Prop
  | watch (own fd) (h : w.enters own = true) :
    Did w (.watch own fd) { w with watched := put fd w.serial w.watched, toStart := w.toStart + 1, serial := w.serial + 1 } []
  | unwatch (own fd) (h : w.enters own = true) : Did w (.unwatch own fd) { w with watched := w.watched.filter (fun e => e.1 ≠ fd) } []
  | started (h0 : w.toStart ≠ 0) (h : w.running = true) : Did w .start { w with toStart := w.toStart - 1, toNotify := w.toNotify + 1 } []
  | start (h0 : w.toStart ≠ 0) (h : w.running = false) (hp : w.phase = .off) :
    Did w .start { w with running := true, phase := .top, pipe := false, toStart := w.toStart - 1, toNotify := w.toNotify + 1 } []
  | notify (h : w.toNotify ≠ 0) : Did w .notify { w with pipe := true, toNotify := w.toNotify - 1 } []
  | stop (h : w.running = true) : Did w .stop { w with running := false, stopping := true, toNotify := w.toNotify + 1 } []
  | stopped (h : w.running = false) : Did w .stop w []
  | join (h : w.stopping = true) (hp : w.phase = .ended) : Did w .join { w with phase := .off, stopping := false, watched := [] } []
  | leave (hp : w.phase = .top) (h : w.running = false) : Did w .setUp { w with phase := .ended } []
  | setUp (hp : w.phase = .top) (h : w.running = true) (hs : ∀ e ∈ w.watched, 0 ≤ e.1 ∧ e.1 < 1024) :
    Did w .setUp { w with phase := .waiting (w.watched.map (·.1)) } []
  | select (ready set) (hp : w.phase = .waiting set) (hr : ∀ fd ∈ ready, fd ∈ set) (h : w.pipe = true ∨ ready ≠ []) :
    Did w (.select ready) { w with phase := .woken ready w.pipe } []
  | fails (set) (hp : w.phase = .waiting set) : Did w .fails { w with phase := .top } []
  | take (ready noted) (hp : w.phase = .woken ready noted) (h : w.running = true) :
    Did w .take { w with phase := .round none (w.watched.filter (fun e => e.1 ∈ ready)), pipe := w.pipe && !noted } []
  | quit (ready noted) (hp : w.phase = .woken ready noted) (h : w.running = false) :
    Did w .take { w with phase := .ended, pipe := w.pipe && !noted } []
  | call (r todo) (hp : w.phase = .round none (r :: todo)) : Did w .call { w with phase := .round (some r) todo } [r]
  | ret (r todo) (hp : w.phase = .round (some r) todo) : Did w .ret { w with phase := .round none todo } []
  | release (hp : w.phase = .round none []) : Did w .release { w with phase := .top } []

theorem did {w w' : W} {a : Act} {c : List Reg} (h : step w a = .ok w' c) : Did w a w' c := by
  cases a with
  | watch own fd =>
    simp only [step, watch] at h
    split at h
    · cases h; exact .watch own fd ‹_›
    · cases h
  | unwatch own fd =>
    simp only [step, unwatch] at h
    split at h
    · cases h; exact .unwatch own fd ‹_›
    · cases h
  | start =>
    simp only [step, start] at h
    split at h
    · cases h
    · split at h
      · cases h; exact .started ‹_› ‹_›
      · split at h
        · cases h; exact .start ‹_› (by simpa using ‹¬w.running = true›) ‹_›
        · cases h
  | notify =>
    simp only [step, notify] at h
    split at h
    · cases h
    · cases h; exact .notify ‹_›
  | stop =>
    simp only [step, stop] at h
    split at h
    · cases h; exact .stop ‹_›
    · cases h; exact .stopped (by simpa using ‹¬w.running = true›)
  | join =>
    simp only [step, join] at h
    split at h
    · rename_i h1
      cases h
      simp only [Bool.and_eq_true, decide_eq_true_eq] at h1
      exact .join h1.1 h1.2
    · cases h
  | setUp =>
    simp only [step, setUp] at h
    split at h
    · cases h
    · rename_i hp
      have hp : w.phase = .top := by simpa using hp
      split at h
      · cases h; exact .leave hp (by simpa using ‹(!w.running) = true›)
      · split at h
        · rename_i h1 h2
          cases h
          refine .setUp hp (by simpa using h1) ?_
          intro e he
          have := List.all_eq_true.mp h2 e he
          simpa [settable] using this
        · cases h
  | select ready =>
    simp only [step, select] at h
    split at h
    · rename_i set hp
      split at h
      · rename_i h1
        cases h
        simp only [Bool.and_eq_true, List.all_eq_true, decide_eq_true_eq, Bool.or_eq_true] at h1
        exact .select ready set hp h1.1 (by simpa using h1.2)
      · cases h
    · cases h
  | fails =>
    simp only [step, fails] at h
    split at h
    · cases h; exact .fails _ ‹_›
    · cases h
  | take =>
    simp only [step, take] at h
    split at h
    · split at h
      · cases h; exact .take _ _ ‹_› ‹_›
      · cases h; exact .quit _ _ ‹_› (by simpa using ‹¬w.running = true›)
    · cases h
  | call =>
    simp only [step, call] at h
    split at h
    · cases h; exact .call _ _ ‹_›
    · cases h
  | ret =>
    simp only [step, ret] at h
    split at h
    · cases h; exact .ret _ _ ‹_›
    · cases h
  | release =>
    simp only [step, release] at h
    split at h
    · cases h; exact .release ‹_›
    · cases h

end Verif.Watch
