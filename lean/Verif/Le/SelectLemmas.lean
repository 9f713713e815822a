import Verif.Le.ListLemmas
import Verif.Le.SpecSelect
/-!
# Legacy and extended commands: helper lemmas
-/

namespace Verif.Le

theorem extEnable_flags {cfg : Config} {now : Nat} {rnd : Nat → Irk → Address} {s s' : State}
    {enable : Bool} {sets : List EnabledSet} {e : Status}
    (h : setExtAdvertisingEnable cfg now rnd s enable sets = some (s', e)) :
    s'.legacyInUse = s.legacyInUse ∧
    ((s.legacyInUse = true ∧ s' = s ∧ e = .commandDisallowed) ∨
      (s.legacyInUse = false ∧ s'.extendedInUse = true)) := by
  by_cases hl : s.legacyInUse = true
  · simp only [setExtAdvertisingEnable, if_pos hl] at h
    cases h; exact ⟨rfl, Or.inl ⟨hl, rfl, rfl⟩⟩
  · have hl' : s.legacyInUse = false := by simpa using hl
    have hv : ∀ (sets : List EnabledSet) (i : Nat) (s : State),
        (validateSets cfg rnd i sets s).1.extendedInUse = s.extendedInUse ∧
        (validateSets cfg rnd i sets s).1.legacyInUse = s.legacyInUse := by
      intro sets i s
      obtain ⟨m, r, hm⟩ := validateSets_frame cfg rnd sets i s
      rw [hm]; exact ⟨rfl, rfl⟩
    have hv1 := hv sets 0 { s with extendedInUse := true }
    simp only [setExtAdvertisingEnable, if_neg hl] at h
    repeat' split at h
    all_goals first | (cases h; done) | skip
    all_goals
      cases h
      first
      | exact ⟨rfl, Or.inr ⟨hl', rfl⟩⟩
      | exact ⟨hv1.2, Or.inr ⟨hl', hv1.1⟩⟩

/-- How a command changes the two flags. -/
theorem runCmd_flags {cfg : Config} {s s' : State} {c : Cmd} {e : Status}
    (h : runCmd cfg s c = .ret s' e) :
    (s.legacyInUse = true → s'.legacyInUse = true) ∧
    (s.extendedInUse = true → s'.extendedInUse = true) ∧
    (c.kind = .legacy → s'.legacyInUse = true ∨ (s.extendedInUse = true ∧ s' = s ∧ e = .commandDisallowed)) ∧
    (c.kind = .extended → c.unchecked = false →
      s'.extendedInUse = true ∨ (s.legacyInUse = true ∧ s' = s ∧ e = .commandDisallowed)) ∧
    (s'.legacyInUse = true → s.legacyInUse = true ∨ s.extendedInUse = false) ∧
    (s'.extendedInUse = true → s.extendedInUse = true ∨ s.legacyInUse = false) ∧
    (s'.legacyInUse = true → s'.extendedInUse = true →
      s.legacyInUse = true ∧ s.extendedInUse = true) := by
  cases c
  case setExtAdvertisingEnable =>
    obtain ⟨h1, h2⟩ := extEnable_flags (runCmd_extEnable h)
    simp only [Cmd.kind, Cmd.unchecked]
    rcases h2 with ⟨h2, h3, h4⟩ | ⟨h2, h3⟩
    · subst h3; clear h1 h; simp_all
    · simp_all
  all_goals
    obtain ⟨rfl, rfl⟩ := runCmd_ret_of h
    unfold_handlers
    simp only [Cmd.kind, Cmd.unchecked]
    repeat' split
    all_goals (first | (simp_all; done) | grind)

theorem runEnv_flags {s s' : State} {e : Env} {out} (he : e ≠ .reset)
    (h : runEnv s e = .ret s' out) :
    s'.legacyInUse = s.legacyInUse ∧ s'.extendedInUse = s.extendedInUse := by
  cases e
  case tick => obtain ⟨m, -, rfl, -⟩ := runEnv_tick h; exact ⟨rfl, rfl⟩
  case reset => exact absurd rfl he
  all_goals unfold_env h
  all_goals exact ⟨rfl, rfl⟩

theorem run_flags {cfg : Config} (ops : List Op) : ∀ (s s' : State), NoReset ops →
    run cfg ops s = some s' →
    (s.legacyInUse = true → s'.legacyInUse = true) ∧
    (s.extendedInUse = true → s'.extendedInUse = true) := by
  induction ops with
  | nil => intro s s' _ h; cases h; exact ⟨id, id⟩
  | cons o ops ih =>
    intro s s' hn h
    simp only [run] at h
    split at h
    · rename_i s1 st out hs
      obtain ⟨i1, i2⟩ := ih s1 s' (fun o ho => hn o (List.mem_cons_of_mem _ ho)) h
      have hstep : (s.legacyInUse = true → s1.legacyInUse = true) ∧
          (s.extendedInUse = true → s1.extendedInUse = true) := by
        cases o with
        | cmd c =>
          obtain ⟨e, he, -, -⟩ := step_cmd hs
          have := runCmd_flags he
          exact ⟨this.1, this.2.1⟩
        | env e =>
          obtain ⟨he, -⟩ := step_env hs
          have := runEnv_flags (by rintro rfl; exact hn (.env .reset) (by simp) rfl) he
          rw [this.1, this.2]; exact ⟨id, id⟩
      exact ⟨fun x => i1 (hstep.1 x), fun x => i2 (hstep.2 x)⟩
    · cases h
    · cases h

theorem flags_exclusive {cfg : Config} {s : State} (h : Reachable cfg s) :
    ¬ (s.legacyInUse = true ∧ s.extendedInUse = true) := by
  refine reachable_invariant (P := fun s => ¬ (s.legacyInUse = true ∧ s.extendedInUse = true))
    (fun a => by simp [initial]) (fun s o s' st out hp hs => ?_) h
  cases o with
  | cmd c =>
    obtain ⟨e, he, -, -⟩ := step_cmd hs
    have := (runCmd_flags he).2.2.2.2.2.2
    exact fun hx => hp (this hx.1 hx.2)
  | env e =>
    obtain ⟨he, -⟩ := step_env hs
    by_cases hr : e = .reset
    · subst hr; simp only [runEnv] at he; cases he; simp
    · rw [(runEnv_flags hr he).1, (runEnv_flags hr he).2]; exact hp

/-- A legacy command after extended use. -/
theorem legacy_refused {cfg : Config} {s : State} {c : Cmd} (hk : c.kind = .legacy)
    (hs : s.extendedInUse = true) : step cfg s (.cmd c) = .ok s (some .commandDisallowed) [] := by
  cases c
  all_goals first | (cases hk; done) | skip
  all_goals simp [step, runCmd, Result.of, setAdvertisingParameters, setAdvertisingData,
    setScanResponseData, setAdvertisingEnable, setScanParameters, setScanEnable, createConnection,
    withLegacy, hs]

/-- An extended command after legacy use. -/
theorem extended_refused {cfg : Config} {s : State} {c : Cmd} (hk : c.kind = .extended)
    (hu : c.unchecked = false) (hs : s.legacyInUse = true) :
    step cfg s (.cmd c) = .ok s (some .commandDisallowed) [] := by
  cases c
  all_goals first | (cases hk; done) | (cases hu; done) | skip
  all_goals simp [step, runCmd, Result.of, setExtAdvertisingParameters, setExtAdvertisingData,
    setExtScanResponseData, setExtAdvertisingEnable, setExtendedScanParameters, setExtendedScanEnable,
    extendedCreateConnection, withExtended, hs]

end Verif.Le
