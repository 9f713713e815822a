import Verif.Le.SelectLemmas
/-!
# C18: legacy and extended commands exclude each other
-/

namespace Verif.Le

/-- **C18, partial.** After a legacy command was accepted, every extended command
fails with Command Disallowed and changes nothing until the next reset. Missing: the
extended commands of `Cmd.unchecked`, which the code accepts
(`C18_unchecked_commands_violated`). -/
theorem C18_legacy_excludes_extended_partial {cfg : Config} {s s1 s2 : State} {c c' : Cmd} {out}
    {ops : List Op} (hk : c.kind = .legacy)
    (h1 : step cfg s (.cmd c) = .ok s1 (some .success) out)
    (hops : NoReset ops) (h2 : run cfg ops s1 = some s2)
    (hk' : c'.kind = .extended) (hu : c'.unchecked = false) :
    step cfg s2 (.cmd c') = .ok s2 (some .commandDisallowed) [] := by
  obtain ⟨e, he, heq, -⟩ := step_cmd h1
  cases heq
  rcases (runCmd_flags he).2.2.1 hk with h | ⟨-, -, h⟩
  · exact extended_refused hk' hu ((run_flags ops s1 s2 hops h2).1 h)
  · cases h

/-- **C18, partial.** After an extended command was accepted, every legacy command
fails with Command Disallowed and changes nothing until the next reset. Missing: the
extended commands of `Cmd.unchecked` do not count as use of extended commands. -/
theorem C18_extended_excludes_legacy_partial {cfg : Config} {s s1 s2 : State} {c c' : Cmd} {out}
    {ops : List Op} (hk : c.kind = .extended) (hu : c.unchecked = false)
    (h1 : step cfg s (.cmd c) = .ok s1 (some .success) out)
    (hops : NoReset ops) (h2 : run cfg ops s1 = some s2) (hk' : c'.kind = .legacy) :
    step cfg s2 (.cmd c') = .ok s2 (some .commandDisallowed) [] := by
  obtain ⟨e, he, heq, -⟩ := step_cmd h1
  cases heq
  rcases (runCmd_flags he).2.2.2.1 hk hu with h | ⟨-, -, h⟩
  · exact legacy_refused hk' ((run_flags ops s1 s2 hops h2).2 h)
  · cases h

/-- **C18.** In every reachable state one of the two kinds is refused only if the
other one is not: there is always a kind of command that is not excluded. -/
theorem C18_never_both {cfg : Config} {s : State} (h : Reachable cfg s) :
    ¬ ((∀ c : Cmd, c.kind = .legacy → step cfg s (.cmd c) = .ok s (some .commandDisallowed) []) ∧
      (∀ c : Cmd, c.kind = .extended → c.unchecked = false →
        step cfg s (.cmd c) = .ok s (some .commandDisallowed) [])) := by
  rintro ⟨h1, h2⟩
  have hx := flags_exclusive h
  have a1 := h1 (.setAdvertisingData []) rfl
  have a2 := h2 (.setExtendedScanEnable 0 false .disabled 0 0) rfl rfl
  simp only [step, runCmd, Result.of, setAdvertisingData, withLegacy] at a1
  simp only [step, runCmd, Result.of, setExtendedScanEnable, withExtended] at a2
  by_cases he : s.extendedInUse = true
  · have hl : ¬ s.legacyInUse = true := fun hl => hx ⟨hl, he⟩
    rw [if_neg hl] at a2
    simp at a2
  · rw [if_neg he] at a1
    simp at a1

/-- **C18 (reset).** A reset admits both kinds again. -/
theorem C18_reset {cfg : Config} {s s' : State} {st out}
    (h : step cfg s (.env .reset) = .ok s' st out) :
    s'.legacyInUse = false ∧ s'.extendedInUse = false := by
  obtain ⟨he, -⟩ := step_env h
  simp only [runEnv] at he; cases he; exact ⟨rfl, rfl⟩

/-- **C18, violated.** The controller accepts LE Clear Advertising Sets, an extended
command, after it accepted LE Set Advertising Data, a legacy command; and it accepts
LE Periodic Advertising Create Sync and then LE Set Advertising Data. -/
theorem C18_unchecked_commands_violated :
    (∃ s s', run Config.default [.cmd (.setAdvertisingData [1])] (initial none) = some s ∧
      Cmd.clearAdvertisingSets.kind = .extended ∧
      step Config.default s (.cmd .clearAdvertisingSets) = .ok s' (some .success) []) ∧
    (∃ s s', (Cmd.createSync {} ⟨.pub, 2#48, 0⟩ 100 0).kind = .extended ∧
      step Config.default (initial none) (.cmd (.createSync {} ⟨.pub, 2#48, 0⟩ 100 0)) =
        .ok s (some .success) [] ∧
      step Config.default s (.cmd (.setAdvertisingData [1])) = .ok s' (some .success) []) :=
  ⟨⟨_, _, rfl, rfl, rfl⟩, ⟨_, _, rfl, rfl, rfl⟩⟩

/-- **C18 (selection by a failing command).** A command that is itself rejected also
selects its kind: after a failing LE Set Scan Parameters an extended command that was
acceptable before is refused. -/
theorem C18_failed_command_selects :
    ∃ s s', step Config.default (initial none) (.cmd (.setScanParameters .active 0 0 .pub .acceptAll)) =
        .ok s (some .unsupportedFeatureOrParameterValue) [] ∧
      step Config.default (initial none) (.cmd (.setExtendedScanEnable 0 false .disabled 0 0)) =
        .ok s' (some .success) [] ∧
      step Config.default s (.cmd (.setExtendedScanEnable 0 false .disabled 0 0)) =
        .ok s (some .commandDisallowed) [] :=
  ⟨_, _, rfl, rfl, rfl⟩

/-! ### The hypotheses are met -/

/-- A legacy command accepted, more operations without a reset, and an extended command. -/
example : ∃ s1 s2, step Config.default (initial none) (.cmd (.setAdvertisingData [1])) =
      .ok s1 (some .success) [] ∧
    NoReset [.cmd (.setScanParameters .active 0x10 0x10 .pub .acceptAll), .env (.tick 5)] ∧
    run Config.default [.cmd (.setScanParameters .active 0x10 0x10 .pub .acceptAll), .env (.tick 5)] s1 =
      some s2 ∧
    (Cmd.setExtendedScanEnable 0 false .disabled 0 0).kind = .extended ∧
    (Cmd.setExtendedScanEnable 0 false .disabled 0 0).unchecked = false :=
  ⟨_, _, rfl, by intro o ho; simp at ho; rcases ho with rfl | rfl <;> simp, rfl, rfl, rfl⟩

/-- An extended command accepted. -/
example : ∃ s1, step Config.default (initial none) (.cmd (.setExtendedScanEnable 0 false .disabled 0 0)) =
    .ok s1 (some .success) [] ∧ s1.extendedInUse = true := ⟨_, rfl, rfl⟩

end Verif.Le
