import Verif.Hci.Lemmas
/-! # C70: each command is answered once -/
namespace Verif.Hci

set_option maxRecDepth 100000 in
theorem table_quiet : handlers.all (fun r => r.1 = 0xfc00 || quiet r.1 r.2) = true := by decide +kernel

set_option maxRecDepth 100000 in
theorem table_ways : handlers.all (fun r => unruly.contains r.1 ||
    (ways r.1 r.2).all (fun w => w.2 ≠ .over .crash && w.2 ≠ .over .invalid &&
      (match w.1 with | [a] => isFor r.1 a | _ => false))) = true := by decide +kernel

theorem only_one {op : Nat} {w : List Ev} (hw : (match w with | [a] => isFor op a | _ => false) = true) :
    ∃ a, w = [a] ∧ isFor op a = true := by
  match w with
  | [] => simp at hw
  | [a] => exact ⟨a, rfl, hw⟩
  | _ :: _ :: _ => simp at hw

/-- C70. For every configuration, every state in which the controller executes commands and every command with
the right format, whatever the branches of its handler: the controller goes on and answers the command exactly
once, with its own opcode, or passes it to the link manager or link layer, which knows it. Left out are seven
commands (`unruly`) and those a strict controller says it supports but does not implement. -/
theorem C70_answered_partial {c : Cfg} {s s' : St} {m : Cmd} {ev : List Ev} {e : End} (h : Handle c s m ev e s')
    (hx : executes c s m.op) (hm : m.formed = true) (hu : m.op ∉ unruly)
    (hs : c.strict = true → supported c m.op = true → implemented m.op = true) : answered m.op ev e := by
  obtain ⟨hx1, hx2⟩ := hx
  cases h with
  | echo h1 h2 => rw [(through_iff _).mpr (hx1 h1)] at h2; exact absurd h2 (by simp)
  | early _ h2 =>
    rcases hx2 h2.1 with h3 | h3
    · rw [h3] at h2; exact absurd h2.2.1 (by simp)
    · exact absurd h3 h2.2.2
  | @run l ev f _ _ _ hl hr =>
    have hne : m.op ≠ 0xfc00 := fun h => hu (by rw [h]; decide)
    have hq := handlers_all (P := fun op l => op = 0xfc00 || quiet op l) table_quiet hl
    simp only [Bool.or_eq_true, decide_eq_true_eq] at hq
    have hw := run_ways hm hr (hq.resolve_left hne)
    have ht := handlers_all (P := fun op l => unruly.contains op ||
      (ways op l).all (fun w => w.2 ≠ .over .crash && w.2 ≠ .over .invalid &&
        (match w.1 with | [a] => isFor op a | _ => false))) table_ways hl
    simp only [Bool.or_eq_true, List.contains_iff_mem, List.all_eq_true, Bool.and_eq_true, decide_eq_true_eq] at ht
    have hk := (ht.resolve_left hu) _ hw
    refine ⟨?_, only_one hk.2⟩
    match f, hk.1 with
    | .fell, _ => rfl
    | .returned, _ => rfl
    | .over .done, _ => rfl
    | .over .crash, h => exact absurd rfl h.1
    | .over .invalid, h => exact absurd rfl h.2
  | missing _ _ h3 h4 h5 =>
    have := hs h5 h3
    simp [implemented, h4] at this
  | unknown _ _ _ => exact ⟨rfl, .complete m.op, by simp [isAnswer], by simp [isFor]⟩

/-- The default controller, and a Read Buffer Size command. -/
def usual : Cfg := ⟨true, defaultBytes, false, false⟩

example : Handle usual .fresh ⟨0x1005, [], true⟩ [.complete 0x1005] .done .fresh :=
  Handle.run (l := [.check 0x1005, .complete 0x1005]) (f := .fell) (by simp [St.fresh]) (by simp [usual]) (by decide +kernel)
    (by rfl) (.check rfl rfl (.complete .nil))

example : executes usual .fresh 0x1005 ∧ (0x1005 : Nat) ∉ unruly ∧ implemented 0x1005 = true :=
  ⟨⟨by simp [St.fresh], by simp [usual]⟩, by decide, by decide +kernel⟩

mutual
/-- The statements can always be run. -/
theorem run_exists (c : Cfg) (m : Cmd) : ∀ l : List Stmt, ∃ ev f, Run c m l ev f
  | [] => ⟨_, _, .nil⟩
  | s :: l => by
    obtain ⟨ev, f, h⟩ := run_exists c m l
    exact run_exists1 c m s l ev f h
theorem run_exists1 (c : Cfg) (m : Cmd) : ∀ (s : Stmt) (l : List Stmt) (ev : List Ev) (f : Flow), Run c m l ev f →
    ∃ ev f, Run c m (s :: l) ev f
  | .check o, _, _, _, h => by
    by_cases hc : m.formed = true ∧ o = m.op
    · exact ⟨_, _, .check hc.1 hc.2 h⟩
    · exact ⟨_, _, .refused hc⟩
  | .complete _, _, _, _, h => ⟨_, _, .complete h⟩
  | .status _, _, _, _, h => ⟨_, _, .status h⟩
  | .event _, _, _, _, h => ⟨_, _, .event h⟩
  | .later, _, _, _, h => ⟨_, _, .later h⟩
  | .toLm, _, _, _, h => by
    by_cases hc : m.formed = true ∧ m.op ∈ lmCommands
    · exact ⟨_, _, .toLm hc.1 hc.2 h⟩
    · exact ⟨_, _, .toLmFails hc⟩
  | .toLl, _, _, _, h => by
    by_cases hc : m.formed = true ∧ m.op ∈ llCommands
    · exact ⟨_, _, .toLl hc.1 hc.2 h⟩
    · exact ⟨_, _, .toLlFails hc⟩
  | .invalid, _, _, _, _ => ⟨_, _, .invalid⟩
  | .fatal, _, _, _, _ => ⟨_, _, .fatal⟩
  | .csr, _, _, _, h => by
    cases hc : csr c.csr m.payload with
    | unknown => exact ⟨_, _, .csrUnknown hc h⟩
    | answer p => exact ⟨_, _, .csrAnswer hc h⟩
    | crash => exact ⟨_, _, .csrCrash hc⟩
  | .ite a b, _, _, _, h => by
    obtain ⟨ev, f, h1⟩ := run_exists c m a
    by_cases hf : f = .fell
    · subst hf
      exact ⟨_, _, .left h1 h⟩
    · exact ⟨_, _, .leftOut h1 hf⟩
  | .loop _, _, _, _, h => ⟨_, _, .skip h⟩
  | .ret, _, _, _, _ => ⟨_, _, .ret⟩
end

/-- C70. Every command has an outcome, in every state and configuration: none is ignored. -/
theorem C70_total (c : Cfg) (s : St) (m : Cmd) : ∃ ev e s', Handle c s m ev e s' := by
  by_cases h1 : s.loopback = true ∧ throughLoopback m.op = false
  · exact ⟨_, _, _, .echo h1.1 h1.2⟩
  by_cases h2 : c.errorBeforeReset = true ∧ s.wasReset = false ∧ m.op ≠ 0x0c03
  · exact ⟨_, _, _, .early h1 h2⟩
  cases hl : handlers.lookup m.op with
  | none =>
    cases hs : supported c m.op with
    | false => exact ⟨_, _, _, .unknown h1 h2 (.inl hs)⟩
    | true =>
      cases hc : c.strict with
      | true => exact ⟨_, _, _, .missing h1 h2 hs hl hc⟩
      | false => exact ⟨_, _, _, .unknown h1 h2 (.inr ⟨hl, hc⟩)⟩
  | some l =>
    cases hs : supported c m.op with
    | false => exact ⟨_, _, _, .unknown h1 h2 (.inl hs)⟩
    | true =>
      obtain ⟨ev, f, h⟩ := run_exists c m l
      exact ⟨_, _, _, .run h1 h2 hs hl h⟩

set_option maxRecDepth 100000 in
theorem table_checked : handlers.all (fun r => unchecked.contains r.1 ||
    (match r.2 with | .check _ :: _ => true | _ => false)) = true := by decide +kernel

/-- C70. A command whose parameters do not have the right format has no effect but a Hardware Error event, and
is reported as invalid; a command the controller does not support is refused with Command Complete as always.
Left out are the commands that are passed on without a check (`unchecked`). -/
theorem C70_malformed_partial {c : Cfg} {s s' : St} {m : Cmd} {ev : List Ev} {e : End} (h : Handle c s m ev e s')
    (hx : executes c s m.op) (hm : m.formed = false) (hi : implemented m.op = true) (hu : m.op ∉ unchecked) :
    s' = s ∧ ((supported c m.op = true ∧ ev = [.hardwareError 0x43] ∧ e = .invalid) ∨
      (supported c m.op = false ∧ ev = [.complete m.op] ∧ e = .done)) := by
  obtain ⟨hx1, hx2⟩ := hx
  cases h with
  | echo h1 h2 => rw [(through_iff _).mpr (hx1 h1)] at h2; exact absurd h2 (by simp)
  | early _ h2 =>
    rcases hx2 h2.1 with h3 | h3
    · rw [h3] at h2; exact absurd h2.2.1 (by simp)
    · exact absurd h3 h2.2.2
  | @run l ev f _ _ hs hl hr =>
    have ht := handlers_all (P := fun op l => unchecked.contains op ||
      (match l with | .check _ :: _ => true | _ => false)) table_checked hl
    simp only [Bool.or_eq_true, List.contains_iff_mem] at ht
    have hk := ht.resolve_left hu
    refine ⟨by simp [after, hm], .inl ⟨hs, ?_⟩⟩
    match l, hk, hr with
    | .check _ :: l, _, .check h1 _ _ => rw [hm] at h1; exact absurd h1 (by simp)
    | .check _ :: l, _, .refused _ => exact ⟨rfl, rfl⟩
  | missing _ _ h3 h4 h5 => simp [implemented, h4] at hi
  | unknown _ _ h3 =>
    refine ⟨rfl, .inr ⟨?_, rfl, rfl⟩⟩
    rcases h3 with h | h
    · exact h
    · simp [implemented, h.1] at hi

example : Handle usual .fresh ⟨0x0c13, [], false⟩ [.hardwareError 0x43] .invalid .fresh :=
  Handle.run (l := [.check 0x0c13, .complete 0x0c13]) (f := .over .invalid) (by simp [St.fresh]) (by simp [usual])
    (by decide +kernel) (by rfl) (.refused (by simp))

/-! ## Where a command is not answered -/

/-- The command is not answered: this cannot be said of `m` in the state after power-on, with this outcome. -/
def Unanswered (c : Cfg) (m : Cmd) (ev : List Ev) (e : End) : Prop :=
  m.formed = true ∧ executes c .fresh m.op ∧ (∃ s', Handle c .fresh m ev e s') ∧ ¬answered m.op ev e

theorem executes_usual (op : Nat) : executes usual .fresh op := ⟨by simp [St.fresh], by simp [usual]⟩

theorem run_usual {m : Cmd} {l : List Stmt} {ev : List Ev} {f : Flow} (hs : supported usual m.op = true)
    (hl : handlers.lookup m.op = some l) (hr : Run usual m l ev f) : ∃ s', Handle usual .fresh m ev f.end s' :=
  ⟨_, .run (by simp [St.fresh]) (by simp [usual]) hs hl hr⟩

/-- C70 does not hold of Reset Failed Contact Counter: there is never an answer, and the command is reported
as invalid (the wrong view is created, dual_mode_controller.cc ResetFailedContactCounter). -/
theorem C70_contactCounter_violated (c : Cfg) (s : St) (p : List UInt8) (hx : executes c s 0x1402)
    (hs : supported c 0x1402 = true) {ev : List Ev} {e : End} {s' : St} (h : Handle c s ⟨0x1402, p, true⟩ ev e s') :
    ev = [.hardwareError 0x43] ∧ e = .invalid := by
  obtain ⟨hx1, hx2⟩ := hx
  cases h with
  | echo h1 h2 => rw [(through_iff _).mpr (hx1 h1)] at h2; exact absurd h2 (by simp)
  | early _ h2 =>
    rcases hx2 h2.1 with h3 | h3
    · rw [h3] at h2; exact absurd h2.2.1 (by simp)
    · exact absurd h3 (by decide)
  | @run l ev f _ _ _ hl hr =>
    have : some l = some [.check 0x1401, .complete 0x1402] := hl.symm.trans (by rfl)
    cases this
    cases hr with
    | check _ h _ => exact absurd h (by simp)
    | refused => exact ⟨rfl, rfl⟩
  | missing _ _ h3 h4 h5 => exact absurd (h4.symm.trans (by rfl : _ = some [.check 0x1401, .complete 0x1402])) (by simp)
  | unknown _ _ h3 =>
    rcases h3 with h | h
    · rw [hs] at h; exact absurd h (by simp)
    · exact absurd (h.1.symm.trans (by rfl : _ = some [.check 0x1401, .complete 0x1402])) (by simp)

example : supported usual 0x1402 = true := by decide +kernel

/-- C70 does not hold of Set Event Filter with an inquiry or connection filter: the default controller stops. -/
theorem C70_eventFilter_violated : Unanswered usual ⟨0x0c05, [1, 0], true⟩ [] .crash :=
  ⟨rfl, executes_usual _,
    run_usual (f := .over .crash) (l := [.check 0x0c05, .ite [.fatal] [], .complete 0x0c05]) (by decide +kernel) (by rfl)
      (.check rfl rfl (.leftOut .fatal (by simp))), by simp [answered]⟩

/-- C70 does not hold of Remote OOB Extended Data Request Reply: the link manager does not know it, and the
assertion that it does stops the controller. -/
theorem C70_oob_violated (c : Cfg) (hs : supported c 0x0445 = true) (hb : c.errorBeforeReset = false) (p : List UInt8) :
    Unanswered c ⟨0x0445, p, true⟩ [] .crash :=
  ⟨rfl, ⟨by simp [St.fresh], by simp [hb]⟩,
    ⟨_, .run (f := .over .crash) (l := [.toLm]) (by simp [St.fresh]) (by simp [hb]) hs (by rfl) (.toLmFails (fun h => absurd h.2 (by decide : (0x0445 : Nat) ∉ lmCommands)))⟩,
    by simp [answered]⟩

/-- C70 does not hold of the CSR vendor command: where there is an answer it is not Command Complete. -/
theorem C70_csr_violated : ∃ p : List UInt8, ∃ q : List UInt8,
    Unanswered { usual with csr := true } ⟨0xfc00, p, true⟩ [.vendor q] .done :=
  ⟨[0, 0, 0], [0, 1, 0], rfl, ⟨by simp [St.fresh], by simp [usual]⟩,
    ⟨_, .run (f := .fell) (l := [.csr]) (by simp [St.fresh]) (by simp [usual]) (by decide +kernel) (by rfl)
      (.csrAnswer (p := [0, 1, 0]) (by decide +kernel) .nil)⟩,
    by simp [answered, isAnswer]⟩

/-- C70 does not hold of a CSR vendor command with fewer than three parameters: the answer is written outside of them. -/
theorem C70_csrShort_violated (p : List UInt8) (hp : p.length < 3) :
    Unanswered { usual with csr := true } ⟨0xfc00, p, true⟩ [] .crash := by
  have h : csr true p = .crash := by
    unfold csr
    have h1 : csrComplete p = .crash := if_pos hp
    simp only [Bool.true_eq_false, if_false, h1]
    split
    · rfl
    · rw [if_pos (Or.inr (by omega))]
  have hs : supported { usual with csr := true } 0xfc00 = true := by decide +kernel
  exact ⟨rfl, ⟨by simp [St.fresh], by simp [usual]⟩,
    ⟨_, .run (f := .over .crash) (l := [.csr]) (by simp [St.fresh]) (by simp [usual]) hs (by rfl)
      (.csrCrash h)⟩,
    by simp [answered]⟩

/-- C70 for the CSR vendor command on a controller that does not have it: it is answered once, with Command Complete. -/
theorem C70_csrUnsupported {c : Cfg} {s s' : St} {p : List UInt8} {f : Bool} {ev : List Ev} {e : End} (hc : c.csr = false)
    (hx : executes c s 0xfc00) (h : Handle c s ⟨0xfc00, p, f⟩ ev e s') : ev = [.complete 0xfc00] ∧ e = .done := by
  obtain ⟨hx1, hx2⟩ := hx
  have hlook : handlers.lookup 0xfc00 = some [.csr] := by rfl
  cases h with
  | echo h1 h2 => rw [(through_iff _).mpr (hx1 h1)] at h2; exact absurd h2 (by simp)
  | early _ h2 =>
    rcases hx2 h2.1 with h3 | h3
    · rw [h3] at h2; exact absurd h2.2.1 (by simp)
    · exact absurd h3 (by decide)
  | @run l ev f _ _ _ hl hr =>
    have : some l = some [.csr] := hl.symm.trans hlook
    cases this
    cases hr with
    | csrUnknown _ hr => cases hr; exact ⟨rfl, rfl⟩
    | csrAnswer h => rw [hc] at h; simp [csr] at h
    | csrCrash h => rw [hc] at h; simp [csr] at h
  | missing _ _ h3 h4 h5 => rw [hlook] at h4; cases h4
  | unknown => exact ⟨rfl, rfl⟩

example : Handle usual .fresh ⟨0xfc00, [1, 2], true⟩ [.complete 0xfc00] .done .fresh :=
  Handle.run (l := [.csr]) (f := .fell) (by simp [St.fresh]) (by simp [usual]) (by decide +kernel) (by rfl)
    (.csrUnknown (by decide +kernel) .nil)

/-- C70 does not hold of a malformed command of pairing or of isochronous channels that the default controller
supports: it stops. Here for LE Set CIG Parameters, of which one byte arrives. -/
theorem C70_malformed_violated : ∃ s', Handle usual .fresh ⟨0x2062, [1], false⟩ [] .crash s' :=
  run_usual (f := .over .crash) (l := [.toLl]) (by decide +kernel) (by rfl) (.toLlFails (by simp))

end Verif.Hci
