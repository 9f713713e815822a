import Verif.Hci.PropsAnswer
/-! # C73: Reset, the loopback mode and the Hardware Error quirk -/
namespace Verif.Hci

theorem reset_run {c : Cfg} {m : Cmd} {ev : List Ev} {f : Flow} (ho : m.op = 0x0c03) {l : List Stmt}
    (hl : handlers.lookup m.op = some l) (hr : Run c m l ev f) :
    (m.formed = true ∧ ev = [.complete 0x0c03] ∧ f.end = .done) ∨ (m.formed = false ∧ f.end = .invalid) := by
  rw [ho] at hl
  have : some l = some [.check 0x0c03, .complete 0x0c03] := hl.symm.trans (by rfl)
  cases this
  cases hr with
  | check h _ hr =>
    cases hr with
    | complete hr => cases hr; exact .inl ⟨h, rfl, rfl⟩
  | refused h =>
    refine .inr ⟨?_, rfl⟩
    rw [ho] at h
    simpa using h

theorem loop_run {c : Cfg} {m : Cmd} {ev : List Ev} {f : Flow} (ho : m.op = 0x1802) {l : List Stmt}
    (hl : handlers.lookup m.op = some l) (hr : Run c m l ev f) :
    (m.formed = true ∧ ev = [.event 3, .event 3, .complete 0x1802] ∧ f.end = .done) ∨ (m.formed = false ∧ f.end = .invalid) := by
  rw [ho] at hl
  have : some l = some [.check 0x1802, .event 3, .event 3, .complete 0x1802] := hl.symm.trans (by rfl)
  cases this
  cases hr with
  | check h _ hr =>
    cases hr with
    | event hr =>
      cases hr with
      | event hr =>
        cases hr with
        | complete hr => cases hr; exact .inl ⟨h, rfl, rfl⟩
  | refused h =>
    refine .inr ⟨?_, rfl⟩
    rw [ho] at h
    simpa using h

/-- C73. Reset is executed in every state, in the loopback mode too: it is answered with one Command Complete
event and nothing else, and leaves the loopback mode and the wait for a Reset. -/
theorem C73_reset {c : Cfg} {s s' : St} {m : Cmd} {ev : List Ev} {e : End} (h : Handle c s m ev e s') (ho : m.op = 0x0c03)
    (hm : m.formed = true) (hs : supported c 0x0c03 = true) :
    ev = [.complete 0x0c03] ∧ e = .done ∧ s'.loopback = false ∧ s'.wasReset = true := by
  have hi : handlers.lookup m.op = some [.check 0x0c03, .complete 0x0c03] := by rw [ho]; rfl
  cases h with
  | echo _ h2 => rw [ho] at h2; exact absurd h2 (by decide)
  | early _ h2 => exact absurd ho h2.2.2
  | run _ _ _ hl hr =>
    rcases reset_run ho hl hr with h | h
    · exact ⟨h.2.1, h.2.2, by simp [after, ho, hm], by simp [after, ho, hm]⟩
    · rw [hm] at h; exact absurd h.1 (by simp)
  | missing _ _ _ h4 _ => rw [hi] at h4; exact absurd h4 (by simp)
  | unknown _ _ h3 =>
    rcases h3 with h | h
    · rw [ho, hs] at h; exact absurd h (by simp)
    · rw [hi] at h; exact absurd h.1 (by simp)

example : ∃ ev e s', Handle usual ⟨true, false⟩ ⟨0x0c03, [], true⟩ ev e s' ∧ supported usual 0x0c03 = true :=
  ⟨_, _, _, .run (l := [.check 0x0c03, .complete 0x0c03]) (f := .fell) (by decide) (by decide) (by decide +kernel) (by rfl)
    (.check rfl rfl (.complete .nil)), by decide +kernel⟩

/-- One command of a history. -/
theorem handle_state {c : Cfg} {s s' : St} {m : Cmd} {ev : List Ev} (h : Handle c s m ev .done s')
    (h1 : supported c 0x0c03 = true) (h2 : supported c 0x1802 = true) :
    s'.wasReset = (s.wasReset || m.op = 0x0c03) ∧
    s'.loopback = if c.errorBeforeReset = true ∧ s.wasReset = false ∧ s.loopback = false ∧ m.op ≠ 0x0c03 then false
      else if m.op = 0x0c03 then false
      else if m.op = 0x1802 ∧ ¬(c.errorBeforeReset = true ∧ s.wasReset = false) then m.payload.head? = some 1
      else s.loopback := by
  by_cases ho : m.op = 0x0c03
  · have hi : handlers.lookup m.op = some [.check 0x0c03, .complete 0x0c03] := by rw [ho]; rfl
    generalize hE : End.done = e at h
    cases h with
    | echo _ h2 => rw [ho] at h2; exact absurd h2 (by decide)
    | early _ h2 => exact absurd ho h2.2.2
    | run _ _ _ hl hr =>
      rcases reset_run ho hl hr with h | h
      · simp [after, ho, h.1]
      · rw [h.2] at hE; cases hE
    | missing _ _ _ h4 _ => rw [hi] at h4; exact absurd h4 (by simp)
    | unknown _ _ h3 =>
      rcases h3 with h | h
      · rw [ho, h1] at h; exact absurd h (by simp)
      · rw [hi] at h; exact absurd h.1 (by simp)
  by_cases hp : m.op = 0x1802
  · have hi : handlers.lookup m.op = some [.check 0x1802, .event 3, .event 3, .complete 0x1802] := by rw [hp]; rfl
    generalize hE : End.done = e at h
    cases h with
    | echo _ h2 => rw [hp] at h2; exact absurd h2 (by decide)
    | early _ h2 =>
      simp only [hp, h2.1, h2.2.1]
      cases hl : s.loopback <;> simp
    | run _ hn _ hl hr =>
      rcases loop_run hp hl hr with h | h
      · have hn' : ¬(c.errorBeforeReset = true ∧ s.wasReset = false) := fun h => hn ⟨h.1, h.2, ho⟩
        refine ⟨by simp [after, hp, h.1], ?_⟩
        rw [if_neg (fun h => hn' ⟨h.1, h.2.1⟩), if_neg ho, if_pos ⟨hp, hn'⟩]
        simp [after, hp, h.1]
      · rw [h.2] at hE; cases hE
    | missing _ _ _ h4 _ => rw [hi] at h4; exact absurd h4 (by simp)
    | unknown _ _ h3 =>
      rcases h3 with h | h
      · rw [hp, h2] at h; exact absurd h (by simp)
      · rw [hi] at h; exact absurd h.1 (by simp)
  · have hS : s' = s := by
      generalize hE : End.done = e at h
      cases h with
      | run => simp [after, ho, hp]
      | _ => rfl
    subst hS
    refine ⟨by simp [ho], ?_⟩
    simp only [ho, hp, if_false, false_and]
    split
    · rename_i h; exact h.2.2.1
    · rfl

/-- C73. Over every history that begins at power-on: the local loopback is on exactly if the last Reset or
Write Loopback Mode command that was heard has put it on. -/
theorem C73_loopback {c : Cfg} {l : List (Cmd × List Ev)} {s : St} (h : Hist c .fresh l s)
    (h1 : supported c 0x0c03 = true) (h2 : supported c 0x1802 = true) :
    s.loopback = loopbackAfter (heard c (l.map (·.1))) := by
  -- once commands are heard
  have hAfter : ∀ {l : List (Cmd × List Ev)} {s s' : St}, Hist c s l s' → (c.errorBeforeReset = true → s.wasReset = true) →
      s'.loopback = (l.map (·.1)).foldl (fun b m =>
        if m.op = 0x0c03 then false else if m.op = 0x1802 then m.payload.head? = some 1 else b) s.loopback := by
    intro l s s' h
    induction h with
    | nil => intro _; rfl
    | @cons s s' s'' m ev l hh _ ih =>
      intro hr
      obtain ⟨e1, e2⟩ := handle_state hh h1 h2
      have hn : ¬(c.errorBeforeReset = true ∧ s.wasReset = false) := fun h => by
        have := hr h.1; rw [h.2] at this; exact absurd this (by simp)
      rw [if_neg (fun h => hn ⟨h.1, h.2.1⟩)] at e2
      rw [ih (fun h => by rw [e1, hr h]; rfl), List.map_cons, List.foldl_cons, e2]
      simp only [hn, not_false_eq_true, and_true]
  cases hq : c.errorBeforeReset with
  | false =>
    simp only [heard, hq, loopbackAfter]
    exact hAfter h (by simp [hq])
  | true =>
    simp only [heard, hq, if_true]
    have : ∀ {l : List (Cmd × List Ev)} {s s' : St}, Hist c s l s' → s = .fresh →
        s'.loopback = loopbackAfter ((l.map (·.1)).dropWhile (fun m => m.op ≠ 0x0c03)) := by
      intro l s s' h
      induction h with
      | nil => intro h; rw [h]; rfl
      | @cons s s' s'' m ev l hh ht ih =>
        intro hs
        obtain ⟨e1, e2⟩ := handle_state hh h1 h2
        rw [hs] at e1 e2
        by_cases ho : m.op = 0x0c03
        · rw [List.map_cons, List.dropWhile_cons_of_neg (by simp [ho])]
          rw [hAfter ht (fun _ => by rw [e1]; simp [ho])]
          simp only [loopbackAfter, List.foldl_cons]
          rw [e2]
          simp [ho]
        · rw [List.map_cons, List.dropWhile_cons_of_pos (by simp [ho])]
          refine ih ?_
          have : s'.loopback = false := by rw [e2]; simp [hq, St.fresh, ho]
          have h3 : s'.wasReset = false := by rw [e1]; simp [St.fresh, ho]
          cases s'; simp_all [St.fresh]
    exact this h rfl

/-- C73. While the loopback is on, every command but seven is sent back, alone, and has no other effect; while
it is off nothing is sent back. -/
theorem C73_echo {c : Cfg} {s s' : St} {m : Cmd} {ev : List Ev} {e : End} (h : Handle c s m ev e s') :
    (s.loopback = true → m.op ∉ [0x0c03, 0x0c31, 0x0c33, 0x0c35, 0x1005, 0x1801, 0x1802] →
      ev = [.loopback] ∧ e = .done ∧ s' = s) ∧
    (s.loopback = false ∨ m.op ∈ [0x0c03, 0x0c31, 0x0c33, 0x0c35, 0x1005, 0x1801, 0x1802] → Ev.loopback ∉ ev) := by
  have hRun : ∀ {l : List Stmt} {ev : List Ev} {f : Flow}, Run c m l ev f → Ev.loopback ∉ ev := by
    intro l ev f h
    induction h <;> simp_all
  have ht : throughLoopback m.op = true ↔ m.op ∈ [0x0c03, 0x0c31, 0x0c33, 0x0c35, 0x1005, 0x1801, 0x1802] := by
    simp [throughLoopback, or_assoc]
  rw [← ht]
  cases h with
  | echo h1 h2 => simp [h1, h2]
  | early h1 h2 =>
    refine ⟨fun h3 h4 => absurd ⟨h3, by simpa using h4⟩ h1, fun _ => by simp⟩
  | run h1 _ _ _ hr => exact ⟨fun h3 h4 => absurd ⟨h3, by simpa using h4⟩ h1, fun _ => hRun hr⟩
  | missing h1 => exact ⟨fun h3 h4 => absurd ⟨h3, by simpa using h4⟩ h1, fun _ => by simp⟩
  | unknown h1 => exact ⟨fun h3 h4 => absurd ⟨h3, by simpa using h4⟩ h1, fun _ => by simp⟩

/-- C73. A controller with the quirk: every command of a history without Reset is answered with a Hardware
Error event 0x42 and has no other effect. -/
theorem C73_quirk {c : Cfg} (hq : c.errorBeforeReset = true) {l : List (Cmd × List Ev)} {s : St} (h : Hist c .fresh l s)
    (hr : ∀ x ∈ l, x.1.op ≠ 0x0c03) : s = .fresh ∧ ∀ x ∈ l, x.2 = [.hardwareError 0x42] := by
  suffices key : ∀ {s0 : St}, Hist c s0 l s → s0 = .fresh → s = .fresh ∧ ∀ x ∈ l, x.2 = [.hardwareError 0x42] from key h rfl
  clear h
  intro s0 h hs
  induction h with
  | nil => exact ⟨hs, by simp⟩
  | @cons s1 s2 s3 m ev l hh _ ih =>
    have hm := hr _ List.mem_cons_self
    have hx : ev = [.hardwareError 0x42] ∧ s2 = s1 := by
      subst hs
      have hw : c.errorBeforeReset = true ∧ St.fresh.wasReset = false ∧ m.op ≠ 0x0c03 := ⟨hq, rfl, hm⟩
      generalize hE : End.done = e at hh
      cases hh with
      | echo h1 _ => exact absurd h1 (by decide)
      | early => exact ⟨rfl, rfl⟩
      | run _ h2 => exact absurd hw h2
      | missing _ h2 => exact absurd hw h2
      | unknown _ h2 => exact absurd hw h2
    obtain ⟨i1, i2⟩ := ih (fun x hx => hr x (List.mem_cons_of_mem _ hx)) (by rw [hx.2]; exact hs)
    refine ⟨i1, fun x hm => ?_⟩
    cases hm with
    | head => exact hx.1
    | tail _ h => exact i2 x h

/-- A controller with the quirk, to which the loopback is switched on too early, and then after a Reset. -/
def quirky : Cfg := ⟨true, defaultBytes, true, false⟩

example : Hist quirky .fresh
    [(⟨0x1802, [1], true⟩, [.hardwareError 0x42]), (⟨0x0c03, [], true⟩, [.complete 0x0c03]),
      (⟨0x1802, [1], true⟩, [.event 3, .event 3, .complete 0x1802]), (⟨0x0c13, [], false⟩, [.loopback])] ⟨true, true⟩ := by
  refine .cons (s' := .fresh) (.early (by decide) (by decide)) ?_
  refine .cons (s' := ⟨false, true⟩) (.run (l := [.check 0x0c03, .complete 0x0c03]) (f := .fell) (by decide) (by decide)
    (by decide +kernel) (by rfl) (.check rfl rfl (.complete .nil))) ?_
  refine .cons (s' := ⟨true, true⟩) (.run (l := [.check 0x1802, .event 3, .event 3, .complete 0x1802]) (f := .fell) (by decide)
    (by decide) (by decide +kernel) (by rfl) (.check rfl rfl (.event (.event (.complete .nil))))) ?_
  exact .cons (s' := ⟨true, true⟩) (.echo (by decide) (by decide)) .nil

/-- C73. Leaving the loopback mode should end the two connections that entering it has made. It announces two
new ones (event code 3 is Connection Complete, 5 Disconnection Complete). -/
theorem C73_leave_violated {c : Cfg} {s s' : St} {ev : List Ev} {e : End} (h : Handle c s ⟨0x1802, [0], true⟩ ev e s')
    (hs : supported c 0x1802 = true) (hr : s.wasReset = true) :
    s'.loopback = false ∧ ev = [.event 3, .event 3, .complete 0x1802] := by
  have hi : handlers.lookup 0x1802 = some [.check 0x1802, .event 3, .event 3, .complete 0x1802] := by rfl
  cases h with
  | echo _ h2 => exact absurd h2 (by simp [throughLoopback])
  | early _ h2 => rw [hr] at h2; exact absurd h2.2.1 (by simp)
  | run _ _ _ hl hr =>
    rcases loop_run rfl hl hr with h | h
    · exact ⟨by simp [after], h.2.1⟩
    · exact absurd h.1 (by simp)
  | missing _ _ _ h4 _ => rw [hi] at h4; exact absurd h4 (by simp)
  | unknown _ _ h3 =>
    rcases h3 with h | h
    · rw [hs] at h; exact absurd h (by simp)
    · rw [hi] at h; exact absurd h.1 (by simp)

end Verif.Hci
