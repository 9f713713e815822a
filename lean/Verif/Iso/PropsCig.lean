import Verif.Iso.CigLemmas
import Verif.Iso.FrameLemmas
import Verif.Iso.PropsHandles
/-!
# C27 and C28: configuration of connected isochronous groups

`Configured` and `LegalInterval` are in `SpecCig.lean`.
-/

namespace Verif.Iso

open Verif.Le

/-! ## C27 -/

/-- LE Set CIG Parameters is answered with an error and then changes nothing, or it succeeds and configures all
the CISes in it. -/
theorem C27_set_cig {s s' : State} (hr : Reachable s) {env : Env} {k sduC sduP : Nat} {framed : Bool} {lC lP : Nat}
    {cs : List NewCis} {outs : List Out}
    (h : step env s (.hci (.setCig k sduC sduP framed lC lP cs)) = .ok (s', outs)) :
    (∃ e, e ≠ success ∧ outs = [.event (.setCigComplete e k [])] ∧ s' = s) ∨
    (∃ cig hs, outs = [.event (.setCigComplete success k hs)] ∧ Configured s s' k cig cs hs ∧
      cig.sduIntervalC = sduC ∧ cig.sduIntervalP = sduP ∧ cig.framed = framed ∧ cig.configurable = true) := by
  have hi := reachable_inv hr
  simp only [step, runCmd, setCig] at h
  split at h
  · rename_i e he
    obtain ⟨rfl, rfl⟩ := answer_ok h
    exact Or.inl ⟨e, checkCig_ne he, rfl, rfl⟩
  · rename_i hc
    split at h
    · obtain ⟨rfl, rfl⟩ := answer_ok h
      exact Or.inl ⟨_, by decide, rfl, rfl⟩
    · split at h
      · cases h
      · obtain ⟨rfl, rfl⟩ := answer_ok h
        exact Or.inl ⟨_, by decide, rfl, rfl⟩
      · rename_i iso _
        split at h
        · cases h
        · rename_i s2 hs hcfg
          obtain ⟨rfl, rfl⟩ := answer_ok h
          refine Or.inr ⟨_, hs, rfl, configured_of hi hcfg, rfl, rfl, rfl, ?_⟩
          show ((mapFind s.cigs k).getD {}).configurable = true
          exact checkCig_configurable hc

/-- LE Set CIG Parameters Test is answered with an error and then changes nothing, or it succeeds and configures
all the CISes in it with the given ISO interval and flush timeouts. -/
theorem C27_set_cig_test {s s' : State} (hr : Reachable s) {env : Env} {k sduC sduP ftC ftP iso : Nat} {framed : Bool}
    {cs : List NewCis} {outs : List Out}
    (h : step env s (.hci (.setCigTest k sduC sduP ftC ftP iso framed cs)) = .ok (s', outs)) :
    (∃ e, e ≠ success ∧ outs = [.event (.setCigTestComplete e k [])] ∧ s' = s) ∨
    (∃ cig hs, outs = [.event (.setCigTestComplete success k hs)] ∧ Configured s s' k cig cs hs ∧
      cig = { isoInterval := iso, sduIntervalC := sduC, sduIntervalP := sduP, ftC := ftC, ftP := ftP, framed := framed, configurable := true }) := by
  have hi := reachable_inv hr
  simp only [step, runCmd, setCigTest] at h
  split at h
  · rename_i e he
    obtain ⟨rfl, rfl⟩ := answer_ok h
    exact Or.inl ⟨e, checkCig_ne he, rfl, rfl⟩
  · rename_i hc
    split at h
    · cases h
    · rename_i s2 hs hcfg
      obtain ⟨rfl, rfl⟩ := answer_ok h
      refine Or.inr ⟨_, hs, rfl, configured_of hi hcfg, ?_⟩
      rw [checkCig_configurable hc]

/-- Both outcomes occur. -/
example : (∃ s' hs, step fullEnv exampleState (.hci exampleCig) =
      .ok (s', [.event (.setCigComplete success 3 hs)]) ∧ hs = [0xE00, 0xE01]) ∧
    step { fullEnv with leCoded := false } exampleState (.hci (.setCig 4 10000 10000 false 20 20
      [⟨1, { maxSduC := 100, maxSduP := 50, phyC := 1, phyP := 1 }⟩,
       ⟨2, { maxSduC := 100, maxSduP := 50, phyC := 4, phyP := 1 }⟩])) =
      .ok (exampleState, [.event (.setCigComplete unsupportedParameter 4 [])]) := by
  refine ⟨⟨_, [0xE00, 0xE01], rfl, rfl⟩, rfl⟩

/-- Removing a CIG succeeds only if none of its CISes is in use, removes the group and its CISes and nothing
else; otherwise nothing changes. -/
theorem C27_remove_cig {s s' : State} {env : Env} {k : Nat} {outs : List Out}
    (h : step env s (.hci (.removeCig k)) = .ok (s', outs)) :
    (∃ e, e ≠ success ∧ outs = [.event (.removeCigComplete e k)] ∧ s' = s) ∨
    (outs = [.event (.removeCigComplete success k)] ∧ (mapFind s.cigs k).isSome = true ∧
      (∀ c ∈ s.cises, ∀ i, c.isCentral k i → c.state = .configuration) ∧
      mapFind s'.cigs k = none ∧ (∀ j, j ≠ k → mapFind s'.cigs j = mapFind s.cigs j) ∧
      (∀ c, c ∈ s'.cises ↔ c ∈ s.cises ∧ ¬ c.isCentral k c.cisId) ∧
      s'.acls = s.acls ∧ s'.bigs = s.bigs ∧ s'.bises = s.bises ∧ s'.requests = s.requests) := by
  simp only [step, runCmd, removeCig] at h
  split at h
  · obtain ⟨rfl, rfl⟩ := answer_ok h; exact Or.inl ⟨_, by decide, rfl, rfl⟩
  · rename_i hsome
    split at h
    · obtain ⟨rfl, rfl⟩ := answer_ok h; exact Or.inl ⟨_, by decide, rfl, rfl⟩
    · rename_i hbusy
      obtain ⟨rfl, rfl⟩ := answer_ok h
      refine Or.inr ⟨rfl, ?_, ?_, ?_, ?_, ?_, rfl, rfl, rfl, rfl⟩
      · cases hx : mapFind s.cigs k with
        | none => simp [hx] at hsome
        | some _ => rfl
      · intro c hc i hcen
        simp only [List.any_eq_true, not_exists, not_and] at hbusy
        have := hbusy c hc
        obtain ⟨h1, h2, -⟩ := hcen
        simpa [h1, h2] using this
      · show mapFind (mapErase _ _) _ = none
        rw [mapFind_mapErase, if_pos rfl]
      · intro j hj
        show mapFind (mapErase _ _) _ = _
        rw [mapFind_mapErase, if_neg (fun e => hj e.symm)]
      · intro c
        simp only [List.mem_filter, decide_eq_true_eq, Cis.isCentral]
        constructor
        · rintro ⟨h1, h2⟩; exact ⟨h1, fun ⟨a, b, _⟩ => by rcases h2 with h | h <;> contradiction⟩
        · rintro ⟨h1, h2⟩
          refine ⟨h1, ?_⟩
          by_cases ha : c.role = .central
          · exact Or.inr (fun e => h2 ⟨ha, e, trivial⟩)
          · exact Or.inl ha

example : ∃ s', step fullEnv exampleState (.hci (.removeCig 3)) =
    .ok (s', [.event (.removeCigComplete success 3)]) ∧ s'.cises.map (·.handle) = [0xE02] := ⟨_, rfl, rfl⟩

/-- LE Create CIS makes the groups of its CISes no longer configurable. -/
theorem C27_create_locks {s s' : State} {env : Env} {cs : List (Nat × Nat)} {outs : List Out}
    (h : step env s (.hci (.createCis cs)) = .ok (s', outs)) (hs : .event (.createCisStatus success) ∈ outs) :
    ∀ p ∈ cs, ∃ c ∈ s.cises, c.handle = p.1 ∧ ∃ g, mapFind s'.cigs c.cigId = some g ∧ g.configurable = false := by
  simp only [step, runCmd, createCis] at h
  split at h
  · rename_i e he
    obtain ⟨rfl, rfl⟩ := answer_ok h
    have := checkCreates_ne he
    simp at hs
    exact absurd hs.symm this
  · rename_i rs hrs
    split at h
    · obtain ⟨rfl, rfl⟩ := answer_ok h; simp [commandDisallowed, success] at hs
    · split at h
      · obtain ⟨rfl, rfl⟩ := answer_ok h; simp [commandDisallowed, success] at hs
      · split at h
        · cases h
        · rename_i cigs hl
          split at h
          · cases h
          · rename_i s1 o1 hd
            cases h
            intro p hp
            obtain ⟨r, hr, c, hc, h1, h2⟩ := checkCreates_mem hrs p hp
            obtain ⟨g, hg, hf⟩ := lockCigs_locked hl r hr
            refine ⟨c, hc, h1, g, ?_, hf⟩
            rw [dequeue_cigs hd, h2]; exact hg

/-- A group that is no longer configurable stays as it is until it is removed. -/
theorem C27_locked {s s' : State} {env : Env} {op : Op} {k : Nat} {g : CigConfig} {outs : List Out}
    (hg : mapFind s.cigs k = some g) (hl : g.configurable = false) (hop : op ≠ .hci (.removeCig k))
    (h : step env s op = .ok (s', outs)) : mapFind s'.cigs k = some g :=
  step_locked hg hl hop h

/-- The commands that would change it are refused. -/
theorem C27_locked_refused {s : State} {env : Env} {k : Nat} {g : CigConfig}
    (hg : mapFind s.cigs k = some g) (hl : g.configurable = false) :
    (∀ sduC sduP framed lC lP cs, step env s (.hci (.setCig k sduC sduP framed lC lP cs)) =
      .ok (s, [.event (.setCigComplete commandDisallowed k [])])) ∧
    (∀ sduC sduP ftC ftP iso framed cs, step env s (.hci (.setCigTest k sduC sduP ftC ftP iso framed cs)) =
      .ok (s, [.event (.setCigTestComplete commandDisallowed k [])])) := by
  have hc : ∀ a b cs, checkCig env s k a b cs = some commandDisallowed := by
    intro a b cs
    unfold checkCig
    rw [hg]
    simp [hl]
  constructor
  · intro sduC sduP framed lC lP cs
    simp only [step, runCmd, setCig, hc, answer]
  · intro sduC sduP ftC ftP iso framed cs
    simp only [step, runCmd, setCigTest, hc, answer]

/-- Creating a CIS of the example group locks it. -/
example : ∃ s' outs, step fullEnv exampleState (.hci (.createCis [(0xE00, 0x10)])) = .ok (s', outs) ∧
    .event (.createCisStatus success) ∈ outs ∧ (mapFind s'.cigs 3).map (·.configurable) = some false :=
  ⟨_, _, rfl, by decide +kernel, by decide +kernel⟩

/-! ## C28 -/

/-- The ISO interval of a group that LE Set CIG Parameters has accepted is legal. -/
theorem C28_interval {s s' : State} (hr : Reachable s) {env : Env} {k sduC sduP : Nat} {framed : Bool} {lC lP : Nat}
    {cs : List NewCis} {hs : List Nat} (hC : sduC < 2 ^ 24) (hP : sduP < 2 ^ 24)
    (h : step env s (.hci (.setCig k sduC sduP framed lC lP cs)) = .ok (s', [.event (.setCigComplete success k hs)])) :
    ∃ cig, mapFind s'.cigs k = some cig ∧ LegalInterval sduC sduP framed lC lP cig.isoInterval ∧
      cig.isoInterval < 65536 := by
  have hi := reachable_inv hr
  simp only [step, runCmd, setCig] at h
  split at h
  · rename_i e he
    have := (answer_ok h).2
    simp at this
    exact absurd this.1.symm (checkCig_ne he)
  · split at h
    · have := (answer_ok h).2; simp [invalidParameters, success] at this
    · split at h
      · cases h
      · have := (answer_ok h).2; simp [unsupportedParameter, success] at this
      · rename_i iso hiso
        split at h
        · cases h
        · rename_i s2 hs2 hcfg
          obtain ⟨rfl, -⟩ := answer_ok h
          have hc := configured_of hi hcfg
          have hlegal := isoInterval_legal hC hP hiso
          exact ⟨_, hc.group, hlegal.1, hlegal.2⟩

example : ∃ s' hs, step fullEnv exampleState (.hci (.setCig 5 7500 10000 false 100 100
      [⟨1, { maxSduC := 100, maxSduP := 50, phyC := 1, phyP := 1 }⟩])) =
      .ok (s', [.event (.setCigComplete success 5 hs)]) ∧
    (mapFind s'.cigs 5).map (·.isoInterval) = some 24 := ⟨_, _, rfl, by decide +kernel⟩

/-- The choice of the interval completes for a framed CIG, and for an unframed one if the least common multiple of the
intervals is below 2^31. -/
theorem C28_no_fault_partial {sduC sduP : Nat} {framed : Bool} (lC lP : Nat)
    (h : framed = true ∨ ((sduC ≠ 0 ∨ sduP ≠ 0) ∧
      ∃ m, m < 2 ^ 31 ∧ 1250 ∣ m ∧ 0 < m ∧ (sduC ≠ 0 → sduC ∣ m) ∧ (sduP ≠ 0 → sduP ∣ m))) :
    ∃ r, isoInterval sduC sduP framed lC lP = .ok r := by
  apply isoInterval_total
  refine h.imp_right ?_
  rintro ⟨h0, m, hm, h1, hpos, hc, hp⟩
  have h0' : ¬ (sduC = 0 ∧ sduP = 0) := by omega
  refine ⟨h0', ?_⟩
  have hd : Nat.lcm 1250 (sduLcm sduC sduP) ∣ m := Nat.lcm_dvd h1 ((sduLcm_dvd h0').2 ⟨hc, hp⟩)
  have := Nat.le_of_dvd hpos hd
  unfold u32
  omega

/-- Two legal SDU intervals without a small common multiple: the computation overflows. -/
theorem C28_overflow_violated :
    step fullEnv {} (.hci (.setCig 1 0xFFFFF 0xFFFFE false 100 100
      [⟨1, { maxSduC := 100, maxSduP := 100, phyC := 1, phyP := 1 }⟩])) = .error .overflow := rfl

/-- An unframed group without SDU intervals, which only has CISes without data: a division by zero. -/
theorem C28_zero_violated :
    step fullEnv {} (.hci (.setCig 1 0 0 false 100 100 [])) = .error .panic ∧
    step fullEnv {} (.hci (.setCig 1 0 0 false 100 100 [⟨1, { maxSduC := 0, maxSduP := 0, phyC := 1, phyP := 1 }⟩])) = .error .panic := ⟨rfl, rfl⟩

end Verif.Iso
