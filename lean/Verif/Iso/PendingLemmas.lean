import Verif.Iso.CreateLemmas
/-!
# Which CIS waits for the response of the peer: lemmas
-/

namespace Verif.Iso

open Verif.Le

/-- The CIS `h` waits for the response to its LL_CIS_REQ. -/
def Waits (cises : List Cis) (h : Nat) : Prop := ∃ c ∈ cises, c.handle = h ∧ c.state = .pendingRsp

/-- `(le, ge)`: no CIS begins to wait, and, if `K`, none stops waiting. -/
def SameWaits (K : Prop) (a b : List Cis) : Prop :=
  (∀ h, Waits b h → Waits a h) ∧ (K → ∀ h, Waits a h → Waits b h)

theorem SameWaits.refl (K : Prop) (a : List Cis) : SameWaits K a a := ⟨fun _ h => h, fun _ _ h => h⟩

theorem SameWaits.append (K : Prop) (a : List Cis) (c : Cis) (hc : c.state ≠ .pendingRsp) :
    SameWaits K a (a ++ [c]) := by
  constructor
  · rintro h ⟨x, hx, h1, h2⟩
    rcases List.mem_append.1 hx with hx | hx
    · exact ⟨x, hx, h1, h2⟩
    · rw [List.mem_singleton] at hx; subst hx; exact absurd h2 hc
  · rintro - h ⟨x, hx, h1, h2⟩
    exact ⟨x, List.mem_append_left _ hx, h1, h2⟩

theorem SameWaits.map (K : Prop) (a : List Cis) (f : Cis → Cis) (hf : ∀ c, (f c).handle = c.handle)
    (h1 : ∀ c ∈ a, (f c).state = .pendingRsp → c.state = .pendingRsp)
    (h2 : K → ∀ c ∈ a, c.state = .pendingRsp → (f c).state = .pendingRsp) : SameWaits K a (a.map f) := by
  constructor
  · rintro h ⟨x, hx, h3, h4⟩
    obtain ⟨c, hc, rfl⟩ := List.mem_map.1 hx
    exact ⟨c, hc, by rw [← hf]; exact h3, h1 c hc h4⟩
  · rintro hk h ⟨x, hx, h3, h4⟩
    exact ⟨f x, List.mem_map_of_mem hx, by rw [hf]; exact h3, h2 hk x hx h4⟩

theorem SameWaits.update (K : Prop) (a : List Cis) (h0 : Nat) (f : Cis → Cis) (hf : ∀ c, (f c).handle = c.handle)
    (h1 : ∀ c ∈ a, c.handle = h0 → (f c).state = .pendingRsp → c.state = .pendingRsp)
    (h2 : K → ∀ c ∈ a, c.handle = h0 → c.state = .pendingRsp → (f c).state = .pendingRsp) :
    SameWaits K a (updateCis a h0 f) := by
  apply SameWaits.map
  · intro c; split <;> first | exact hf c | rfl
  · intro c hc; split
    · rename_i e; exact h1 c hc e
    · exact fun h => h
  · intro hk c hc; split
    · rename_i e; exact h2 hk c hc e
    · exact fun h => h

theorem SameWaits.filter (K : Prop) (a : List Cis) (p : Cis → Bool)
    (h1 : K → ∀ c ∈ a, c.state = .pendingRsp → p c = true) : SameWaits K a (a.filter p) := by
  constructor
  · rintro h ⟨x, hx, h3, h4⟩
    exact ⟨x, (List.mem_filter.1 hx).1, h3, h4⟩
  · rintro hk h ⟨x, hx, h3, h4⟩
    exact ⟨x, List.mem_filter.2 ⟨hx, h1 hk x hx h4⟩, h3, h4⟩

theorem SameWaits.trans {K : Prop} {a b c : List Cis} (h1 : SameWaits K a b) (h2 : SameWaits K b c) : SameWaits K a c :=
  ⟨fun h hw => h1.1 h (h2.1 h hw), fun hk h hw => h2.2 hk h (h1.2 hk h hw)⟩

/-- The operations that may start the procedure of a CIS. -/
def Op.starts : Op → Bool
  | .hci (.createCis _) | .llcp _ .cisRsp | .llcp _ (.rejectExtInd ..) => true
  | _ => false

theorem configureCises_waits {k : Nat} {cs : List NewCis} {s s' : State} {hs : List Nat}
    (h : configureCises k cs s = .ok (s', hs)) (K : Prop) :
    SameWaits K s.cises s'.cises ∧ s'.requests = s.requests := by
  induction cs generalizing s hs with
  | nil => cases h; exact ⟨.refl _ _, rfl⟩
  | cons c cs ih =>
    simp only [configureCises] at h
    split at h
    · cases h
    · rename_i cises h0 hn
      split at h
      · cases h
      · rename_i hc
        cases h
        obtain ⟨h1, h2⟩ := ih hc
        refine ⟨.trans ?_ h1, h2⟩
        rcases newCis_cases hn with ⟨rfl, -⟩ | ⟨rfl, -⟩
        · exact .refl _ _
        · exact .append _ _ _ (by exact fun h => by cases h)

/-- The other operations start nothing, and end a wait only in the ways that `KeepsPending` excludes. -/
theorem step_waits {env : Env} {s s' : State} {op : Op} {outs : List Out} (hi : Inv s) (ho : op.starts = false)
    (h : step env s op = .ok (s', outs)) :
    SameWaits (KeepsPending s op) s.cises s'.cises ∧ s'.requests.Sublist s.requests ∧
      outs.countP Out.isCisReq = 0 := by
  cases op with
  | addLink acl role =>
    simp only [step, addLink] at h
    split at h
    · cases h
    · cases h; exact ⟨.refl _ _, List.Sublist.refl _, rfl⟩
  | removeLink acl reason =>
    simp only [step, removeLink] at h
    split at h
    · cases h
    · cases h
      refine ⟨.trans (.filter _ _ _ ?_) (.map _ _ _ ?_ ?_ ?_), List.filter_sublist, ?_⟩
      · intro hk c hc hst
        simp only [decide_eq_true_eq]
        exact Or.inr (fun e => hk c hc e hst)
      · intro c; split <;> rfl
      · intro c hc hst
        split at hst
        · cases hst
        · exact hst
      · intro hk c hc hst
        split
        · rename_i e
          exact absurd hst (hk c (List.mem_filter.1 hc).1 e)
        · exact hst
      · rw [List.countP_append, List.countP_map]
        have h1 : (s.cises.filterMap (lostEvent acl (if reason ∈ errorCodes then reason else remoteUserTerminated))).countP
            Out.isCisReq = 0 := by
          rw [List.countP_eq_zero]
          intro o hm
          obtain ⟨c, -, hc⟩ := List.mem_filterMap.1 hm
          unfold lostEvent at hc
          split at hc
          · split at hc <;> cases hc <;> exact fun h => by cases h
          · cases hc
        rw [h1, Nat.zero_add, List.countP_eq_zero]
        intro r _ h; cases h
  | hci c =>
    cases c with
    | createCis => cases ho
    | malformed => cases h
    | setCig =>
      simp only [step, runCmd, setCig] at h
      repeat' split at h
      all_goals first
        | (cases h; done)
        | (obtain ⟨rfl, rfl⟩ := answer_ok h; exact ⟨.refl _ _, List.Sublist.refl _, rfl⟩)
        | (rename_i hcfg
           obtain ⟨rfl, rfl⟩ := answer_ok h
           obtain ⟨h1, h2⟩ := configureCises_waits hcfg _
           exact ⟨h1, by rw [h2], rfl⟩)
    | setCigTest =>
      simp only [step, runCmd, setCigTest] at h
      repeat' split at h
      all_goals first
        | (cases h; done)
        | (obtain ⟨rfl, rfl⟩ := answer_ok h; exact ⟨.refl _ _, List.Sublist.refl _, rfl⟩)
        | (rename_i hcfg
           obtain ⟨rfl, rfl⟩ := answer_ok h
           obtain ⟨h1, h2⟩ := configureCises_waits hcfg _
           exact ⟨h1, by rw [h2], rfl⟩)
    | removeCig k =>
      simp only [step, runCmd, removeCig] at h
      split at h
      · obtain ⟨rfl, rfl⟩ := answer_ok h; exact ⟨.refl _ _, List.Sublist.refl _, rfl⟩
      · split at h
        · obtain ⟨rfl, rfl⟩ := answer_ok h; exact ⟨.refl _ _, List.Sublist.refl _, rfl⟩
        · rename_i hbusy
          obtain ⟨rfl, rfl⟩ := answer_ok h
          refine ⟨.filter _ _ _ ?_, List.Sublist.refl _, rfl⟩
          intro _ c hc hst
          simp only [decide_eq_true_eq]
          apply Decidable.byContradiction
          intro hn
          have h1 : c.role = .central := Decidable.byContradiction fun e => hn (Or.inl e)
          have h2 : c.cigId = k := Decidable.byContradiction fun e => hn (Or.inr e)
          have := fun hs => hbusy (List.any_eq_true.2 ⟨c, hc, hs⟩)
          simp [h1, h2, hst] at this
    | acceptCis x =>
      simp only [step, runCmd, acceptCis] at h
      split at h
      · obtain ⟨rfl, rfl⟩ := answer_ok h; exact ⟨.refl _ _, List.Sublist.refl _, rfl⟩
      · rename_i c hf
        split at h
        · obtain ⟨rfl, rfl⟩ := answer_ok h; exact ⟨.refl _ _, List.Sublist.refl _, rfl⟩
        · split at h
          · obtain ⟨rfl, rfl⟩ := answer_ok h; exact ⟨.refl _ _, List.Sublist.refl _, rfl⟩
          · rename_i hst
            split at h
            · cases h
            · cases h
              refine ⟨.update _ _ _ _ (by exact fun _ => rfl) ?_ ?_, List.Sublist.refl _, rfl⟩
              · intro c' _ _ h'; cases h'
              · intro _ c' hm' hh hst'
                obtain ⟨hm, hh2⟩ := findCis_some hf
                have := eq_of_handle hi.ids hm' hm (hh.trans hh2.symm)
                subst this
                rw [hst'] at hst; simp at hst
    | rejectCis x e =>
      simp only [step, runCmd, rejectCis] at h
      split at h
      · obtain ⟨rfl, rfl⟩ := answer_ok h; exact ⟨.refl _ _, List.Sublist.refl _, rfl⟩
      · rename_i c hf
        split at h
        · obtain ⟨rfl, rfl⟩ := answer_ok h; exact ⟨.refl _ _, List.Sublist.refl _, rfl⟩
        · split at h
          · obtain ⟨rfl, rfl⟩ := answer_ok h; exact ⟨.refl _ _, List.Sublist.refl _, rfl⟩
          · rename_i hst
            split at h
            · cases h
            · cases h
              refine ⟨.filter _ _ _ ?_, List.Sublist.refl _, rfl⟩
              intro _ c' hm' hst'
              simp only [decide_eq_true_eq]
              intro hh
              obtain ⟨hm, hh2⟩ := findCis_some hf
              have := eq_of_handle hi.ids hm' hm (hh.trans hh2.symm)
              subst this
              rw [hst'] at hst; simp at hst
    | setupPath a b c d =>
      simp only [step, runCmd, setupPath] at h
      repeat' split at h
      all_goals
        obtain ⟨rfl, rfl⟩ := answer_ok h
        first
          | exact ⟨.refl _ _, List.Sublist.refl _, rfl⟩
          | (refine ⟨.update _ _ _ _ ?_ ?_ ?_, List.Sublist.refl _, rfl⟩
             · intro c; split <;> rfl
             · intro c _ _ h; split at h <;> exact h
             · intro _ c _ _ h; split <;> exact h)
    | removePath a b c =>
      simp only [step, runCmd, removePath] at h
      repeat' split at h
      all_goals
        obtain ⟨rfl, rfl⟩ := answer_ok h
        first
          | exact ⟨.refl _ _, List.Sublist.refl _, rfl⟩
          | (refine ⟨.update _ _ _ _ ?_ ?_ ?_, List.Sublist.refl _, rfl⟩
             · intro c; rfl
             · intro c _ _ h; exact h
             · intro _ c _ _ h; exact h)
    | disconnect x r =>
      simp only [step, runCmd, disconnect] at h
      split at h
      · obtain ⟨rfl, rfl⟩ := answer_ok h; exact ⟨.refl _ _, List.Sublist.refl _, rfl⟩
      · rename_i c hf
        split at h
        · obtain ⟨rfl, rfl⟩ := answer_ok h; exact ⟨.refl _ _, List.Sublist.refl _, rfl⟩
        · split at h
          · cases h
          · cases h
            refine ⟨?_, List.Sublist.refl _, rfl⟩
            simp only
            split
            · refine .update _ _ _ _ (by exact fun _ => rfl) ?_ ?_
              · intro c' _ _ h'; cases h'
              · intro hk c' hm' hh hst'
                exact absurd hst' (hk c' hm' hh)
            · refine .filter _ _ _ ?_
              intro hk c' hm' hst'
              simp only [decide_eq_true_eq]
              intro hh
              exact absurd hst' (hk c' hm' hh)
    | createBig b a n i m l p =>
      simp only [step, runCmd] at h
      rcases createBig_cases (env := env) (s := s) (b := b) (a := a) (n := n) (i := i) (m := m) (l := l) (p := p)
        with ⟨e, he, hx⟩ | ⟨-, -, hx⟩
      · rw [hx] at h; cases h; exact ⟨.refl _ _, List.Sublist.refl _, rfl⟩
      · rw [hx] at h
        split at h
        · cases h
        · cases h; exact ⟨.refl _ _, List.Sublist.refl _, rfl⟩
    | terminateBig b r =>
      simp only [step, runCmd, terminateBig] at h
      repeat' split at h
      all_goals first
        | (obtain ⟨rfl, rfl⟩ := answer_ok h; exact ⟨.refl _ _, List.Sublist.refl _, rfl⟩)
        | (cases h; exact ⟨.refl _ _, List.Sublist.refl _, rfl⟩)
  | llcp acl p =>
    cases p with
    | cisReq r =>
      simp only [step, runPdu, cisReq] at h
      split at h
      · cases h
      · cases h; exact ⟨.append _ _ _ (by exact fun h => by cases h), List.Sublist.refl _, rfl⟩
    | cisRsp => cases ho
    | rejectExtInd => cases ho
    | cisInd a b =>
      simp only [step, runPdu, cisInd] at h
      split at h
      · cases h; exact ⟨.refl _ _, List.Sublist.refl _, rfl⟩
      · rename_i c ha
        obtain ⟨hm, -, -, hst⟩ := awaitingInd_some ha
        split at h
        · cases h
        · split at h
          · cases h
          · obtain ⟨rfl, rfl⟩ := send_ok h
            refine ⟨.update _ _ _ _ (by exact fun _ => rfl) ?_ ?_, List.Sublist.refl _, rfl⟩
            · intro c' _ _ h'; cases h'
            · intro _ c' hm' hh hst'
              have := eq_of_handle hi.ids hm' hm hh
              subst this
              rw [hst'] at hst; cases hst
    | terminateInd a b e =>
      simp only [step, runPdu, terminateInd] at h
      split at h
      · cases h; exact ⟨.refl _ _, List.Sublist.refl _, rfl⟩
      · rename_i c hf
        have hm := List.mem_of_find?_eq_some hf
        have hmatch := List.find?_some hf
        simp only [decide_eq_true_eq] at hmatch
        split at h
        · cases h
          refine ⟨.filter _ _ _ ?_, List.Sublist.refl _, rfl⟩
          intro hk c' hm' hst'
          simp only [decide_eq_true_eq]
          intro hh
          have := eq_of_handle hi.ids hm' hm hh
          subst this
          exact absurd hst' (hk c' hm' hmatch.1 hmatch.2.1 hmatch.2.2)
        · cases h
    | other => cases h
    | malformed => cases h
  | rehash order =>
    simp only [step] at h
    cases h
    refine ⟨?_, by split <;> exact List.Sublist.refl _, rfl⟩
    split
    · rename_i hp
      have hp := List.isPerm_iff.1 hp
      exact ⟨fun h ⟨c, hc, hx⟩ => ⟨c, hp.mem_iff.1 hc, hx⟩, fun _ h ⟨c, hc, hx⟩ => ⟨c, hp.mem_iff.2 hc, hx⟩⟩
    · exact .refl _ _

theorem dequeue_waits {s s' : State} {outs : List Out} (h : dequeue s = .ok (s', outs)) :
    (s.requests = [] ∧ s' = s ∧ outs = []) ∨
    (∃ r q, s.requests = r :: s'.requests ∧ outs = [.llcp r.acl (.cisReq q)] ∧ q.cigId = r.cigId ∧ q.cisId = r.cisId ∧
      Waits s'.cises r.handle ∧ (∀ x, Waits s'.cises x → x = r.handle ∨ Waits s.cises x) ∧
      ∀ x, Waits s.cises x → Waits s'.cises x) := by
  rcases dequeue_cases h with h | ⟨r, rest, p, c, hr, hf, rfl, q, rfl, h1, h2⟩
  · exact Or.inl h
  · refine Or.inr ⟨r, q, hr, rfl, h1, h2, ?_, ?_, ?_⟩
    · obtain ⟨hm, hh⟩ := findCis_some hf
      refine ⟨{ c with acl := some r.acl, state := .pendingRsp, params := some p }, ?_, hh, rfl⟩
      simp only [updateCis]
      refine List.mem_map.2 ⟨c, hm, ?_⟩
      rw [if_pos hh]
    · rintro x ⟨y, hy, h3, h4⟩
      obtain ⟨y₀, hm, ⟨h5, rfl⟩ | ⟨h5, rfl⟩⟩ := mem_updateCis hy
      · exact Or.inl (h3.symm.trans h5)
      · exact Or.inr ⟨_, hm, h3, h4⟩
    · rintro x ⟨y, hy, h3, h4⟩
      simp only [updateCis]
      by_cases hh : y.handle = r.handle
      · exact ⟨{ y with acl := some r.acl, state := .pendingRsp, params := some p },
          List.mem_map.2 ⟨y, hy, by rw [if_pos hh]⟩, h3, rfl⟩
      · exact ⟨y, List.mem_map.2 ⟨y, hy, by rw [if_neg hh]⟩, h3, h4⟩

/-- After its answer a CIS no longer waits. -/
theorem finish_waits {s : State} (c : Cis) (f : Cis → Cis) (hf : ∀ c, (f c).handle = c.handle)
    (hs : ∀ c, (f c).state ≠ .pendingRsp) (x : Nat) :
    Waits (setCises s (updateCis s.cises c.handle f)).cises x ↔ Waits s.cises x ∧ x ≠ c.handle := by
  constructor
  · rintro ⟨y, hy, h3, h4⟩
    obtain ⟨y₀, hm, ⟨h5, rfl⟩ | ⟨h5, rfl⟩⟩ := mem_updateCis hy
    · exact absurd h4 (hs _)
    · exact ⟨⟨_, hm, h3, h4⟩, fun e => h5 (h3.trans e)⟩
  · rintro ⟨⟨y, hy, h3, h4⟩, hne⟩
    refine ⟨y, List.mem_map.2 ⟨y, hy, ?_⟩, h3, h4⟩
    rw [if_neg (fun e => hne (h3.symm.trans e))]

/-- The operations that may start the procedure of a CIS: nothing happens to the procedures; or the answer of the
peer ends one; then the first request is started. -/
theorem start_waits {env : Env} {s s' : State} {op : Op} {outs : List Out} (ho : op.starts = true)
    (h : step env s op = .ok (s', outs)) :
    (s' = s ∧ outs.countP Out.isCisReq = 0 ∧ ∀ x, outs.countP (Out.establishes x) = 0) ∨
    (∃ s1 s2 o1 o2 o3, outs = o1 ++ o2 ++ o3 ∧ o1.countP Out.isCisReq = 0 ∧ o3.countP Out.isCisReq = 0 ∧
      dequeue s1 = .ok (s2, o2) ∧ s' = s2 ∧
      ((∃ cs rs, op = .hci (.createCis cs) ∧ s.requests = [] ∧ s1.requests = rs ∧ s1.cises = s.cises ∧
          rs.map (fun r => (r.handle, r.acl)) = cs ∧ .event (.createCisStatus success) ∈ outs) ∨
        (∃ c ∈ s.cises, c.state = .pendingRsp ∧ c.role = .central ∧ s1.requests = s.requests ∧
          (∃ acl, c.acl = some acl ∧ ∃ p, op = .llcp acl p) ∧
          0 < outs.countP (Out.establishes c.handle) ∧
          ∀ x, Waits s1.cises x ↔ Waits s.cises x ∧ x ≠ c.handle))) := by
  cases op with
  | hci c =>
    cases c <;> first | (cases ho; done) | skip
    rename_i cs
    simp only [step, runCmd, createCis] at h
    split at h
    · obtain ⟨rfl, rfl⟩ := answer_ok h; exact Or.inl ⟨rfl, rfl, fun _ => rfl⟩
    · rename_i rs hrs
      split at h
      · obtain ⟨rfl, rfl⟩ := answer_ok h; exact Or.inl ⟨rfl, rfl, fun _ => rfl⟩
      · rename_i hempty
        split at h
        · obtain ⟨rfl, rfl⟩ := answer_ok h; exact Or.inl ⟨rfl, rfl, fun _ => rfl⟩
        · split at h
          · cases h
          · rename_i cigs hl
            split at h
            · cases h
            · rename_i s2 o2 hd
              cases h
              obtain ⟨new, hnew, h1, -⟩ := checkCreates_ok hrs
              rw [List.nil_append] at hnew
              subst hnew
              refine Or.inr ⟨_, _, [], o2, [.event (.createCisStatus success)], by simp, rfl, rfl, hd, rfl, Or.inl
                ⟨cs, rs, rfl, Decidable.byContradiction hempty, rfl, rfl, h1, by simp⟩⟩
  | llcp acl p =>
    cases p <;> first | (cases ho; done) | skip
    · simp only [step, runPdu, cisRsp] at h
      split at h
      · cases h; exact Or.inl ⟨rfl, rfl, fun _ => rfl⟩
      · rename_i c ha
        obtain ⟨hm, hacl, hrole, hst⟩ := awaitingRsp_some ha
        split at h
        · cases h
        · rename_i p _
          split at h
          · cases h
          · rename_i e he
            split at h
            · cases h
            · rename_i s2 o2 hd
              obtain ⟨rfl, rfl⟩ := send_ok h
              refine Or.inr ⟨_, _, _, o2, [], by rw [List.append_nil], rfl, rfl, hd, rfl, Or.inr
                ⟨c, hm, hst, hrole, rfl, ⟨acl, hacl, _, rfl⟩, ?_, ?_⟩⟩
              · rw [List.countP_append, ← (centralEvent_handle he).1]
                simp [List.countP_cons, Out.establishes]
                omega
              · exact fun x => finish_waits c _ (by exact fun _ => rfl) (by exact fun _ h => by cases h) x
    · rename_i op' e'
      simp only [step, runPdu, rejectExtInd] at h
      split at h
      · cases h
      · split at h
        · cases h; exact Or.inl ⟨rfl, rfl, fun _ => rfl⟩
        · rename_i c ha
          obtain ⟨hm, hacl, hrole, hst⟩ := awaitingRsp_some ha
          split at h
          · cases h
          · rename_i s2 o2 hd
            cases h
            refine Or.inr ⟨_, _, [.event (.cisEstablished (.failed remoteUserTerminated c.handle))], o2, [], by simp,
              rfl, rfl, hd, rfl, Or.inr ⟨c, hm, hst, hrole, rfl, ⟨acl, hacl, _, rfl⟩, ?_, ?_⟩⟩
            · rw [List.countP_cons]
              have : Out.establishes c.handle (.event (.cisEstablished (.failed remoteUserTerminated c.handle))) = true := by
                show decide (c.handle = c.handle) = true
                simp
              rw [this]; simp
            · exact fun x => finish_waits c _ (by exact fun _ => rfl) (by exact fun _ h => by cases h) x
  | _ => cases ho

end Verif.Iso
