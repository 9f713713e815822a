import Verif.Iso.SpecCreate
import Verif.Iso.FrameLemmas
import Verif.Iso.CigLemmas
/-!
# Accounting of CIS creation: lemmas
-/

namespace Verif.Iso

open Verif.Le

theorem findCis_update {cises : List Cis} {h0 : Nat} {f : Cis → Cis} (hf : ∀ c, (f c).handle = c.handle) (h : Nat) :
    findCis (updateCis cises h0 f) h = if h = h0 then (findCis cises h).map f else findCis cises h := by
  unfold findCis updateCis
  induction cises with
  | nil => simp
  | cons c cs ih =>
    rw [List.map_cons, List.find?_cons, List.find?_cons]
    by_cases h1 : c.handle = h0
    · by_cases h2 : c.handle = h
      · subst h1; subst h2; simp [hf]
      · have h3 : h ≠ h0 := fun e => h2 (by rw [h1, e])
        simp only [h1, if_true, hf]
        rw [ih, if_neg h3, if_neg h3]
        have h4 : ¬ h0 = h := fun e => h3 e.symm
        simp [h4]
    · by_cases h2 : c.handle = h
      · have h3 : h ≠ h0 := fun e => h1 (by rw [h2, e])
        simp [h2, h3]
      · simp only [h1, if_false, h2, decide_false]
        rw [ih]

theorem findCis_erase {cises : List Cis} {h0 : Nat} (h : Nat) :
    findCis (eraseCis cises h0) h = if h = h0 then none else findCis cises h := by
  unfold findCis eraseCis
  induction cises with
  | nil => simp
  | cons c cs ih =>
    rw [List.filter_cons]
    by_cases h1 : c.handle = h0
    · simp only [h1, not_true_eq_false, decide_false, Bool.false_eq_true, if_false]
      rw [ih, List.find?_cons]
      split
      · rfl
      · rename_i hne
        have : ¬ c.handle = h := fun e => hne (by rw [← e, h1])
        simp [this]
    · simp only [h1, not_false_eq_true, decide_true, if_true]
      rw [List.find?_cons, List.find?_cons, ih]
      by_cases h2 : c.handle = h
      · have : h ≠ h0 := fun e => h1 (by rw [h2, e])
        simp [h2, this]
      · simp [h2]

theorem findCis_append {cises : List Cis} {c : Cis} (hf : ∀ x ∈ cises, x.handle ≠ c.handle) (h : Nat) :
    findCis (cises ++ [c]) h = if h = c.handle then some c else findCis cises h := by
  unfold findCis
  rw [List.find?_append]
  split
  · rename_i e
    subst e
    have : findCis cises c.handle = none := findCis_none.2 hf
    unfold findCis at this
    rw [this]; simp
  · rename_i hne
    have : ¬ c.handle = h := fun e => hne e.symm
    simp [this]

theorem findCis_of_mem {s : State} (hi : Inv s) {c : Cis} (hc : c ∈ s.cises) : findCis s.cises c.handle = some c := by
  cases h : findCis s.cises c.handle with
  | none => exact absurd rfl (findCis_none.1 h c hc)
  | some c' =>
    obtain ⟨hm, hh⟩ := findCis_some h
    rw [eq_of_handle hi.ids hm hc hh]

/-- The requests are for configured CISes and no two are for the same CIS. -/
structure Queue (s : State) : Prop where
  nodup : (s.requests.map (·.handle)).Nodup
  valid : ∀ r ∈ s.requests, ∃ c, findCis s.cises r.handle = some c ∧ c.state = .configuration ∧
    c.role = .central ∧ c.cigId = r.cigId ∧ c.cisId = r.cisId

theorem Queue.mono {s s' : State} (hq : Queue s) (hr : s'.requests = s.requests)
    (hc : ∀ h c, findCis s.cises h = some c → c.state = .configuration →
      (∃ r ∈ s.requests, r.handle = h) → ∃ c', findCis s'.cises h = some c' ∧
        c'.state = .configuration ∧ c'.role = c.role ∧ c'.cigId = c.cigId ∧ c'.cisId = c.cisId) : Queue s' := by
  refine ⟨by rw [hr]; exact hq.nodup, ?_⟩
  rw [hr]
  intro r hm
  obtain ⟨c, h1, h2, h3, h4, h5⟩ := hq.valid r hm
  obtain ⟨c', h6, h7, h8, h9, h10⟩ := hc _ c h1 h2 ⟨r, hm, rfl⟩
  exact ⟨c', h6, h7, h8.trans h3, h9.trans h4, h10.trans h5⟩

/-- Balance of one operation. -/
structure Balance (s s' : State) (op : Op) (outs : List Out) (h : Nat) : Prop where
  le : outs.countP (Out.establishes h) + outstanding s' h ≤ asked h (op, outs) + outstanding s h
  ge : Queue s → KeepsQueued s op → asked h (op, outs) + outstanding s h ≤
    outs.countP (Out.establishes h) + outs.countP (Out.disconnects h) + outstanding s' h

theorem Balance.same {s s' : State} {op : Op} {outs : List Out} {h : Nat} (ho : outstanding s' h = outstanding s h)
    (ha : asked h (op, outs) = 0) (he : outs.countP (Out.establishes h) = 0) : Balance s s' op outs h :=
  ⟨by omega, fun _ _ => by omega⟩

theorem outstanding_eq {s s' : State} {h : Nat} (hr : s'.requests = s.requests)
    (hc : (findCis s'.cises h).map (·.state) = (findCis s.cises h).map (·.state)) :
    outstanding s' h = outstanding s h := by
  unfold outstanding
  rw [hr]
  have : (findCis s'.cises h).any (fun c => c.state.isPending) = (findCis s.cises h).any (fun c => c.state.isPending) := by
    have hx : ∀ o : Option Cis, o.any (fun c => c.state.isPending) = (o.map (·.state)).any CisState.isPending := by
      intro o; cases o <;> rfl
    rw [hx, hx, hc]
  rw [this]

theorem dequeue_cases {s s' : State} {outs : List Out} (h : dequeue s = .ok (s', outs)) :
    (s.requests = [] ∧ s' = s ∧ outs = []) ∨
    (∃ r rest p c, s.requests = r :: rest ∧ findCis s.cises r.handle = some c ∧
      s' = { s with requests := rest, cises := updateCis s.cises r.handle (fun c => { c with acl := some r.acl, state := .pendingRsp, params := some p }) } ∧
      ∃ q, outs = [.llcp r.acl (.cisReq q)] ∧ q.cigId = r.cigId ∧ q.cisId = r.cisId) := by
  unfold dequeue at h
  split at h
  · rename_i hr; cases h; exact Or.inl ⟨hr, rfl, rfl⟩
  · rename_i r rest hr
    split at h
    · split at h
      · cases h
      · rename_i p _
        split at h
        · cases h
        · rename_i hsome
          obtain ⟨rfl, rfl⟩ := send_ok h
          right
          cases hf : findCis s.cises r.handle with
          | none => simp [hf] at hsome
          | some c => exact ⟨r, rest, p, c, hr, hf, rfl, _, rfl, rfl, rfl⟩
    · cases h

theorem dequeue_outs {s s' : State} {outs : List Out} (h : dequeue s = .ok (s', outs)) (k : Nat) :
    outs.countP (Out.establishes k) = 0 ∧ outs.countP (Out.disconnects k) = 0 := by
  rcases dequeue_cases h with ⟨-, -, rfl⟩ | ⟨r, rest, p, c, -, -, -, q, rfl, -⟩
  · exact ⟨rfl, rfl⟩
  · exact ⟨rfl, rfl⟩

theorem dequeue_outstanding {s s' : State} {outs : List Out} (h : dequeue s = .ok (s', outs)) (k : Nat) :
    outstanding s' k ≤ outstanding s k ∧ (Queue s → outstanding s' k = outstanding s k) := by
  rcases dequeue_cases h with ⟨-, rfl, -⟩ | ⟨r, rest, p, c, hr, hf, rfl, -⟩
  · exact ⟨Nat.le_refl _, fun _ => rfl⟩
  · unfold outstanding
    simp only
    rw [findCis_update (by exact fun _ => rfl), hr, List.countP_cons]
    by_cases hk : k = r.handle
    · subst hk
      rw [if_pos rfl, hf]
      constructor
      · simp [CisState.isPending]
      · intro hq
        obtain ⟨c', h1, h2, -⟩ := hq.valid r (by rw [hr]; exact List.mem_cons_self)
        rw [hf] at h1; cases h1
        simp [CisState.isPending, h2]
    · rw [if_neg hk]
      have hk' : ¬ r.handle = k := fun e => hk e.symm
      simp [hk']

theorem dequeue_queue {s s' : State} {outs : List Out} (hq : Queue s) (h : dequeue s = .ok (s', outs)) : Queue s' := by
  rcases dequeue_cases h with ⟨-, rfl, -⟩ | ⟨r, rest, p, c, hr, hf, rfl, -⟩
  · exact hq
  · have hn := hq.nodup
    rw [hr, List.map_cons, List.nodup_cons] at hn
    refine ⟨hn.2, ?_⟩
    intro x hx
    obtain ⟨c', h1, h2⟩ := hq.valid x (by rw [hr]; exact List.mem_cons_of_mem _ hx)
    refine ⟨c', ?_, h2⟩
    simp only
    rw [findCis_update (by exact fun _ => rfl), if_neg (fun e => hn.1 (by rw [← e]; exact List.mem_map_of_mem hx))]
    exact h1

/-- Commands and PDUs that neither touch the queue nor the state of a CIS that is queued or pending. -/
theorem outstanding_update {s : State} {h0 : Nat} {f : Cis → Cis} (hf : ∀ c, (f c).handle = c.handle)
    (hs : ∀ c, findCis s.cises h0 = some c → (f c).state.isPending = c.state.isPending) (h : Nat) :
    outstanding { s with cises := updateCis s.cises h0 f } h = outstanding s h := by
  unfold outstanding
  simp only
  rw [findCis_update hf]
  by_cases hh : h = h0
  · subst hh
    rw [if_pos rfl]
    cases hx : findCis s.cises h with
    | none => rfl
    | some c => simp only [Option.map_some, Option.any_some, hs c hx]
  · rw [if_neg hh]

theorem findCis_filter {cises : List Cis} (hn : (cises.map (·.handle)).Nodup) (p : Cis → Bool) (h : Nat) :
    findCis (cises.filter p) h = (findCis cises h).filter p := by
  unfold findCis
  induction cises with
  | nil => rfl
  | cons c cs ih =>
    rw [List.map_cons, List.nodup_cons] at hn
    rw [List.filter_cons, List.find?_cons]
    by_cases h2 : c.handle = h
    · have hnone : List.find? (fun c => decide (c.handle = h)) cs = none := by
        rw [List.find?_eq_none]
        intro x hx
        have : x.handle ≠ c.handle := fun e => hn.1 (e ▸ List.mem_map_of_mem hx)
        simp only [decide_eq_true_eq]
        exact fun e => this (by rw [e, h2])
      have hnone' : List.find? (fun c => decide (c.handle = h)) (cs.filter p) = none := by
        rw [ih hn.2, hnone]; rfl
      cases hp : p c
      · simp [h2, hnone', Option.filter, hp]
      · simp [h2, Option.filter, hp]
    · cases hp : p c
      · simp [h2, ih hn.2]
      · simp [h2, ih hn.2]

theorem findCis_map {cises : List Cis} {g : Cis → Cis} (hg : ∀ c, (g c).handle = c.handle) (h : Nat) :
    findCis (cises.map g) h = (findCis cises h).map g := by
  unfold findCis
  induction cises with
  | nil => rfl
  | cons c cs ih =>
    rw [List.map_cons, List.find?_cons, List.find?_cons, hg]
    by_cases h2 : c.handle = h
    · simp [h2]
    · simp [h2, ih]

theorem Inv.handles {s : State} (hi : Inv s) : (s.cises.map (·.handle)).Nodup := by
  have := hi.ids.nodup
  rw [List.map_map] at this
  exact this

theorem findCis_perm {a b : List Cis} (hp : a.Perm b) (hn : (b.map (·.handle)).Nodup) (h : Nat) :
    findCis a h = findCis b h := by
  cases hb : findCis b h with
  | none =>
    rw [findCis_none] at hb ⊢
    exact fun c hc => hb c (hp.mem_iff.1 hc)
  | some c =>
    obtain ⟨hm, hh⟩ := findCis_some hb
    cases ha : findCis a h with
    | none => exact absurd hh (findCis_none.1 ha c (hp.mem_iff.2 hm))
    | some c' =>
      obtain ⟨hm', hh'⟩ := findCis_some ha
      rw [inj_of_nodup_map hn (hp.mem_iff.1 hm') hm (hh'.trans hh.symm)]

/-- What is proved of every step. -/
structure StepOk (s s' : State) (op : Op) (outs : List Out) : Prop where
  balance : ∀ h, Balance s s' op outs h
  queue : Queue s → KeepsQueued s op → Queue s'

theorem StepOk.same {s s' : State} {op : Op} {outs : List Out} (hr : s'.requests = s.requests)
    (hf : ∀ h, findCis s'.cises h = findCis s.cises h) (ha : ∀ h, asked h (op, outs) = 0)
    (he : ∀ h, outs.countP (Out.establishes h) = 0) : StepOk s s' op outs := by
  refine ⟨fun h => Balance.same (outstanding_eq hr (by rw [hf])) (ha h) (he h), fun hq _ => ?_⟩
  exact hq.mono hr (fun h c h1 h2 _ => ⟨c, by rw [hf]; exact h1, h2, rfl, rfl, rfl⟩)

/-- Update of a CIS that does not change the state. -/
theorem StepOk.update {s : State} {h0 : Nat} {f : Cis → Cis} {op : Op} {outs : List Out}
    (hf : ∀ c, (f c).ident = c.ident) (hs : ∀ c, (f c).state = c.state) (ha : ∀ h, asked h (op, outs) = 0)
    (he : ∀ h, outs.countP (Out.establishes h) = 0) :
    StepOk s { s with cises := updateCis s.cises h0 f } op outs := by
  have hh : ∀ c, (f c).handle = c.handle := fun c => congrArg (·.1) (hf c)
  refine ⟨fun h => Balance.same (outstanding_update hh (fun c _ => by rw [hs]) h) (ha h) (he h), fun hq _ => ?_⟩
  refine hq.mono rfl (fun h c h1 h2 _ => ?_)
  simp only
  rw [findCis_update hh, h1]
  by_cases e : h = h0
  · rw [if_pos e]
    exact ⟨f c, rfl, by rw [hs]; exact h2, congrArg (·.2.2.2) (hf c), congrArg (·.2.1) (hf c), congrArg (·.2.2.1) (hf c)⟩
  · rw [if_neg e]; exact ⟨c, rfl, h2, rfl, rfl, rfl⟩

theorem asked_answer (h : Nat) (c : Cmd) (e : Event) (h1 : e ≠ .createCisStatus success)
    (h2 : e ≠ .acceptCisStatus success) : asked h (.hci c, [.event e]) = 0 := by
  unfold asked
  split
  · rename_i heq
    rw [Prod.mk.injEq] at heq
    obtain ⟨-, rfl⟩ := heq
    rw [if_neg]
    simp only [List.mem_singleton, Out.event.injEq]
    exact fun e => h1 e.symm
  · rename_i heq
    rw [Prod.mk.injEq] at heq
    obtain ⟨-, rfl⟩ := heq
    rw [if_neg]
    simp only [List.mem_singleton, Out.event.injEq]
    exact fun e => h2 e.1.symm
  · rfl

/-- A command that is only answered. -/
theorem StepOk.answered {s : State} {c : Cmd} {e : Event} (h1 : e ≠ .createCisStatus success)
    (h2 : e ≠ .acceptCisStatus success) (h3 : ∀ x, e ≠ .cisEstablished x) : StepOk s s (.hci c) [.event e] :=
  StepOk.same rfl (fun _ => rfl) (fun h => asked_answer h c e h1 h2) (fun h => by
    cases e <;> first | rfl | exact absurd rfl (h3 _))

theorem configured_stepOk {s s' : State} {k : Nat} {g : CigConfig} {cs : List NewCis} {hs : List Nat} {c : Cmd} {e : Event}
    (hi : Inv s) (hi' : Inv s') (hc : Configured s s' k g cs hs) (h1 : e ≠ .createCisStatus success)
    (h2 : e ≠ .acceptCisStatus success) (h3 : ∀ x, e ≠ .cisEstablished x) : StepOk s s' (.hci c) [.event e] := by
  have hkeep : ∀ h x, findCis s.cises h = some x → findCis s'.cises h = some x := by
    intro h x hx
    obtain ⟨hm, hh⟩ := findCis_some hx
    have := findCis_of_mem hi' (hc.kept x hm)
    rw [hh] at this; exact this
  refine ⟨fun h => Balance.same ?_ (asked_answer h c e h1 h2)
      (by cases e <;> first | rfl | exact absurd rfl (h3 _)), fun hq _ => ?_⟩
  · unfold outstanding
    rw [hc.requests]
    congr 1
    cases hx : findCis s.cises h with
    | some x => rw [hkeep h x hx]
    | none =>
      cases hy : findCis s'.cises h with
      | none => rfl
      | some y =>
        obtain ⟨hm, hh⟩ := findCis_some hy
        rcases hc.added y hm with hm' | ⟨-, hst, -⟩
        · exact absurd hh (findCis_none.1 hx y hm')
        · simp [hst, CisState.isPending]
  · exact hq.mono hc.requests (fun h x h1 h2 _ => ⟨x, hkeep h x h1, h2, rfl, rfl, rfl⟩)

theorem setCig_stepOk {env : Env} {s s' : State} {k sduC sduP : Nat} {framed : Bool} {lC lP : Nat} {cs : List NewCis}
    {outs : List Out} (hi : Inv s) (h : setCig env s k sduC sduP framed lC lP cs = .ok (s', outs)) :
    StepOk s s' (.hci (.setCig k sduC sduP framed lC lP cs)) outs := by
  have hi' := setCig_inv hi h
  simp only [setCig] at h
  repeat' split at h
  all_goals first
    | (cases h; done)
    | (obtain ⟨rfl, rfl⟩ := answer_ok h; exact StepOk.answered nofun nofun nofun)
    | (rename_i hcfg; obtain ⟨rfl, rfl⟩ := answer_ok h
       exact configured_stepOk hi hi' (configured_of hi hcfg) nofun nofun nofun)

theorem setCigTest_stepOk {env : Env} {s s' : State} {k sduC sduP ftC ftP iso : Nat} {framed : Bool} {cs : List NewCis}
    {outs : List Out} (hi : Inv s) (h : setCigTest env s k sduC sduP ftC ftP iso framed cs = .ok (s', outs)) :
    StepOk s s' (.hci (.setCigTest k sduC sduP ftC ftP iso framed cs)) outs := by
  have hi' := setCigTest_inv hi h
  simp only [setCigTest] at h
  repeat' split at h
  all_goals first
    | (cases h; done)
    | (obtain ⟨rfl, rfl⟩ := answer_ok h; exact StepOk.answered nofun nofun nofun)
    | (rename_i hcfg; obtain ⟨rfl, rfl⟩ := answer_ok h
       exact configured_stepOk hi hi' (configured_of hi hcfg) nofun nofun nofun)

theorem removeCig_stepOk {s s' : State} {k : Nat} {outs : List Out} (hi : Inv s)
    (h : removeCig s k = .ok (s', outs)) : StepOk s s' (.hci (.removeCig k)) outs := by
  unfold removeCig at h
  split at h
  · obtain ⟨rfl, rfl⟩ := answer_ok h; exact StepOk.answered nofun nofun nofun
  · split at h
    · obtain ⟨rfl, rfl⟩ := answer_ok h; exact StepOk.answered nofun nofun nofun
    · rename_i hbusy
      obtain ⟨rfl, rfl⟩ := answer_ok h
      have hfind := fun p x => findCis_filter hi.handles p x
      refine ⟨fun x => Balance.same ?_ rfl rfl, fun hq hk => ?_⟩
      · unfold outstanding
        simp only
        rw [hfind]
        congr 1
        cases hx : findCis s.cises x with
        | none => rfl
        | some c =>
          by_cases hp : c.role ≠ .central ∨ c.cigId ≠ k
          · have hp' : decide (c.role ≠ .central ∨ c.cigId ≠ k) = true := by simpa using hp
            simp only [Option.filter, hp', if_true]
          · have hst : c.state = .configuration := by
              have h1 : c.role = .central := Decidable.byContradiction fun e => hp (Or.inl e)
              have h2 : c.cigId = k := Decidable.byContradiction fun e => hp (Or.inr e)
              have := fun hs => hbusy (List.any_eq_true.2 ⟨c, (findCis_some hx).1, hs⟩)
              simpa [h1, h2] using this
            have hp' : decide (c.role ≠ .central ∨ c.cigId ≠ k) = false := by simpa using hp
            simp only [Option.filter, hp', Bool.false_eq_true, if_false]
            simp [hst, CisState.isPending]
      · refine ⟨hq.nodup, ?_⟩
        intro r hr
        obtain ⟨c, h1, h2, h3, h4, h5⟩ := hq.valid r hr
        refine ⟨c, ?_, h2, h3, h4, h5⟩
        simp only
        rw [hfind, h1]
        have : decide (c.role ≠ .central ∨ c.cigId ≠ k) = true := by
          have := hk r hr
          rw [← h4] at this
          simpa using Or.inr this
        simp only [Option.filter, this, if_true]

theorem createCis_stepOk {env : Env} {s s' : State} {cs : List (Nat × Nat)} {outs : List Out} (hi : Inv s)
    (h : createCis env s cs = .ok (s', outs)) : StepOk s s' (.hci (.createCis cs)) outs := by
  unfold createCis at h
  split at h
  · rename_i e he
    obtain ⟨rfl, rfl⟩ := answer_ok h
    refine StepOk.answered ?_ nofun nofun
    intro e; cases e; exact checkCreates_ne he rfl
  · rename_i rs hrs
    split at h
    · obtain ⟨rfl, rfl⟩ := answer_ok h; exact StepOk.answered nofun nofun nofun
    · rename_i hempty
      have hempty : s.requests = [] := Decidable.byContradiction hempty
      split at h
      · obtain ⟨rfl, rfl⟩ := answer_ok h; exact StepOk.answered nofun nofun nofun
      · split at h
        · cases h
        · rename_i cigs hl
          split at h
          · cases h
          · rename_i s1 o1 hd
            cases h
            obtain ⟨new, hnew, h1, h2, h3⟩ := checkCreates_ok hrs
            rw [List.nil_append] at hnew
            subst hnew
            have hq1 : Queue { s with cigs := cigs, requests := rs } := by
              refine ⟨h3 List.nodup_nil, ?_⟩
              intro r hr
              obtain ⟨-, c, hc, h4, h5, h6, h7⟩ := h2 r hr
              have := findCis_of_mem hi hc
              rw [h4] at this
              refine ⟨c, this, h5, ?_, h6, h7⟩
              cases hrole : c.role with
              | central => rfl
              | peripheral => exact absurd h5 ((hi.cises c hc).accepted hrole)
            refine ⟨fun x => ?_, fun _ _ => dequeue_queue hq1 hd⟩
            obtain ⟨ho1, ho2⟩ := dequeue_outs hd x
            have ho3 := (dequeue_outstanding hd x).2 hq1
            have ho4 : outstanding { s with cigs := cigs, requests := rs } x =
                cs.countP (fun p => p.1 = x) + outstanding s x := by
              unfold outstanding
              simp only
              rw [hempty, ← h1, List.countP_map]
              simp only [List.countP_nil, Nat.zero_add]
              rfl
            have ho5 : asked x (.hci (.createCis cs), o1 ++ [.event (.createCisStatus success)]) =
                cs.countP (fun p => p.1 = x) := by
              show (if _ then _ else _) = _
              rw [if_pos (by simp)]
            have ho6 : (o1 ++ [Out.event (.createCisStatus success)]).countP (Out.establishes x) = 0 := by
              rw [List.countP_append, ho1]; rfl
            exact ⟨by omega, fun _ _ => by omega⟩

theorem acceptCis_stepOk {s s' : State} {h : Nat} {outs : List Out}
    (hr : acceptCis s h = .ok (s', outs)) : StepOk s s' (.hci (.acceptCis h)) outs := by
  unfold acceptCis at hr
  split at hr
  · obtain ⟨rfl, rfl⟩ := answer_ok hr; exact StepOk.answered nofun nofun nofun
  · rename_i c hf
    split at hr
    · obtain ⟨rfl, rfl⟩ := answer_ok hr; exact StepOk.answered nofun nofun nofun
    · split at hr
      · obtain ⟨rfl, rfl⟩ := answer_ok hr; exact StepOk.answered nofun nofun nofun
      · rename_i hst
        have hst : c.state = .pendingAccept := Decidable.byContradiction hst
        split at hr
        · cases hr
        · cases hr
          rename_i acl _
          refine ⟨fun x => ?_, fun hq _ => ?_⟩
          · have ha : asked x (.hci (.acceptCis h), [.llcp acl .cisRsp, .event (.acceptCisStatus success)]) =
                if h = x then 1 else 0 := by simp [asked]
            have he : [Out.llcp acl .cisRsp, .event (.acceptCisStatus success)].countP (Out.establishes x) = 0 := rfl
            have ho : outstanding { s with cises := updateCis s.cises h (fun c => { c with state := .pendingInd }) } x =
                outstanding s x + if h = x then 1 else 0 := by
              unfold outstanding
              simp only
              rw [findCis_update (by exact fun _ => rfl)]
              by_cases hx : x = h
              · subst hx
                rw [if_pos rfl, hf]
                simp [CisState.isPending, hst]
              · have : ¬ h = x := fun e => hx e.symm
                rw [if_neg hx, if_neg this]; rfl
            exact ⟨by omega, fun _ _ => by omega⟩
          · refine hq.mono rfl (fun x c' h1 h2 _ => ?_)
            have : x ≠ h := by
              rintro rfl
              rw [hf] at h1; cases h1
              rw [hst] at h2; cases h2
            simp only
            rw [findCis_update (by exact fun _ => rfl), if_neg this]
            exact ⟨c', h1, h2, rfl, rfl, rfl⟩

theorem rejectCis_stepOk {s s' : State} {h : Nat} {e : ErrorCode} {outs : List Out}
    (hr : rejectCis s h e = .ok (s', outs)) : StepOk s s' (.hci (.rejectCis h e)) outs := by
  unfold rejectCis at hr
  split at hr
  · obtain ⟨rfl, rfl⟩ := answer_ok hr; exact StepOk.answered nofun nofun nofun
  · rename_i c hf
    split at hr
    · obtain ⟨rfl, rfl⟩ := answer_ok hr; exact StepOk.answered nofun nofun nofun
    · split at hr
      · obtain ⟨rfl, rfl⟩ := answer_ok hr; exact StepOk.answered nofun nofun nofun
      · rename_i hst
        have hst : c.state = .pendingAccept := Decidable.byContradiction hst
        split at hr
        · cases hr
        · cases hr
          refine ⟨fun x => Balance.same ?_ rfl rfl, fun hq _ => ?_⟩
          · unfold outstanding
            simp only
            rw [findCis_erase]
            by_cases hx : x = h
            · subst hx
              rw [if_pos rfl, hf]
              simp [CisState.isPending, hst]
            · rw [if_neg hx]
          · refine hq.mono rfl (fun x c' h1 h2 _ => ?_)
            have : x ≠ h := by
              rintro rfl
              rw [hf] at h1; cases h1
              rw [hst] at h2; cases h2
            simp only
            rw [findCis_erase, if_neg this]
            exact ⟨c', h1, h2, rfl, rfl, rfl⟩

theorem disconnect_stepOk {s s' : State} {h reason : Nat} {outs : List Out}
    (hr : disconnect s h reason = .ok (s', outs)) : StepOk s s' (.hci (.disconnect h reason)) outs := by
  unfold disconnect at hr
  split at hr
  · obtain ⟨rfl, rfl⟩ := answer_ok hr; exact StepOk.answered nofun nofun nofun
  · rename_i c hf
    split at hr
    · obtain ⟨rfl, rfl⟩ := answer_ok hr; exact StepOk.answered nofun nofun nofun
    · rename_i hst
      have hst : c.state ≠ .configuration := by intro e; rw [e] at hst; simp at hst
      split at hr
      · cases hr
      · rename_i acl _
        cases hr
        have hfind : ∀ x, findCis (if c.role = .central then
              updateCis s.cises h (fun c => { c with state := .configuration }) else eraseCis s.cises h) x =
            if x = h then (if c.role = .central then some { c with state := .configuration } else none)
            else findCis s.cises x := by
          intro x
          by_cases hc : c.role = .central
          · rw [if_pos hc, if_pos hc, findCis_update (by exact fun _ => rfl)]
            by_cases hx : x = h
            · subst hx; rw [if_pos rfl, if_pos rfl, hf]; rfl
            · rw [if_neg hx, if_neg hx]
          · rw [if_neg hc, if_neg hc, findCis_erase]
        refine ⟨fun x => ?_, fun hq _ => ?_⟩
        · have hd : [Out.llcp acl (.terminateInd c.cigId c.cisId reason), .event (.disconnectStatus success),
              .event (.disconnectionComplete h terminatedByLocalHost)].countP (Out.disconnects x) =
              if h = x then 1 else 0 := by
            simp [List.countP_cons, Out.disconnects]
          have he : [Out.llcp acl (.terminateInd c.cigId c.cisId reason), .event (.disconnectStatus success),
              .event (.disconnectionComplete h terminatedByLocalHost)].countP (Out.establishes x) = 0 := rfl
          have ha : asked x (.hci (.disconnect h reason), [Out.llcp acl (.terminateInd c.cigId c.cisId reason),
              .event (.disconnectStatus success), .event (.disconnectionComplete h terminatedByLocalHost)]) = 0 := rfl
          have ho : ∀ s1 : State, s1.requests = s.requests → findCis s1.cises x =
              (if x = h then (if c.role = .central then some { c with state := .configuration } else none)
              else findCis s.cises x) →
              outstanding s1 x ≤ outstanding s x ∧ outstanding s x ≤ outstanding s1 x + if h = x then 1 else 0 := by
            intro s1 h1 h2
            unfold outstanding
            rw [h1, h2]
            by_cases hx : x = h
            · subst hx
              rw [if_pos rfl, if_pos rfl]
              have : (Option.any (fun c => c.state.isPending)
                  (if c.role = .central then some { c with state := .configuration } else none)) = false := by
                split <;> rfl
              rw [this]
              simp only [Bool.false_eq_true, if_false, if_true]
              constructor <;> repeat' split
              all_goals omega
            · have : ¬ h = x := fun e => hx e.symm
              rw [if_neg hx, if_neg this]; omega
          have := ho (setCises s (if c.role = .central then
              updateCis s.cises h (fun c => { c with state := .configuration }) else eraseCis s.cises h)) rfl (hfind x)
          simp only [setCises] at this
          exact ⟨by rw [he, ha]; simpa using this.1, fun _ _ => by rw [he, ha, hd]; omega⟩
        · refine hq.mono rfl (fun x c' h1 h2 _ => ?_)
          have : x ≠ h := by
            rintro rfl
            rw [hf] at h1; cases h1
            exact hst h2
          simp only
          rw [hfind, if_neg this]
          exact ⟨c', h1, h2, rfl, rfl, rfl⟩

/-- Commands that concern only data paths and broadcast groups. -/
def Cmd.isOther : Cmd → Bool
  | .setupPath .. | .removePath .. | .createBig .. | .terminateBig .. | .malformed => true
  | _ => false

theorem other_stepOk {env : Env} {s s' : State} {c : Cmd} {outs : List Out} (hc : c.isOther = true)
    (h : runCmd env s c = .ok (s', outs)) : StepOk s s' (.hci c) outs := by
  cases c <;> first | (cases hc; done) | skip
  case setupPath a b c d =>
    simp only [runCmd, setupPath] at h
    repeat' split at h
    all_goals
      obtain ⟨rfl, rfl⟩ := answer_ok h
      first
        | exact StepOk.answered nofun nofun nofun
        | exact StepOk.same rfl (fun _ => rfl) (fun _ => rfl) (fun _ => rfl)
        | exact StepOk.update (fun _ => by split <;> rfl) (fun _ => by split <;> rfl) (fun _ => rfl) (fun _ => rfl)
  case removePath a b c =>
    simp only [runCmd, removePath] at h
    repeat' split at h
    all_goals
      obtain ⟨rfl, rfl⟩ := answer_ok h
      first
        | exact StepOk.answered nofun nofun nofun
        | exact StepOk.same rfl (fun _ => rfl) (fun _ => rfl) (fun _ => rfl)
        | exact StepOk.update (fun _ => rfl) (fun _ => rfl) (fun _ => rfl) (fun _ => rfl)
  case createBig b a n i m l p =>
    simp only [runCmd] at h
    rcases createBig_cases (env := env) (s := s) (b := b) (a := a) (n := n) (i := i) (m := m) (l := l) (p := p)
      with ⟨e, he, hx⟩ | ⟨-, -, hx⟩
    · rw [hx] at h; cases h; exact StepOk.answered nofun nofun nofun
    · rw [hx] at h
      split at h
      · cases h
      · cases h; exact StepOk.same rfl (fun _ => rfl) (fun _ => rfl) (fun _ => rfl)
  case terminateBig b r =>
    simp only [runCmd, terminateBig] at h
    repeat' split at h
    all_goals first
      | (obtain ⟨rfl, rfl⟩ := answer_ok h; exact StepOk.answered nofun nofun nofun)
      | (cases h; exact StepOk.same rfl (fun _ => rfl) (fun _ => rfl) (fun _ => rfl))
  case malformed => cases h

theorem lost_count {cises : List Cis} (hn : (cises.map (·.handle)).Nodup) (acl : Nat) (e : ErrorCode) (h : Nat) :
    (cises.filterMap (lostEvent acl e)).countP (Out.establishes h) =
      if (findCis cises h).any (fun c => c.acl = some acl && c.state.isPending) then 1 else 0 := by
  unfold findCis
  induction cises with
  | nil => rfl
  | cons c cs ih =>
    rw [List.map_cons, List.nodup_cons] at hn
    have ih := ih hn.2
    have hsplit : ((c :: cs).filterMap (lostEvent acl e)).countP (Out.establishes h) =
        (if c.handle = h ∧ c.acl = some acl ∧ c.state.isPending = true then 1 else 0) +
          (cs.filterMap (lostEvent acl e)).countP (Out.establishes h) := by
      rw [List.filterMap_cons]
      unfold lostEvent
      by_cases ha : c.acl = some acl
      · cases hst : c.state <;> by_cases hh : c.handle = h <;>
          simp [ha, hst, List.countP_cons, Out.establishes, CisState.isPending, Established.failed, hh]
        all_goals omega
      · simp [ha]
    rw [hsplit, ih, List.find?_cons]
    by_cases hh : c.handle = h
    · have hnone : List.find? (fun c => decide (c.handle = h)) cs = none := by
        rw [List.find?_eq_none]
        intro x hx
        have : x.handle ≠ c.handle := fun e => hn.1 (e ▸ List.mem_map_of_mem hx)
        simp only [decide_eq_true_eq]
        exact fun e => this (by rw [e, hh])
      rw [hnone]
      simp [hh]
    · simp [hh]

theorem removeLink_stepOk {s s' : State} {acl reason : Nat} {outs : List Out} (hi : Inv s)
    (h : removeLink s acl reason = .ok (s', outs)) : StepOk s s' (.removeLink acl reason) outs := by
  unfold removeLink at h
  split at h
  · cases h
  · cases h
    generalize (if reason ∈ errorCodes then reason else remoteUserTerminated) = e
    have hfind : ∀ x, findCis ((s.cises.filter (fun c => c.role = .central ∨ c.acl ≠ some acl)).map (fun c =>
        if c.acl = some acl then { c with acl := none, state := .configuration } else c)) x =
        ((findCis s.cises x).filter (fun c => c.role = .central ∨ c.acl ≠ some acl)).map (fun c =>
        if c.acl = some acl then { c with acl := none, state := .configuration } else c) := by
      intro x
      rw [findCis_map (by intro c; split <;> rfl), findCis_filter hi.handles]
    refine ⟨fun x => ?_, fun hq _ => ?_⟩
    · have he : (s.cises.filterMap (lostEvent acl e) ++ (s.requests.filter (fun r => r.acl = acl)).map (fun r =>
          Out.event (.cisEstablished (.failed e r.handle)))).countP (Out.establishes x) =
          (if (findCis s.cises x).any (fun c => c.acl = some acl && c.state.isPending) then 1 else 0) +
          s.requests.countP (fun r => r.handle = x && r.acl = acl) := by
        rw [List.countP_append, lost_count hi.handles, List.countP_map, List.countP_filter]
        rfl
      have hcount : s.requests.countP (fun r => r.handle = x) =
          s.requests.countP (fun r => r.handle = x && r.acl = acl) +
          (s.requests.filter (fun r => r.acl ≠ acl)).countP (fun r => r.handle = x) := by
        rw [List.countP_filter]
        generalize s.requests = l
        induction l with
        | nil => rfl
        | cons r l ih =>
          simp only [List.countP_cons, ih]
          by_cases h1 : r.handle = x <;> by_cases h2 : r.acl = acl <;> simp [h1, h2] <;> omega
      have ho : outstanding (removeAcl s acl e).1 x +
          (removeAcl s acl e).2.countP (Out.establishes x) = outstanding s x := by
        show outstanding (removeAcl s acl e).1 x + (s.cises.filterMap (lostEvent acl e) ++
          (s.requests.filter (fun r => r.acl = acl)).map (fun r =>
            Out.event (.cisEstablished (.failed e r.handle)))).countP (Out.establishes x) = _
        rw [he]
        unfold outstanding removeAcl
        simp only
        rw [hfind, hcount]
        generalize s.requests.countP (fun r => r.handle = x && r.acl = acl) = n1
        generalize (s.requests.filter (fun r => r.acl ≠ acl)).countP (fun r => r.handle = x) = n2
        have hconf : CisState.configuration.isPending = false := rfl
        cases hx : findCis s.cises x with
        | none => simp; omega
        | some c =>
          by_cases ha : c.acl = some acl
          · by_cases hc : c.role = .central
            · cases hp : c.state.isPending <;> simp [Option.filter, ha, hc, hp, hconf] <;> omega
            · cases hp : c.state.isPending <;> simp [Option.filter, ha, hc, hp] <;> omega
          · cases hp : c.state.isPending <;> simp [Option.filter, ha, hp] <;> omega
      have ha : ∀ o, asked x (.removeLink acl reason, o) = 0 := fun _ => rfl
      exact ⟨by rw [ha]; show (removeAcl s acl e).2.countP _ + outstanding (removeAcl s acl e).1 x ≤ _; omega,
        fun _ _ => by
          rw [ha]
          show _ ≤ (removeAcl s acl e).2.countP _ + (removeAcl s acl e).2.countP _ + outstanding (removeAcl s acl e).1 x
          omega⟩
    · refine ⟨?_, ?_⟩
      · exact hq.nodup.sublist (List.filter_sublist.map _)
      · intro r hr
        obtain ⟨c, h1, h2, h3, h4, h5⟩ := hq.valid r (List.mem_filter.1 hr).1
        refine ⟨if c.acl = some acl then { c with acl := none, state := .configuration } else c, ?_, ?_, ?_, ?_, ?_⟩
        · show findCis ((s.cises.filter _).map _) _ = _
          rw [hfind, h1]
          simp [Option.filter, h3]
        all_goals split <;> first | rfl | assumption

theorem cisReq_stepOk {s s' : State} {acl : Nat} {r : CisReq} {outs : List Out}
    (h : cisReq s acl r = .ok (s', outs)) : StepOk s s' (.llcp acl (.cisReq r)) outs := by
  unfold cisReq at h
  split at h
  · cases h
  · rename_i h0 hn
    cases h
    obtain ⟨-, hfresh⟩ := newCisHandle_some hn
    refine ⟨fun x => Balance.same ?_ rfl rfl, fun hq _ => ?_⟩
    · unfold outstanding
      simp only
      rw [findCis_append hfresh]
      by_cases hx : x = h0
      · subst hx
        rw [if_pos rfl, findCis_none.2 hfresh]
        rfl
      · rw [if_neg hx]
    · refine hq.mono rfl (fun x c' h1 h2 _ => ?_)
      have : x ≠ h0 := by
        rintro rfl
        rw [findCis_none.2 hfresh] at h1; cases h1
      simp only
      rw [findCis_append hfresh, if_neg this]
      exact ⟨c', h1, h2, rfl, rfl, rfl⟩

/-- The procedure of a pending CIS ends. -/
theorem finish_ok {s : State} {c : Cis} {f : Cis → Cis} (hi : Inv s) (hm : c ∈ s.cises) (hp : c.state.isPending = true)
    (hf : ∀ c, (f c).handle = c.handle) (hs : (f c).state.isPending = false) (x : Nat) :
    outstanding (setCises s (updateCis s.cises c.handle f)) x + (if c.handle = x then 1 else 0) = outstanding s x := by
  unfold outstanding setCises
  simp only
  rw [findCis_update hf]
  by_cases hx : x = c.handle
  · subst hx
    rw [if_pos rfl, if_pos rfl, findCis_of_mem hi hm]
    simp [hp, hs]
  · have hx' : ¬ c.handle = x := fun e => hx e.symm
    rw [if_neg hx, if_neg hx']
    omega

theorem finish_queue {s : State} {c : Cis} {f : Cis → Cis} (hi : Inv s) (hq : Queue s) (hm : c ∈ s.cises)
    (hp : c.state.isPending = true) (hf : ∀ c, (f c).handle = c.handle) :
    Queue (setCises s (updateCis s.cises c.handle f)) := by
  refine hq.mono rfl (fun x c' h1 h2 _ => ?_)
  have : x ≠ c.handle := by
    rintro rfl
    rw [findCis_of_mem hi hm] at h1; cases h1
    rw [h2] at hp; cases hp
  simp only [setCises]
  rw [findCis_update hf, if_neg this]
  exact ⟨c', h1, h2, rfl, rfl, rfl⟩

theorem centralEvent_handle {h : Nat} {p : CisParameters} {e : Established} (he : centralEvent h p = .ok e) :
    e.handle = h ∧ e.status = success := by
  unfold centralEvent at he
  split at he <;> cases he
  exact ⟨rfl, rfl⟩

theorem peripheralEvent_handle {h : Nat} {p : CisParameters} {e : Established} (he : peripheralEvent h p = .ok e) :
    e.handle = h ∧ e.status = success := by
  unfold peripheralEvent at he
  split at he <;> cases he
  exact ⟨rfl, rfl⟩

theorem cisRsp_stepOk {s s' : State} {acl : Nat} {outs : List Out} (hi : Inv s)
    (h : cisRsp s acl = .ok (s', outs)) : StepOk s s' (.llcp acl .cisRsp) outs := by
  unfold cisRsp at h
  split at h
  · cases h; exact StepOk.same rfl (fun _ => rfl) (fun _ => rfl) (fun _ => rfl)
  · rename_i c ha
    obtain ⟨hm, -, -, hst⟩ := awaitingRsp_some ha
    have hp : c.state.isPending = true := by rw [hst]; rfl
    split at h
    · cases h
    · split at h
      · cases h
      · rename_i e he
        split at h
        · cases h
        · rename_i s1 o1 hd
          obtain ⟨rfl, rfl⟩ := send_ok h
          refine ⟨fun x => ?_, fun hq _ => ?_⟩
          · obtain ⟨ho1, ho2⟩ := dequeue_outs hd x
            have ho3 := dequeue_outstanding hd x
            have ho4 := finish_ok hi hm hp (f := fun c => { c with state := .connected }) (fun _ => rfl) rfl x
            have ho5 : ∀ a b, ([Out.llcp acl (.cisInd a b), .event (.cisEstablished e)] ++ o1).countP (Out.establishes x) =
                if c.handle = x then 1 else 0 := by
              intro a b
              rw [List.countP_append, ho1, ← (centralEvent_handle he).1]
              simp [List.countP_cons, Out.establishes]
            refine ⟨?_, fun hq _ => ?_⟩
            · rw [ho5]; show _ ≤ 0 + _; omega
            · rw [ho5]
              have := ho3.2 (finish_queue hi hq hm hp (by exact fun _ => rfl))
              show 0 + _ ≤ _
              omega
          · exact dequeue_queue (finish_queue hi hq hm hp (by exact fun _ => rfl)) hd

theorem rejectExtInd_stepOk {s s' : State} {acl op e : Nat} {outs : List Out} (hi : Inv s)
    (h : rejectExtInd s acl op = .ok (s', outs)) : StepOk s s' (.llcp acl (.rejectExtInd op e)) outs := by
  unfold rejectExtInd at h
  split at h
  · cases h
  · split at h
    · cases h; exact StepOk.same rfl (fun _ => rfl) (fun _ => rfl) (fun _ => rfl)
    · rename_i c ha
      obtain ⟨hm, -, -, hst⟩ := awaitingRsp_some ha
      have hp : c.state.isPending = true := by rw [hst]; rfl
      split at h
      · cases h
      · rename_i s1 o1 hd
        cases h
        refine ⟨fun x => ?_, fun hq _ => ?_⟩
        · obtain ⟨ho1, ho2⟩ := dequeue_outs hd x
          have ho3 := dequeue_outstanding hd x
          have ho4 := finish_ok hi hm hp (f := fun c => { c with state := .configuration, params := none })
            (fun _ => rfl) rfl x
          have ho5 : (Out.event (.cisEstablished (.failed remoteUserTerminated c.handle)) :: o1).countP
              (Out.establishes x) = if c.handle = x then 1 else 0 := by
            rw [List.countP_cons, ho1]
            show 0 + (if decide (c.handle = x) = true then 1 else 0) = _
            simp
          refine ⟨?_, fun hq _ => ?_⟩
          · rw [ho5]; show _ ≤ 0 + _; omega
          · rw [ho5]
            have := ho3.2 (finish_queue hi hq hm hp (by exact fun _ => rfl))
            show 0 + _ ≤ _
            omega
        · exact dequeue_queue (finish_queue hi hq hm hp (by exact fun _ => rfl)) hd

theorem cisInd_stepOk {s s' : State} {acl a b : Nat} {outs : List Out} (hi : Inv s)
    (h : cisInd s acl a b = .ok (s', outs)) : StepOk s s' (.llcp acl (.cisInd a b)) outs := by
  simp only [cisInd] at h
  split at h
  · cases h; exact StepOk.same rfl (fun _ => rfl) (fun _ => rfl) (fun _ => rfl)
  · rename_i c ha
    obtain ⟨hm, -, -, hst⟩ := awaitingInd_some ha
    have hp : c.state.isPending = true := by rw [hst]; rfl
    split at h
    · cases h
    · rename_i p _
      split at h
      · cases h
      · rename_i e he
        obtain ⟨rfl, rfl⟩ := send_ok h
        refine ⟨fun x => ?_, fun hq _ => finish_queue hi hq hm hp (fun _ => rfl)⟩
        have ho4 := fun p => finish_ok hi hm hp (f := fun c => { c with state := .connected, params := p })
          (fun _ => rfl) rfl x
        have ho5 : [Out.event (.cisEstablished e)].countP (Out.establishes x) = if c.handle = x then 1 else 0 := by
          rw [← (peripheralEvent_handle he).1]
          simp [List.countP_cons, Out.establishes]
        have ho4 := ho4 (some { p with cigSyncDelay := a, cisSyncDelay := b })
        simp only [setCises] at ho4
        refine ⟨?_, fun _ _ => ?_⟩
        · rw [ho5]; show _ ≤ 0 + _; omega
        · rw [ho5]; show 0 + _ ≤ _; omega

theorem terminateInd_stepOk {s s' : State} {acl a b e : Nat} {outs : List Out} (hi : Inv s)
    (h : terminateInd s acl a b e = .ok (s', outs)) : StepOk s s' (.llcp acl (.terminateInd a b e)) outs := by
  unfold terminateInd at h
  split at h
  · cases h; exact StepOk.same rfl (fun _ => rfl) (fun _ => rfl) (fun _ => rfl)
  · rename_i c hf
    have hm := List.mem_of_find?_eq_some hf
    have hmatch := List.find?_some hf
    simp only [decide_eq_true_eq] at hmatch
    split at h
    · cases h
      have hd : ∀ x, [Out.event (.disconnectionComplete c.handle e)].countP (Out.disconnects x) =
          if c.handle = x then 1 else 0 := by
        intro x; simp [List.countP_cons, Out.disconnects]
      have ho : ∀ x, outstanding { s with cises := eraseCis s.cises c.handle } x ≤ outstanding s x ∧
          outstanding s x ≤ outstanding { s with cises := eraseCis s.cises c.handle } x +
            if c.handle = x then 1 else 0 := by
        intro x
        unfold outstanding
        simp only
        rw [findCis_erase]
        by_cases hx : x = c.handle
        · subst hx
          simp only [if_true]
          constructor <;> repeat' split
          all_goals first | omega | contradiction
        · have hx' : ¬ c.handle = x := fun e => hx e.symm
          rw [if_neg hx, if_neg hx']; omega
      refine ⟨fun x => ⟨?_, fun _ _ => ?_⟩, fun hq hk => ?_⟩
      · show 0 + _ ≤ 0 + _
        have := ho x; omega
      · rw [hd]
        show 0 + _ ≤ 0 + _ + _
        have := ho x; omega
      · refine hq.mono rfl (fun x c' h1 h2 hqd => ?_)
        obtain ⟨r, hr, hrx⟩ := hqd
        have : x ≠ c.handle := by
          rintro rfl
          exact hk r hr c hm hrx.symm hmatch
        simp only
        rw [findCis_erase, if_neg this]
        exact ⟨c', h1, h2, rfl, rfl, rfl⟩
    · cases h

theorem step_stepOk {env : Env} {s s' : State} {op : Op} {outs : List Out} (hi : Inv s)
    (h : step env s op = .ok (s', outs)) : StepOk s s' op outs := by
  cases op with
  | addLink acl role =>
    simp only [step, addLink] at h
    split at h
    · cases h
    · cases h; exact StepOk.same rfl (fun _ => rfl) (fun _ => rfl) (fun _ => rfl)
  | removeLink acl reason => exact removeLink_stepOk hi h
  | hci c =>
    cases c with
    | setCig => exact setCig_stepOk hi h
    | setCigTest => exact setCigTest_stepOk hi h
    | removeCig => exact removeCig_stepOk hi h
    | createCis => exact createCis_stepOk hi h
    | acceptCis => exact acceptCis_stepOk h
    | rejectCis => exact rejectCis_stepOk h
    | disconnect => exact disconnect_stepOk h
    | _ => exact other_stepOk (env := env) rfl h
  | llcp acl p =>
    cases p with
    | cisReq => exact cisReq_stepOk h
    | cisRsp => exact cisRsp_stepOk hi h
    | cisInd => exact cisInd_stepOk hi h
    | rejectExtInd => exact rejectExtInd_stepOk hi h
    | terminateInd => exact terminateInd_stepOk hi h
    | other => cases h
    | malformed => cases h
  | rehash order =>
    simp only [step] at h
    cases h
    split
    · rename_i hp
      exact StepOk.same rfl (fun x => findCis_perm (List.isPerm_iff.1 hp) hi.handles x) (fun _ => rfl) (fun _ => rfl)
    · exact StepOk.same rfl (fun _ => rfl) (fun _ => rfl) (fun _ => rfl)

end Verif.Iso
