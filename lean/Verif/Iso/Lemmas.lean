import Verif.Iso.Model
import Verif.Le.MapLemmas
/-!
# The isochronous channel manager: invariants

Helper lemmas. The main result is `reachable_inv`.
-/

namespace Verif.Iso

open Verif.Le

/-! ### Lists of CISes -/

theorem mem_updateCis {cises : List Cis} {h : Nat} {f : Cis → Cis} {c : Cis}
    (hc : c ∈ updateCis cises h f) :
    ∃ c₀ ∈ cises, (c₀.handle = h ∧ c = f c₀) ∨ (c₀.handle ≠ h ∧ c = c₀) := by
  unfold updateCis at hc
  obtain ⟨c₀, hm, rfl⟩ := List.mem_map.1 hc
  refine ⟨c₀, hm, ?_⟩
  by_cases hh : c₀.handle = h
  · left; simp [hh]
  · right; simp [hh]

/-- What identifies a CIS: its handle, and its CIG, CIS number and role. -/
def Cis.ident (c : Cis) : Nat × Nat × Nat × Role := (c.handle, c.cigId, c.cisId, c.role)

theorem updateCis_ident (cises : List Cis) (h : Nat) (f : Cis → Cis) (hf : ∀ c, (f c).ident = c.ident) :
    (updateCis cises h f).map Cis.ident = cises.map Cis.ident := by
  unfold updateCis
  rw [List.map_map]
  apply List.map_congr_left
  intro c _
  simp only [Function.comp_apply]
  split
  · exact hf c
  · rfl

theorem findCis_some {cises : List Cis} {h : Nat} {c : Cis} (hf : findCis cises h = some c) :
    c ∈ cises ∧ c.handle = h := by
  unfold findCis at hf
  exact ⟨List.mem_of_find?_eq_some hf, by simpa using List.find?_some hf⟩

theorem findCis_none {cises : List Cis} {h : Nat} : findCis cises h = none ↔ ∀ c ∈ cises, c.handle ≠ h := by
  unfold findCis
  simp

theorem newCisHandle_some {cises : List Cis} {h : Nat} (hn : newCisHandle cises = some h) :
    (0xe00 ≤ h ∧ h < 0xefe) ∧ ∀ c ∈ cises, c.handle ≠ h := by
  unfold newCisHandle at hn
  have hm := List.mem_of_find?_eq_some hn
  have hp := List.find?_some hn
  rw [List.mem_range'_1] at hm
  refine ⟨by omega, ?_⟩
  simpa using hp

theorem newCisHandle_none {cises : List Cis} :
    newCisHandle cises = none ↔ ∀ h, 0xe00 ≤ h → h < 0xefe → ∃ c ∈ cises, c.handle = h := by
  unfold newCisHandle
  rw [List.find?_eq_none]
  constructor
  · intro hn h h1 h2
    have := hn h (by rw [List.mem_range'_1]; omega)
    simpa using this
  · intro hn h hm
    rw [List.mem_range'_1] at hm
    have := hn h (by omega) (by omega)
    simpa using this

theorem newBisHandle_some {bises : List Bis} {h : Nat} (hn : newBisHandle bises = some h) :
    (0xd00 ≤ h ∧ h < 0xdff) ∧ ∀ b ∈ bises, b.handle ≠ h := by
  unfold newBisHandle at hn
  have hm := List.mem_of_find?_eq_some hn
  have hp := List.find?_some hn
  rw [List.mem_range'_1] at hm
  refine ⟨by omega, ?_⟩
  simpa using hp

theorem newBisHandle_none {bises : List Bis} :
    newBisHandle bises = none ↔ ∀ h, 0xd00 ≤ h → h < 0xdff → ∃ b ∈ bises, b.handle = h := by
  unfold newBisHandle
  rw [List.find?_eq_none]
  constructor
  · intro hn h h1 h2
    have := hn h (by rw [List.mem_range'_1]; omega)
    simpa using this
  · intro hn h hm
    rw [List.mem_range'_1] at hm
    have := hn h (by omega) (by omega)
    simpa using this

/-! ### The invariant -/

/-- What holds of every CIS connection. -/
structure CisOk (cisConfigs : List ((Nat × Nat) × CisConfig)) (cigs : List (Nat × CigConfig)) (c : Cis) :
    Prop where
  range : 0xe00 ≤ c.handle ∧ c.handle < 0xefe
  configured : c.role = .central →
    (mapFind cisConfigs (c.cigId, c.cisId)).isSome ∧ (mapFind cigs c.cigId).isSome
  accepted : c.role = .peripheral → c.state ≠ .configuration
  linked : c.state ≠ .configuration → c.acl.isSome ∧ c.params.isSome

/-- The identities of the CIS connections do not clash. -/
structure IdsOk (ids : List (Nat × Nat × Nat × Role)) : Prop where
  nodup : (ids.map (·.1)).Nodup
  unique : ∀ i ∈ ids, ∀ j ∈ ids, i.2.2.2 = .central → i.2 = j.2 → i = j

structure Inv (s : State) : Prop where
  cises : ∀ c ∈ s.cises, CisOk s.cisConfigs s.cigs c
  ids : IdsOk (s.cises.map Cis.ident)
  bisNodup : (s.bises.map (·.handle)).Nodup
  bisRange : ∀ b ∈ s.bises, 0xd00 ≤ b.handle ∧ b.handle < 0xdff

theorem IdsOk.sublist {a b : List (Nat × Nat × Nat × Role)} (hs : a.Sublist b) (h : IdsOk b) : IdsOk a :=
  ⟨h.nodup.sublist (hs.map _), fun i hi j hj => h.unique i (hs.mem hi) j (hs.mem hj)⟩

theorem IdsOk.append {a : List (Nat × Nat × Nat × Role)} (h : IdsOk a) (i : Nat × Nat × Nat × Role)
    (hf : ∀ j ∈ a, j.1 ≠ i.1) (hu : i.2.2.2 = .central → ∀ j ∈ a, j.2 ≠ i.2) : IdsOk (a ++ [i]) := by
  constructor
  · rw [List.map_append, List.nodup_append]
    refine ⟨h.nodup, by simp, ?_⟩
    intro x hx y hy
    simp only [List.map_cons, List.map_nil, List.mem_singleton] at hy
    obtain ⟨j, hj, rfl⟩ := List.mem_map.1 hx
    subst hy
    exact hf j hj
  · intro x hx y hy hr he
    rcases List.mem_append.1 hx with hx' | hx' <;> rcases List.mem_append.1 hy with hy' | hy'
    · exact h.unique x hx' y hy' hr he
    · rw [List.mem_singleton] at hy'; subst hy'
      exact absurd he (hu (he ▸ hr) x hx')
    · rw [List.mem_singleton] at hx'; subst hx'
      exact absurd he.symm (hu hr y hy')
    · rw [List.mem_singleton] at hx' hy'; rw [hx', hy']

theorem IdsOk.perm {a b : List (Nat × Nat × Nat × Role)} (hp : a.Perm b) (h : IdsOk b) : IdsOk a :=
  ⟨((hp.map _).nodup_iff).2 h.nodup,
    fun i hi j hj => h.unique i (hp.mem_iff.1 hi) j (hp.mem_iff.1 hj)⟩

theorem inj_of_nodup_map {α β : Type} {f : α → β} {l : List α} (hn : (l.map f).Nodup) {a b : α} (ha : a ∈ l)
    (hb : b ∈ l) (he : f a = f b) : a = b := by
  induction l with
  | nil => cases ha
  | cons x l ih =>
    rw [List.map_cons, List.nodup_cons] at hn
    rcases List.mem_cons.1 ha with rfl | ha' <;> rcases List.mem_cons.1 hb with rfl | hb'
    · rfl
    · exact absurd (List.mem_map.2 ⟨b, hb', he.symm⟩) hn.1
    · exact absurd (List.mem_map.2 ⟨a, ha', he⟩) hn.1
    · exact ih hn.2 ha' hb'

/-- Two CISes with the same handle are the same. -/
theorem eq_of_handle {cises : List Cis} (h : IdsOk (cises.map Cis.ident)) {c c' : Cis} (hc : c ∈ cises)
    (hc' : c' ∈ cises) (he : c.handle = c'.handle) : c = c' := by
  have hn := h.nodup
  rw [List.map_map] at hn
  exact inj_of_nodup_map hn hc hc' he

theorem inv_init : Inv {} := by
  refine ⟨?_, ⟨?_, ?_⟩, ?_, ?_⟩ <;> simp

/-- Updating one CIS. -/
theorem Inv.update {s : State} (hi : Inv s) (h : Nat) (f : Cis → Cis)
    (hok : ∀ c ∈ s.cises, c.handle = h → CisOk s.cisConfigs s.cigs c → CisOk s.cisConfigs s.cigs (f c)) :
    ∀ c ∈ updateCis s.cises h f, CisOk s.cisConfigs s.cigs c := by
  intro c hc
  obtain ⟨c₀, hm, ⟨hh, rfl⟩ | ⟨_, rfl⟩⟩ := mem_updateCis hc
  · exact hok c₀ hm hh (hi.cises c₀ hm)
  · exact hi.cises _ hm

theorem Inv.update' {s : State} (hi : Inv s) (h : Nat) (f : Cis → Cis) (hf : ∀ c, (f c).ident = c.ident)
    (hok : ∀ c ∈ s.cises, c.handle = h → CisOk s.cisConfigs s.cigs c → CisOk s.cisConfigs s.cigs (f c)) :
    Inv { s with cises := updateCis s.cises h f } :=
  ⟨hi.update h f hok, by show IdsOk ((updateCis s.cises h f).map _); rw [updateCis_ident _ _ _ hf]; exact hi.ids,
    hi.bisNodup, hi.bisRange⟩

theorem Inv.erase {s : State} (hi : Inv s) (h : Nat) : Inv { s with cises := eraseCis s.cises h } :=
  ⟨fun c hc => hi.cises c (List.mem_filter.1 hc).1, hi.ids.sublist (List.filter_sublist.map _),
    hi.bisNodup, hi.bisRange⟩

/-! ### Configuring CIGs -/

theorem mapFind_isSome_mapSet {κ α : Type} [DecidableEq κ] (m : List (κ × α)) (k k' : κ) (a : α)
    (h : (mapFind m k').isSome) : (mapFind (mapSet m k a) k').isSome := by
  rw [mapFind_mapSet]
  split
  · rfl
  · exact h

theorem CisOk.mono {cc cc' : List ((Nat × Nat) × CisConfig)} {g g' : List (Nat × CigConfig)} {c : Cis}
    (h : CisOk cc g c) (h1 : ∀ k, (mapFind cc k).isSome → (mapFind cc' k).isSome)
    (h2 : ∀ k, (mapFind g k).isSome → (mapFind g' k).isSome) : CisOk cc' g' c :=
  ⟨h.range, fun hr => ⟨h1 _ (h.configured hr).1, h2 _ (h.configured hr).2⟩, h.accepted, h.linked⟩

/-- Adding a CIG. -/
theorem Inv.setCig {s : State} (hi : Inv s) (k : Nat) (g : CigConfig) :
    Inv { s with cigs := mapSet s.cigs k g } :=
  ⟨fun c hc => (hi.cises c hc).mono (fun _ h => h) (fun _ h => mapFind_isSome_mapSet _ _ _ _ h), hi.ids,
    hi.bisNodup, hi.bisRange⟩

theorem newCis_inv {s : State} (hi : Inv s) {cigId cisId : Nat} {cfg : CisConfig} {cises : List Cis} {h : Nat}
    (hg : (mapFind s.cigs cigId).isSome) (hn : newCis s.cises cigId cisId .central = .ok (cises, h)) :
    Inv { s with cisConfigs := mapSet s.cisConfigs (cigId, cisId) cfg, cises := cises } := by
  have hcfg : ∀ k, (mapFind s.cisConfigs k).isSome →
      (mapFind (mapSet s.cisConfigs (cigId, cisId) cfg) k).isSome :=
    fun _ h => mapFind_isSome_mapSet _ _ _ _ h
  unfold newCis at hn
  split at hn
  · cases hn
    exact ⟨fun c hc => (hi.cises c hc).mono hcfg (fun _ h => h), hi.ids, hi.bisNodup, hi.bisRange⟩
  · rename_i hnone
    split at hn
    · cases hn
    · rename_i h' hh
      cases hn
      obtain ⟨hr, hfresh⟩ := newCisHandle_some hh
      refine ⟨?_, ?_, hi.bisNodup, hi.bisRange⟩
      · intro c hc
        rcases List.mem_append.1 hc with hc | hc
        · exact (hi.cises c hc).mono hcfg (fun _ h => h)
        · rw [List.mem_singleton] at hc
          subst hc
          refine ⟨hr, fun _ => ⟨?_, hg⟩, (fun h => by cases h), fun h => absurd rfl h⟩
          show (mapFind (mapSet _ _ _) _).isSome
          rw [mapFind_mapSet, if_pos rfl]; rfl
      · show IdsOk ((s.cises ++ [_]).map Cis.ident)
        rw [List.map_append]
        refine hi.ids.append _ ?_ ?_
        · intro j hj
          obtain ⟨c, hc, rfl⟩ := List.mem_map.1 hj
          exact hfresh c hc
        · intro _ j hj he
          obtain ⟨c, hc, rfl⟩ := List.mem_map.1 hj
          rw [List.find?_eq_none] at hnone
          apply hnone c hc
          simp only [Cis.ident, Prod.mk.injEq] at he
          simpa using he

theorem newCis_handle {cises cises' : List Cis} {cigId cisId : Nat} {role : Role} {h : Nat}
    (hn : newCis cises cigId cisId role = .ok (cises', h)) :
    ∃ c ∈ cises', c.handle = h ∧ c.cigId = cigId ∧ c.cisId = cisId ∧ c.role = role := by
  unfold newCis at hn
  split at hn
  · rename_i c hf
    cases hn
    have := List.find?_some hf
    simp only [decide_eq_true_eq] at this
    exact ⟨c, List.mem_of_find?_eq_some hf, rfl, this⟩
  · split at hn
    · cases hn
    · cases hn
      exact ⟨_, List.mem_append_right _ (List.mem_singleton.2 rfl), rfl, rfl, rfl, rfl⟩

theorem configureCises_cigs {cigId : Nat} {cs : List NewCis} {s s' : State} {hs : List Nat}
    (h : configureCises cigId cs s = .ok (s', hs)) : s'.cigs = s.cigs := by
  induction cs generalizing s hs with
  | nil => cases h; rfl
  | cons c cs ih =>
    simp only [configureCises] at h
    split at h
    · cases h
    · split at h
      · cases h
      · rename_i hc
        cases h
        have := ih hc
        exact this

theorem configureCises_inv {cigId : Nat} {cs : List NewCis} {s s' : State} {hs : List Nat} (hi : Inv s)
    (hg : (mapFind s.cigs cigId).isSome) (h : configureCises cigId cs s = .ok (s', hs)) : Inv s' := by
  induction cs generalizing s hs with
  | nil => cases h; exact hi
  | cons c cs ih =>
    simp only [configureCises] at h
    split at h
    · cases h
    · rename_i hn
      split at h
      · cases h
      · rename_i hc
        cases h
        exact ih (newCis_inv hi hg hn) hg hc

/-! ### Handlers -/

theorem answer_ok {s s' : State} {e : Event} {outs : List Out} (h : answer s e = .ok (s', outs)) :
    s' = s ∧ outs = [.event e] := by
  cases h; exact ⟨rfl, rfl⟩

theorem send_ok {s s' : State} {outs outs' : List Out} (h : send s outs = .ok (s', outs')) :
    s' = s ∧ outs' = outs := by
  unfold send at h
  split at h <;> cases h
  exact ⟨rfl, rfl⟩

theorem setCig_inv {env : Env} {s s' : State} {cigId sduC sduP : Nat} {framed : Bool} {lC lP : Nat}
    {cs : List NewCis} {outs : List Out} (hi : Inv s)
    (h : setCig env s cigId sduC sduP framed lC lP cs = .ok (s', outs)) : Inv s' := by
  simp only [setCig] at h
  split at h
  · obtain ⟨rfl, -⟩ := answer_ok h; exact hi
  · split at h
    · obtain ⟨rfl, -⟩ := answer_ok h; exact hi
    · split at h
      · cases h
      · obtain ⟨rfl, -⟩ := answer_ok h; exact hi
      · split at h
        · cases h
        · rename_i hc
          obtain ⟨rfl, -⟩ := answer_ok h
          refine configureCises_inv (hi.setCig _ _) ?_ hc
          show (mapFind (mapSet _ _ _) _).isSome
          rw [mapFind_mapSet, if_pos rfl]; rfl

theorem setCigTest_inv {env : Env} {s s' : State} {cigId sduC sduP ftC ftP iso : Nat} {framed : Bool}
    {cs : List NewCis} {outs : List Out} (hi : Inv s)
    (h : setCigTest env s cigId sduC sduP ftC ftP iso framed cs = .ok (s', outs)) : Inv s' := by
  simp only [setCigTest] at h
  split at h
  · obtain ⟨rfl, -⟩ := answer_ok h; exact hi
  · split at h
    · cases h
    · rename_i hc
      obtain ⟨rfl, -⟩ := answer_ok h
      refine configureCises_inv (hi.setCig _ _) ?_ hc
      show (mapFind (mapSet _ _ _) _).isSome
      rw [mapFind_mapSet, if_pos rfl]; rfl

theorem mapFind_filter_cig (m : List ((Nat × Nat) × CisConfig)) (cigId : Nat) (k : Nat × Nat)
    (hk : k.1 ≠ cigId) : mapFind (m.filter (fun e => e.1.1 ≠ cigId)) k = mapFind m k := by
  induction m with
  | nil => rfl
  | cons e m ih =>
    obtain ⟨k', a⟩ := e
    by_cases he : k'.1 = cigId
    · rw [List.filter_cons_of_neg (by simpa using he), ih, mapFind_cons, if_neg]
      rintro rfl; exact hk he
    · rw [List.filter_cons_of_pos (by simpa using he), mapFind_cons, mapFind_cons, ih]

theorem removeCig_inv {s s' : State} {cigId : Nat} {outs : List Out} (hi : Inv s)
    (h : removeCig s cigId = .ok (s', outs)) : Inv s' := by
  unfold removeCig at h
  split at h
  · obtain ⟨rfl, -⟩ := answer_ok h; exact hi
  · split at h
    · obtain ⟨rfl, -⟩ := answer_ok h; exact hi
    · obtain ⟨rfl, -⟩ := answer_ok h
      refine ⟨?_, hi.ids.sublist (List.filter_sublist.map _), hi.bisNodup, hi.bisRange⟩
      intro c hc
      obtain ⟨hm, hp⟩ := List.mem_filter.1 hc
      simp only [decide_eq_true_eq] at hp
      have hok := hi.cises c hm
      refine ⟨hok.range, ?_, hok.accepted, hok.linked⟩
      intro hr
      have hne : c.cigId ≠ cigId := by
        rcases hp with hp | hp
        · exact absurd hr hp
        · exact hp
      obtain ⟨h1, h2⟩ := hok.configured hr
      refine ⟨?_, ?_⟩
      · rw [mapFind_filter_cig _ _ _ hne]; exact h1
      · rw [mapFind_mapErase, if_neg (fun e => hne e.symm)]; exact h2

theorem dequeue_inv {s s' : State} {outs : List Out} (hi : Inv s) (h : dequeue s = .ok (s', outs)) : Inv s' := by
  unfold dequeue at h
  split at h
  · cases h; exact hi
  · split at h
    · split at h
      · cases h
      · split at h
        · cases h
        · obtain ⟨rfl, -⟩ := send_ok h
          exact ⟨hi.update _ _ (fun c _ _ hok => ⟨hok.range, hok.configured,
              fun _ => (fun h => by cases h), fun _ => ⟨rfl, rfl⟩⟩),
            by show IdsOk ((updateCis _ _ _).map _); rw [updateCis_ident]; exact hi.ids; exact fun _ => rfl,
            hi.bisNodup, hi.bisRange⟩
    · cases h

theorem lockCigs_isSome {rs : List CisRequest} {cigs cigs' : List (Nat × CigConfig)}
    (h : lockCigs rs cigs = some cigs') (k : Nat) (hk : (mapFind cigs k).isSome) :
    (mapFind cigs' k).isSome := by
  induction rs generalizing cigs with
  | nil => cases h; exact hk
  | cons r rs ih =>
    simp only [lockCigs] at h
    split at h
    · cases h
    · exact ih h (mapFind_isSome_mapSet _ _ _ _ hk)

theorem createCis_inv {env : Env} {s s' : State} {cs : List (Nat × Nat)} {outs : List Out} (hi : Inv s)
    (h : createCis env s cs = .ok (s', outs)) : Inv s' := by
  unfold createCis at h
  split at h
  · obtain ⟨rfl, -⟩ := answer_ok h; exact hi
  · split at h
    · obtain ⟨rfl, -⟩ := answer_ok h; exact hi
    · split at h
      · obtain ⟨rfl, -⟩ := answer_ok h; exact hi
      · split at h
        · cases h
        · rename_i hl
          split at h
          · cases h
          · rename_i hd
            cases h
            refine dequeue_inv ?_ hd
            exact ⟨fun c hc => (hi.cises c hc).mono (fun _ h => h) (fun k hk => lockCigs_isSome hl k hk),
              hi.ids, hi.bisNodup, hi.bisRange⟩

theorem acceptCis_inv {s s' : State} {h : Nat} {outs : List Out} (hi : Inv s)
    (hr : acceptCis s h = .ok (s', outs)) : Inv s' := by
  unfold acceptCis at hr
  split at hr
  · obtain ⟨rfl, -⟩ := answer_ok hr; exact hi
  · rename_i c hf
    split at hr
    · obtain ⟨rfl, -⟩ := answer_ok hr; exact hi
    · split at hr
      · obtain ⟨rfl, -⟩ := answer_ok hr; exact hi
      · rename_i hst
        split at hr
        · cases hr
        · cases hr
          refine hi.update' _ _ (fun _ => rfl) ?_
          intro c' hm hh hok
          obtain ⟨hm', hh'⟩ := findCis_some hf
          have := eq_of_handle hi.ids hm hm' (by rw [hh, hh'])
          subst this
          have hst' : c'.state = .pendingAccept := Decidable.not_not.1 hst
          exact ⟨hok.range, hok.configured, fun _ => (fun h => by cases h), fun _ =>
            hok.linked (by rw [hst']; exact fun h => by cases h)⟩

theorem rejectCis_inv {s s' : State} {h : Nat} {reason : ErrorCode} {outs : List Out} (hi : Inv s)
    (hr : rejectCis s h reason = .ok (s', outs)) : Inv s' := by
  unfold rejectCis at hr
  split at hr
  · obtain ⟨rfl, -⟩ := answer_ok hr; exact hi
  · split at hr
    · obtain ⟨rfl, -⟩ := answer_ok hr; exact hi
    · split at hr
      · obtain ⟨rfl, -⟩ := answer_ok hr; exact hi
      · split at hr
        · cases hr
        · cases hr
          exact hi.erase _

theorem Inv.bises {s : State} (hi : Inv s) (f : Bis → Bis) (hf : ∀ b, (f b).handle = b.handle) :
    Inv { s with bises := s.bises.map f } := by
  refine ⟨hi.cises, hi.ids, ?_, ?_⟩
  · show ((s.bises.map f).map _).Nodup
    rw [List.map_map]
    have : ((fun b : Bis => b.handle) ∘ f) = (fun b => b.handle) := funext hf
    rw [this]; exact hi.bisNodup
  · intro b hb
    obtain ⟨b₀, hm, rfl⟩ := List.mem_map.1 hb
    rw [hf]; exact hi.bisRange b₀ hm

theorem setupPath_inv {s s' : State} {h : Nat} {dir : Direction} {a b : Nat} {outs : List Out} (hi : Inv s)
    (hr : setupPath s h dir a b = .ok (s', outs)) : Inv s' := by
  simp only [setupPath] at hr
  split at hr
  · obtain ⟨rfl, -⟩ := answer_ok hr; exact hi
  · split at hr
    · split at hr
      · obtain ⟨rfl, -⟩ := answer_ok hr; exact hi
      · split at hr
        · obtain ⟨rfl, -⟩ := answer_ok hr; exact hi
        · split at hr
          · obtain ⟨rfl, -⟩ := answer_ok hr; exact hi
          · obtain ⟨rfl, -⟩ := answer_ok hr
            refine hi.update' _ _ (fun c => by split <;> rfl) ?_
            intro c _ _ hok
            split <;> exact ⟨hok.range, hok.configured, hok.accepted, hok.linked⟩
    · split at hr
      · split at hr
        · obtain ⟨rfl, -⟩ := answer_ok hr; exact hi
        · split at hr
          · obtain ⟨rfl, -⟩ := answer_ok hr; exact hi
          · obtain ⟨rfl, -⟩ := answer_ok hr
            exact hi.bises _ (fun b => by split <;> rfl)
      · obtain ⟨rfl, -⟩ := answer_ok hr; exact hi

theorem removePath_inv {s s' : State} {h : Nat} {a b : Bool} {outs : List Out} (hi : Inv s)
    (hr : removePath s h a b = .ok (s', outs)) : Inv s' := by
  simp only [removePath] at hr
  split at hr
  · split at hr
    · obtain ⟨rfl, -⟩ := answer_ok hr; exact hi
    · split at hr
      · obtain ⟨rfl, -⟩ := answer_ok hr; exact hi
      · obtain ⟨rfl, -⟩ := answer_ok hr
        refine hi.update' _ _ (fun c => rfl) ?_
        intro c _ _ hok
        exact ⟨hok.range, hok.configured, hok.accepted, hok.linked⟩
  · split at hr
    · split at hr
      · obtain ⟨rfl, -⟩ := answer_ok hr; exact hi
      · obtain ⟨rfl, -⟩ := answer_ok hr
        exact hi.bises _ (fun b => by split <;> rfl)
    · obtain ⟨rfl, -⟩ := answer_ok hr; exact hi

theorem disconnect_inv {s s' : State} {h reason : Nat} {outs : List Out} (hi : Inv s)
    (hr : disconnect s h reason = .ok (s', outs)) : Inv s' := by
  unfold disconnect at hr
  split at hr
  · obtain ⟨rfl, -⟩ := answer_ok hr; exact hi
  · rename_i c hf
    split at hr
    · obtain ⟨rfl, -⟩ := answer_ok hr; exact hi
    · split at hr
      · cases hr
      · cases hr
        by_cases hc : c.role = .central
        · simp only [if_pos hc]
          refine hi.update' _ _ (fun _ => rfl) ?_
          intro c' hm hh hok
          obtain ⟨hm', hh'⟩ := findCis_some hf
          have := eq_of_handle hi.ids hm hm' (by rw [hh, hh'])
          subst this
          exact ⟨hok.range, hok.configured, (fun h => by
            have h' : c'.role = .peripheral := h
            rw [hc] at h'; cases h'), fun h => absurd rfl h⟩
        · simp only [if_neg hc]
          exact hi.erase _

theorem removeAcl_inv {s : State} {acl : Nat} {reason : ErrorCode} (hi : Inv s) :
    Inv (removeAcl s acl reason).1 := by
  refine ⟨?_, ?_, hi.bisNodup, hi.bisRange⟩
  · intro c hc
    obtain ⟨c₀, hm, rfl⟩ := List.mem_map.1 hc
    obtain ⟨hm, hp⟩ := List.mem_filter.1 hm
    have hok := hi.cises c₀ hm
    split
    · rename_i ha
      refine ⟨hok.range, hok.configured, ?_, fun h => absurd rfl h⟩
      intro hr
      simp only [decide_eq_true_eq] at hp
      rcases hp with hp | hp
      · have hr' : c₀.role = .peripheral := hr
        rw [hp] at hr'; cases hr'
      · exact absurd ha hp
    · exact hok
  · show IdsOk (((s.cises.filter _).map _).map _)
    rw [List.map_map]
    have : (Cis.ident ∘ fun c : Cis =>
        if c.acl = some acl then { c with acl := none, state := .configuration } else c) = Cis.ident := by
      funext c
      simp only [Function.comp_apply]
      split <;> rfl
    rw [this]
    exact hi.ids.sublist (List.filter_sublist.map _)

theorem cisReq_inv {s s' : State} {acl : Nat} {r : CisReq} {outs : List Out} (hi : Inv s)
    (h : cisReq s acl r = .ok (s', outs)) : Inv s' := by
  unfold cisReq at h
  split at h
  · cases h
  · rename_i hh
    cases h
    obtain ⟨hr, hfresh⟩ := newCisHandle_some hh
    refine ⟨?_, ?_, hi.bisNodup, hi.bisRange⟩
    · intro c hc
      rcases List.mem_append.1 hc with hc | hc
      · exact hi.cises c hc
      · rw [List.mem_singleton] at hc
        subst hc
        exact ⟨hr, (fun h => by cases h), fun _ => (fun h => by cases h), fun _ => ⟨rfl, rfl⟩⟩
    · show IdsOk ((s.cises ++ [_]).map Cis.ident)
      rw [List.map_append]
      refine hi.ids.append _ ?_ (fun h => by cases h)
      intro j hj
      obtain ⟨c, hc, rfl⟩ := List.mem_map.1 hj
      exact hfresh c hc

theorem awaitingRsp_some {s : State} {acl : Nat} {c : Cis} (h : awaitingRsp s acl = some c) :
    c ∈ s.cises ∧ c.acl = some acl ∧ c.role = .central ∧ c.state = .pendingRsp := by
  refine ⟨List.mem_of_find?_eq_some h, ?_⟩
  simpa using List.find?_some h

theorem awaitingInd_some {s : State} {acl : Nat} {c : Cis} (h : awaitingInd s acl = some c) :
    c ∈ s.cises ∧ c.acl = some acl ∧ c.role = .peripheral ∧ c.state = .pendingInd := by
  refine ⟨List.mem_of_find?_eq_some h, ?_⟩
  simpa using List.find?_some h

theorem connected_inv {s : State} (hi : Inv s) {c : Cis} (hc : c ∈ s.cises) (hst : c.state ≠ .configuration) :
    Inv (setCises s (updateCis s.cises c.handle (fun c => { c with state := .connected }))) := by
  refine hi.update' _ _ (fun _ => rfl) ?_
  intro c' hm hh hok
  have := eq_of_handle hi.ids hm hc hh
  subst this
  exact ⟨hok.range, hok.configured, fun _ => (fun h => by cases h), fun _ => hok.linked hst⟩

theorem rejected_inv {s : State} (hi : Inv s) {c : Cis} (hc : c ∈ s.cises) (hr : c.role = .central) :
    Inv (setCises s (updateCis s.cises c.handle (fun c =>
      { c with state := .configuration, params := none }))) := by
  refine hi.update' _ _ (fun _ => rfl) ?_
  intro c' hm hh hok
  have := eq_of_handle hi.ids hm hc hh
  subst this
  exact ⟨hok.range, hok.configured, (fun h => by
    have h' : c'.role = .peripheral := h
    rw [hr] at h'; cases h'), fun h => absurd rfl h⟩

theorem cisRsp_inv {s s' : State} {acl : Nat} {outs : List Out} (hi : Inv s)
    (h : cisRsp s acl = .ok (s', outs)) : Inv s' := by
  unfold cisRsp at h
  split at h
  · cases h; exact hi
  · rename_i c ha
    obtain ⟨hm, -, -, hst⟩ := awaitingRsp_some ha
    split at h
    · cases h
    · split at h
      · cases h
      · split at h
        · cases h
        · rename_i hd
          obtain ⟨rfl, -⟩ := send_ok h
          exact dequeue_inv (connected_inv hi hm (by rw [hst]; exact fun h => by cases h)) hd

theorem rejectExtInd_inv {s s' : State} {acl op : Nat} {outs : List Out} (hi : Inv s)
    (h : rejectExtInd s acl op = .ok (s', outs)) : Inv s' := by
  unfold rejectExtInd at h
  split at h
  · cases h
  · split at h
    · cases h; exact hi
    · rename_i c ha
      obtain ⟨hm, -, hr, -⟩ := awaitingRsp_some ha
      split at h
      · cases h
      · rename_i hd
        cases h
        exact dequeue_inv (rejected_inv hi hm hr) hd

theorem cisInd_inv {s s' : State} {acl a b : Nat} {outs : List Out} (hi : Inv s)
    (h : cisInd s acl a b = .ok (s', outs)) : Inv s' := by
  simp only [cisInd] at h
  split at h
  · cases h; exact hi
  · rename_i c ha
    obtain ⟨hm, -, -, hst⟩ := awaitingInd_some ha
    split at h
    · cases h
    · split at h
      · cases h
      · obtain ⟨rfl, -⟩ := send_ok h
        refine hi.update' _ _ (fun _ => rfl) ?_
        intro c' hm' hh hok
        have := eq_of_handle hi.ids hm' hm hh
        subst this
        exact ⟨hok.range, hok.configured, fun _ => (fun h => by cases h), fun _ =>
          ⟨(hok.linked (by rw [hst]; exact fun h => by cases h)).1, rfl⟩⟩

theorem terminateInd_inv {s s' : State} {acl a b e : Nat} {outs : List Out} (hi : Inv s)
    (h : terminateInd s acl a b e = .ok (s', outs)) : Inv s' := by
  unfold terminateInd at h
  split at h
  · cases h; exact hi
  · split at h
    · cases h; exact hi.erase _
    · cases h

theorem allocateBises_spec {big sdu : Nat} {is : List Nat} {bises bises' : List Bis} {hs : List Nat}
    (h : allocateBises big sdu is bises = some (bises', hs)) :
    ∃ new, bises' = bises ++ new ∧ new.map (·.handle) = hs ∧ new.map (·.bisId) = is ∧
      ∀ b ∈ new, b.bigHandle = big ∧ b.maxSdu = sdu ∧ b.dataPath = false := by
  induction is generalizing bises hs with
  | nil => cases h; exact ⟨[], by simp⟩
  | cons i is ih =>
    simp only [allocateBises] at h
    split at h
    · cases h
    · split at h
      · cases h
      · rename_i h' _ _ bises'' hs' ha
        cases h
        obtain ⟨new, h1, h2, h3, h4⟩ := ih ha
        refine ⟨_ :: new, by rw [h1, List.append_assoc]; rfl, by simp [h2], by simp [h3], ?_⟩
        intro b hb
        rcases List.mem_cons.1 hb with rfl | hb
        · exact ⟨rfl, rfl, rfl⟩
        · exact h4 b hb

theorem allocateBises_fresh {big sdu : Nat} {is : List Nat} {bises bises' : List Bis} {hs : List Nat}
    (hn : (bises.map (·.handle)).Nodup) (hr : ∀ b ∈ bises, 0xd00 ≤ b.handle ∧ b.handle < 0xdff)
    (h : allocateBises big sdu is bises = some (bises', hs)) :
    (bises'.map (·.handle)).Nodup ∧ ∀ b ∈ bises', 0xd00 ≤ b.handle ∧ b.handle < 0xdff := by
  induction is generalizing bises hs with
  | nil => cases h; exact ⟨hn, hr⟩
  | cons i is ih =>
    simp only [allocateBises] at h
    split at h
    · cases h
    · rename_i h' hh
      obtain ⟨hrange, hfresh⟩ := newBisHandle_some hh
      split at h
      · cases h
      · rename_i ha
        cases h
        refine ih ?_ ?_ ha
        · rw [List.map_append, List.nodup_append]
          refine ⟨hn, by simp, ?_⟩
          intro x hx y hy
          simp only [List.map_cons, List.map_nil, List.mem_singleton] at hy
          obtain ⟨b, hb, rfl⟩ := List.mem_map.1 hx
          subst hy
          exact hfresh b hb
        · intro b hb
          rcases List.mem_append.1 hb with hb | hb
          · exact hr b hb
          · rw [List.mem_singleton] at hb; subst hb; exact hrange

/-- `LE Create BIG` fails, or creates the BIG with its BISes. -/
theorem createBig_cases {env : Env} {s : State} {b a n i m l p : Nat} :
    (∃ e, e ≠ success ∧ createBig env s b a n i m l p = .ok (s, [.event (.createBigStatus e)])) ∨
    (s.bigs.any (fun g => g.bigHandle = b) = false ∧ (1 ≤ n ∧ n ≤ 0x1f) ∧
      createBig env s b a n i m l p =
        match allocateBises b m (List.range' 1 n) s.bises with
        | none => .error .panic
        | some (bises, hs) =>
          .ok ({ s with bigs := s.bigs ++ [⟨b, a, n⟩], bises := bises },
            [.event (.createBigStatus success), .event (.createBigComplete b hs)])) := by
  by_cases h1 : 0xef < b
  · left; exact ⟨invalidParameters, by decide, by unfold createBig; rw [if_pos h1]; rfl⟩
  by_cases h2 : s.bigs.any (fun g => g.bigHandle = b) = true
  · left; exact ⟨commandDisallowed, by decide, by unfold createBig; rw [if_neg h1, if_pos h2]; rfl⟩
  by_cases h3 : 0xef < a
  · left; exact ⟨invalidParameters, by decide, by unfold createBig; rw [if_neg h1, if_neg h2, if_pos h3]; rfl⟩
  by_cases h4 : env.advertiser a ≠ some true
  · left
    exact ⟨unknownAdvertisingIdentifier, by decide, by
      unfold createBig; rw [if_neg h1, if_neg h2, if_neg h3, if_pos h4]; rfl⟩
  by_cases h5 : s.bigs.any (fun g => g.advertisingHandle = a) = true
  · left
    exact ⟨unknownAdvertisingIdentifier, by decide, by
      unfold createBig; rw [if_neg h1, if_neg h2, if_neg h3, if_neg h4, if_pos h5]; rfl⟩
  by_cases h6 : ¬ (1 ≤ n ∧ n ≤ 0x1f)
  · left
    exact ⟨invalidParameters, by decide, by
      unfold createBig; rw [if_neg h1, if_neg h2, if_neg h3, if_neg h4, if_neg h5, if_pos h6]; rfl⟩
  by_cases h7 : ¬ (0xff ≤ i ∧ i ≤ 0xfffff)
  · left
    exact ⟨invalidParameters, by decide, by
      unfold createBig; rw [if_neg h1, if_neg h2, if_neg h3, if_neg h4, if_neg h5, if_neg h6, if_pos h7]; rfl⟩
  by_cases h8 : ¬ (1 ≤ m ∧ m ≤ 0xfff)
  · left
    exact ⟨invalidParameters, by decide, by
      unfold createBig
      rw [if_neg h1, if_neg h2, if_neg h3, if_neg h4, if_neg h5, if_neg h6, if_neg h7, if_pos h8]; rfl⟩
  by_cases h9 : ¬ (5 ≤ l ∧ l ≤ 0xfa0)
  · left
    exact ⟨invalidParameters, by decide, by
      unfold createBig
      rw [if_neg h1, if_neg h2, if_neg h3, if_neg h4, if_neg h5, if_neg h6, if_neg h7, if_neg h8, if_pos h9]
      rfl⟩
  by_cases h10 : p = 0
  · left
    exact ⟨invalidParameters, by decide, by
      unfold createBig
      rw [if_neg h1, if_neg h2, if_neg h3, if_neg h4, if_neg h5, if_neg h6, if_neg h7, if_neg h8, if_neg h9,
        if_pos h10]
      rfl⟩
  right
  refine ⟨by simpa using h2, Decidable.not_not.1 h6, ?_⟩
  unfold createBig
  rw [if_neg h1, if_neg h2, if_neg h3, if_neg h4, if_neg h5, if_neg h6, if_neg h7, if_neg h8, if_neg h9,
    if_neg h10]
  rfl

theorem createBig_inv {env : Env} {s s' : State} {b a n i m l p : Nat} {outs : List Out} (hi : Inv s)
    (h : createBig env s b a n i m l p = .ok (s', outs)) : Inv s' := by
  rcases createBig_cases (env := env) (s := s) (b := b) (a := a) (n := n) (i := i) (m := m) (l := l) (p := p)
    with ⟨e, _, he⟩ | ⟨_, _, he⟩
  · rw [he] at h; cases h; exact hi
  · rw [he] at h
    split at h
    · cases h
    · rename_i ha
      cases h
      obtain ⟨h1, h2⟩ := allocateBises_fresh hi.bisNodup hi.bisRange ha
      exact ⟨hi.cises, hi.ids, h1, h2⟩

theorem terminateBig_inv {s s' : State} {b : Nat} {r : ErrorCode} {outs : List Out} (hi : Inv s)
    (h : terminateBig s b r = .ok (s', outs)) : Inv s' := by
  unfold terminateBig at h
  split at h
  · obtain ⟨rfl, -⟩ := answer_ok h; exact hi
  · split at h
    · obtain ⟨rfl, -⟩ := answer_ok h; exact hi
    · cases h
      exact ⟨hi.cises, hi.ids, hi.bisNodup.sublist (List.filter_sublist.map _),
        fun b hb => hi.bisRange b (List.mem_filter.1 hb).1⟩

theorem step_inv {env : Env} {s s' : State} {op : Op} {outs : List Out} (hi : Inv s)
    (h : step env s op = .ok (s', outs)) : Inv s' := by
  cases op with
  | addLink acl role =>
    simp only [step, addLink] at h
    split at h
    · cases h
    · cases h; exact ⟨hi.cises, hi.ids, hi.bisNodup, hi.bisRange⟩
  | removeLink acl reason =>
    simp only [step, removeLink] at h
    split at h
    · cases h
    · cases h; exact removeAcl_inv (reason := success) hi
  | hci c =>
    cases c with
    | setCig => exact setCig_inv hi h
    | setCigTest => exact setCigTest_inv hi h
    | removeCig => exact removeCig_inv hi h
    | createCis => exact createCis_inv hi h
    | acceptCis => exact acceptCis_inv hi h
    | rejectCis => exact rejectCis_inv hi h
    | setupPath => exact setupPath_inv hi h
    | removePath => exact removePath_inv hi h
    | disconnect => exact disconnect_inv hi h
    | createBig => exact createBig_inv hi h
    | terminateBig => exact terminateBig_inv hi h
    | malformed => cases h
  | llcp acl p =>
    cases p with
    | cisReq => exact cisReq_inv hi h
    | cisRsp => exact cisRsp_inv hi h
    | cisInd => exact cisInd_inv hi h
    | rejectExtInd => exact rejectExtInd_inv hi h
    | terminateInd => exact terminateInd_inv hi h
    | other => cases h
    | malformed => cases h
  | rehash order =>
    simp only [step] at h
    cases h
    split
    · rename_i hp
      have hp := List.isPerm_iff.1 hp
      exact ⟨fun c hc => hi.cises c (hp.mem_iff.1 hc), hi.ids.perm (hp.map _), hi.bisNodup, hi.bisRange⟩
    · exact hi

/-- A predicate that every step preserves holds after every history. -/
theorem run_induct {P : State → Prop} (hstep : ∀ env s op s' outs, P s → step env s op = .ok (s', outs) → P s')
    {s s' : State} {ops : List (Env × Op)} {outs : List Out} (hs : P s) (h : run s ops = .ok (s', outs)) :
    P s' := by
  induction ops generalizing s outs with
  | nil => cases h; exact hs
  | cons e ops ih =>
    obtain ⟨env, op⟩ := e
    simp only [run] at h
    split at h
    · cases h
    · rename_i h1
      split at h
      · cases h
      · rename_i h2
        cases h
        exact ih (hstep _ _ _ _ _ hs h1) h2

theorem reachable_inv {s : State} (h : Reachable s) : Inv s := by
  obtain ⟨ops, outs, h⟩ := h
  exact run_induct (fun _ _ _ _ _ hi hs => step_inv hi hs) inv_init h

end Verif.Iso
