import Verif.Iso.SpecNotes
import Verif.Iso.PropsAgree
/-! # Lemmas for C115 -/
namespace Verif.Iso
open Verif.Le

/-- The note for a stream. -/
def Cis.phase (c : Cis) : Phase :=
  match c.state with
  | .configuration => .idle
  | .pendingRsp | .pendingInd => .asked (c.acl.getD 0)
  | .pendingAccept => .offered (c.acl.getD 0)
  | .connected => .established (c.acl.getD 0)

/-- The note for a handle. -/
def phaseOf (s : State) : Notes := fun h =>
  match s.requests.find? (fun r => r.handle = h) with
  | some r => .asked r.acl
  | none => ((findCis s.cises h).map Cis.phase).getD .idle

/-! ### Events -/

/-- Nothing the host makes notes of. -/
def Quiet (outs : List Out) : Prop := ∀ o ∈ outs, ∀ n : Notes, n.hear o = n

theorem Quiet.fold {outs : List Out} (hq : Quiet outs) (n : Notes) : outs.foldl Notes.hear n = n := by
  induction outs with
  | nil => rfl
  | cons o os ih =>
    rw [List.foldl_cons, hq o (.head _)]
    exact ih (fun x hx => hq x (.tail _ hx))

theorem quiet_one {e : Event} (h1 : ∀ x, e ≠ .cisEstablished x) (h2 : ∀ a b c d, e ≠ .cisRequest a b c d)
    (h3 : ∀ a b, e ≠ .disconnectionComplete a b) : Quiet [.event e] := by
  intro o ho n
  rw [List.mem_singleton.1 ho]
  cases e <;> first | rfl | exact absurd rfl (h1 _) | exact absurd rfl (h2 _ _ _ _) | exact absurd rfl (h3 _ _)

/-- The three events. -/
def Out.plain : Out → Bool
  | .event (.cisEstablished _) | .event (.cisRequest ..) | .event (.disconnectionComplete ..) => false
  | _ => true

theorem quiet_plain {outs : List Out} (h : ∀ o ∈ outs, o.plain = true) : Quiet outs := by
  intro o ho n
  have := h o ho
  cases o with
  | llcp => rfl
  | event e => cases e <;> first | rfl | cases this

/-- What the host is told of. -/
structure News (n : Notes) (op : Op) (outs : List Out) : Prop where
  answer : ∀ e, .event (.cisEstablished e) ∈ outs → ∃ a, n e.handle = .asked a
  fresh : ∀ acl h i j, .event (.cisRequest acl h i j) ∈ outs → n h = .idle
  ended : ∀ h r, .event (.disconnectionComplete h r) ∈ outs → (∀ acl i j e, op ≠ .llcp acl (.terminateInd i j e)) →
    ∃ a, n h = .asked a ∨ n h = .established a

theorem News.plain {n : Notes} {op : Op} {outs : List Out} (h : ∀ o ∈ outs, o.plain = true) : News n op outs :=
  ⟨fun _ he => (by cases h _ he), fun _ _ _ _ he => (by cases h _ he), fun _ _ he => (by cases h _ he)⟩

/-- What is proved of every step. -/
def Noted (s s' : State) (op : Op) (outs : List Out) : Prop :=
  (∀ x, (phaseOf s).note (op, outs) x = phaseOf s' x) ∧ News (phaseOf s) op outs

theorem Noted.same {s s' : State} {op : Op} {outs : List Out} (ha : (phaseOf s).act outs op = phaseOf s)
    (hp : ∀ o ∈ outs, o.plain = true) (hs : ∀ x, phaseOf s' x = phaseOf s x) : Noted s s' op outs := by
  refine ⟨fun x => ?_, .plain hp⟩
  unfold Notes.note
  simp only
  rw [ha, (quiet_plain hp).fold, hs]

theorem phaseOf_congr {s s' : State} {x : Nat} (hr : s'.requests = s.requests)
    (hc : ((findCis s'.cises x).map Cis.phase).getD .idle = ((findCis s.cises x).map Cis.phase).getD .idle) :
    phaseOf s' x = phaseOf s x := by
  unfold phaseOf
  rw [hr, hc]

theorem phaseOf_eq {s s' : State} {x : Nat} (hr : s'.requests = s.requests) (hc : findCis s'.cises x = findCis s.cises x) :
    phaseOf s' x = phaseOf s x := phaseOf_congr hr (by rw [hc])

/-- A change for one handle. -/
theorem phaseOf_set {s s' : State} {h : Nat} {p : Phase} (hr : s'.requests = s.requests)
    (hn : s.requests.find? (fun r => r.handle = h) = none) (hh : ((findCis s'.cises h).map Cis.phase).getD .idle = p)
    (ho : ∀ x, x ≠ h → findCis s'.cises x = findCis s.cises x) (x : Nat) : (phaseOf s).set h p x = phaseOf s' x := by
  unfold Notes.set
  by_cases hx : x = h
  · subst hx
    rw [if_pos rfl]
    unfold phaseOf
    rw [hr, hn, hh]
  · rw [if_neg hx, phaseOf_eq hr (ho x hx)]

theorem queue_none {s : State} (hq : Queue s) {h : Nat} {c : Cis} (hf : findCis s.cises h = some c) (hc : c.state ≠ .configuration) :
    s.requests.find? (fun r => r.handle = h) = none := by
  rw [List.find?_eq_none]
  intro r hr he
  have he : r.handle = h := by simpa using he
  obtain ⟨d, h1, h2, -⟩ := hq.valid r hr
  rw [he, hf] at h1
  cases h1
  exact hc h2

theorem queue_free {s : State} (hq : Queue s) {h : Nat} (hf : findCis s.cises h = none) :
    s.requests.find? (fun r => r.handle = h) = none := by
  rw [List.find?_eq_none]
  intro r hr he
  have he : r.handle = h := by simpa using he
  obtain ⟨d, h1, -⟩ := hq.valid r hr
  rw [he, hf] at h1
  cases h1

theorem phaseOf_cis {s : State} (hq : Queue s) {h : Nat} {c : Cis} (hf : findCis s.cises h = some c) (hc : c.state ≠ .configuration) :
    phaseOf s h = c.phase := by
  unfold phaseOf
  rw [queue_none hq hf hc, hf]
  rfl

theorem dequeue_phase {s s' : State} {outs : List Out} (hq : Queue s) (h : dequeue s = .ok (s', outs)) :
    (∀ x, phaseOf s' x = phaseOf s x) ∧ ∀ o ∈ outs, o.plain = true := by
  rcases dequeue_cases h with ⟨-, rfl, rfl⟩ | ⟨r, rest, p, c, hr, hf, rfl, q, rfl, -⟩
  · exact ⟨fun _ => rfl, nofun⟩
  · refine ⟨fun x => ?_, fun o ho => by rw [List.mem_singleton.1 ho]; rfl⟩
    have hn := hq.nodup
    rw [hr, List.map_cons, List.nodup_cons] at hn
    unfold phaseOf
    simp only
    rw [findCis_update (by exact fun _ => rfl), hr, List.find?_cons]
    by_cases hx : x = r.handle
    · subst hx
      have h1 : rest.find? (fun y => y.handle = r.handle) = none := by
        rw [List.find?_eq_none]
        intro y hy he
        exact hn.1 (by simp only [decide_eq_true_eq] at he; rw [← he]; exact List.mem_map_of_mem hy)
      rw [h1, if_pos rfl, hf]
      simp [Cis.phase]
    · have hx' : ¬ r.handle = x := fun e => hx e.symm
      rw [if_neg hx]
      simp only [hx', decide_false]

/-! ### Commands -/

theorem noted_answer {s : State} {c : Cmd} {e : Event} (ha : (phaseOf s).act [.event e] (.hci c) = phaseOf s)
    (hp : (Out.event e).plain = true) : Noted s s (.hci c) [.event e] :=
  .same ha (fun o ho => by rw [List.mem_singleton.1 ho]; exact hp) (fun _ => rfl)

theorem noted_configured {s s' : State} {k : Nat} {g : CigConfig} {cs : List NewCis} {hs : List Nat} {c : Cmd} {e : Event}
    (hi : Inv s) (hi' : Inv s') (hc : Configured s s' k g cs hs) (ha : (phaseOf s).act [.event e] (.hci c) = phaseOf s)
    (hp : (Out.event e).plain = true) : Noted s s' (.hci c) [.event e] := by
  refine .same ha (fun o ho => by rw [List.mem_singleton.1 ho]; exact hp) (fun x => phaseOf_congr hc.requests ?_)
  cases hx : findCis s.cises x with
  | some c =>
    obtain ⟨hm, hh⟩ := findCis_some hx
    have := findCis_of_mem hi' (hc.kept c hm)
    rw [hh] at this
    rw [this]
  | none =>
    cases hy : findCis s'.cises x with
    | none => rfl
    | some y =>
      obtain ⟨hm, hh⟩ := findCis_some hy
      rcases hc.added y hm with hm' | ⟨-, hst, -⟩
      · exact absurd hh (findCis_none.1 hx y hm')
      · simp [Cis.phase, hst]

theorem noted_setCig {env : Env} {s s' : State} {k sduC sduP : Nat} {framed : Bool} {lC lP : Nat} {cs : List NewCis}
    {outs : List Out} (hi : Inv s) (h : setCig env s k sduC sduP framed lC lP cs = .ok (s', outs)) :
    Noted s s' (.hci (.setCig k sduC sduP framed lC lP cs)) outs := by
  have hi' := setCig_inv hi h
  simp only [setCig] at h
  repeat' split at h
  all_goals first
    | (cases h; done)
    | (obtain ⟨rfl, rfl⟩ := answer_ok h; exact noted_answer rfl rfl)
    | (rename_i hcfg; obtain ⟨rfl, rfl⟩ := answer_ok h
       exact noted_configured hi hi' (configured_of hi hcfg) rfl rfl)

theorem noted_setCigTest {env : Env} {s s' : State} {k sduC sduP ftC ftP iso : Nat} {framed : Bool} {cs : List NewCis}
    {outs : List Out} (hi : Inv s) (h : setCigTest env s k sduC sduP ftC ftP iso framed cs = .ok (s', outs)) :
    Noted s s' (.hci (.setCigTest k sduC sduP ftC ftP iso framed cs)) outs := by
  have hi' := setCigTest_inv hi h
  simp only [setCigTest] at h
  repeat' split at h
  all_goals first
    | (cases h; done)
    | (obtain ⟨rfl, rfl⟩ := answer_ok h; exact noted_answer rfl rfl)
    | (rename_i hcfg; obtain ⟨rfl, rfl⟩ := answer_ok h
       exact noted_configured hi hi' (configured_of hi hcfg) rfl rfl)

theorem noted_removeCig {s s' : State} {k : Nat} {outs : List Out} (hi : Inv s)
    (h : removeCig s k = .ok (s', outs)) : Noted s s' (.hci (.removeCig k)) outs := by
  unfold removeCig at h
  split at h
  · obtain ⟨rfl, rfl⟩ := answer_ok h; exact noted_answer rfl rfl
  split at h
  · obtain ⟨rfl, rfl⟩ := answer_ok h; exact noted_answer rfl rfl
  rename_i hbusy
  obtain ⟨rfl, rfl⟩ := answer_ok h
  refine .same rfl (fun o ho => by rw [List.mem_singleton.1 ho]; rfl) (fun x => phaseOf_congr rfl ?_)
  simp only
  rw [findCis_filter hi.handles]
  cases hx : findCis s.cises x with
  | none => rfl
  | some c =>
    by_cases hp : c.role ≠ .central ∨ c.cigId ≠ k
    · have hp' : decide (c.role ≠ .central ∨ c.cigId ≠ k) = true := by simpa using hp
      simp only [Option.filter, hp', if_true]
    · have hst : c.state = .configuration := by
        have h1 : c.role = .central := Decidable.byContradiction fun e => hp (Or.inl e)
        have h2 : c.cigId = k := Decidable.byContradiction fun e => hp (Or.inr e)
        have := fun hs => hbusy (List.any_eq_true.2 ⟨c, (findCis_some hx).1, hs⟩)
        simpa [h1, h2] using this
      have hp' : decide (c.role ≠ .central ∨ c.cigId ≠ k) = false := by simpa using hp
      simp only [Option.filter, hp', Bool.false_eq_true, if_false]
      simp [Cis.phase, hst]

theorem fold_asked (rs : List CisRequest) (hn : (rs.map (·.handle)).Nodup) (n : Notes) (x : Nat) :
    ((rs.map (fun r => (r.handle, r.acl))).foldl (fun (n : Notes) p => n.set p.1 (.asked p.2)) n) x =
      match rs.find? (fun r => r.handle = x) with
      | some r => .asked r.acl
      | none => n x := by
  induction rs generalizing n with
  | nil => rfl
  | cons r rs ih =>
    rw [List.map_cons, List.nodup_cons] at hn
    rw [List.map_cons, List.foldl_cons, ih hn.2, List.find?_cons]
    by_cases hx : r.handle = x
    · have h1 : rs.find? (fun y => y.handle = x) = none := by
        rw [List.find?_eq_none]
        intro y hy he
        exact hn.1 (by simp only [decide_eq_true_eq] at he; rw [hx, ← he]; exact List.mem_map_of_mem hy)
      rw [h1]
      simp [hx, Notes.set]
    · simp only [hx, decide_false]
      cases rs.find? (fun y => y.handle = x) with
      | some y => rfl
      | none =>
        show (if x = r.handle then Phase.asked r.acl else n x) = _
        rw [if_neg (fun e => hx e.symm)]

theorem noted_createCis {env : Env} {s s' : State} {cs : List (Nat × Nat)} {outs : List Out} (hi : Inv s)
    (h : createCis env s cs = .ok (s', outs)) : Noted s s' (.hci (.createCis cs)) outs := by
  have bad : ∀ {e}, e ≠ success → Noted s s (.hci (.createCis cs)) [.event (.createCisStatus e)] := by
    intro e he
    refine noted_answer ?_ rfl
    show (if _ then _ else _) = _
    rw [if_neg]
    simp only [List.mem_singleton, Out.event.injEq, Event.createCisStatus.injEq]
    exact fun hx => he hx.symm
  unfold createCis at h
  split at h
  · rename_i e he
    obtain ⟨rfl, rfl⟩ := answer_ok h
    exact bad (checkCreates_ne he)
  rename_i rs hrs
  split at h
  · obtain ⟨rfl, rfl⟩ := answer_ok h; exact bad nofun
  rename_i hempty
  have hempty : s.requests = [] := Decidable.byContradiction hempty
  split at h
  · obtain ⟨rfl, rfl⟩ := answer_ok h; exact bad nofun
  split at h
  · cases h
  rename_i cigs hl
  split at h
  · cases h
  rename_i s1 o1 hd
  cases h
  obtain ⟨new, hnew, h1, h2, h3⟩ := checkCreates_ok hrs
  rw [List.nil_append] at hnew
  subst hnew
  have hq1 : Queue { s with cigs := cigs, requests := rs } := by
    refine ⟨h3 List.nodup_nil, ?_⟩
    intro r hr
    obtain ⟨-, c, hc, h4, h5, h6, h7⟩ := h2 r hr
    have := findCis_of_mem hi hc
    rw [h4] at this
    refine ⟨c, this, h5, ?_, h6, h7⟩
    cases hrole : c.role with
    | central => rfl
    | peripheral => exact absurd h5 ((hi.cises c hc).accepted hrole)
  obtain ⟨hp, ho⟩ := dequeue_phase hq1 hd
  have hall : ∀ o ∈ o1 ++ [Out.event (.createCisStatus success)], o.plain = true := fun o hx =>
    (List.mem_append.1 hx).elim (ho o) (fun hy => by rw [List.mem_singleton.1 hy]; rfl)
  refine ⟨fun x => ?_, .plain hall⟩
  unfold Notes.note
  simp only
  rw [(quiet_plain hall).fold, hp x]
  show (if _ then _ else _ : Notes) x = _
  rw [if_pos (by simp [success]), ← h1, fold_asked _ hq1.nodup]
  unfold phaseOf
  rw [hempty]
  simp only [List.find?_nil]

theorem noted_accept {s s' : State} {h : Nat} {outs : List Out} (hq : Queue s)
    (hr : acceptCis s h = .ok (s', outs)) : Noted s s' (.hci (.acceptCis h)) outs := by
  have bad : ∀ {e}, e ≠ success → Noted s s (.hci (.acceptCis h)) [.event (.acceptCisStatus e)] := by
    intro e he
    refine noted_answer ?_ rfl
    show (if _ then _ else _) = _
    rw [if_neg]
    simp only [List.mem_singleton, Out.event.injEq, Event.acceptCisStatus.injEq]
    exact fun hx => he hx.symm
  unfold acceptCis at hr
  split at hr
  · obtain ⟨rfl, rfl⟩ := answer_ok hr; exact bad nofun
  rename_i c hf
  split at hr
  · obtain ⟨rfl, rfl⟩ := answer_ok hr; exact bad nofun
  split at hr
  · obtain ⟨rfl, rfl⟩ := answer_ok hr; exact bad nofun
  rename_i hst
  have hst : c.state = .pendingAccept := Decidable.byContradiction hst
  split at hr
  · cases hr
  rename_i acl hacl
  cases hr
  have hall : ∀ o ∈ [Out.llcp acl .cisRsp, Out.event (.acceptCisStatus success)], o.plain = true := by
    intro o ho
    simp only [List.mem_cons, List.not_mem_nil, or_false] at ho
    rcases ho with rfl | rfl <;> rfl
  refine ⟨fun x => ?_, .plain hall⟩
  unfold Notes.note
  simp only
  rw [(quiet_plain hall).fold]
  have hact : ∀ outs, Out.event (.acceptCisStatus 0) ∈ outs → (phaseOf s).act outs (.hci (.acceptCis h)) = (phaseOf s).set h (phaseOf s h).accepted := fun _ hx => if_pos hx
  rw [hact _ (by simp [success])]
  have hne : c.state ≠ .configuration := by rw [hst]; exact nofun
  have hph : phaseOf s h = .offered acl := by
    rw [phaseOf_cis hq hf hne]
    simp [Cis.phase, hst, hacl]
  rw [hph]
  refine phaseOf_set (h := h) (by rfl) (queue_none hq hf hne) ?_ ?_ x
  · simp only
    rw [findCis_update (by exact fun _ => rfl), if_pos rfl, hf]
    simp [Cis.phase, hacl, Phase.accepted]
  · intro y hy
    simp only
    rw [findCis_update (by exact fun _ => rfl), if_neg hy]

theorem noted_reject {s s' : State} {h : Nat} {e : ErrorCode} {outs : List Out} (hq : Queue s)
    (hr : rejectCis s h e = .ok (s', outs)) : Noted s s' (.hci (.rejectCis h e)) outs := by
  have bad : ∀ {e'}, e' ≠ success → Noted s s (.hci (.rejectCis h e)) [.event (.rejectCisComplete e' h)] := by
    intro e' he
    refine noted_answer ?_ rfl
    show (if _ then _ else _) = _
    rw [if_neg]
    simp only [List.mem_singleton, Out.event.injEq, Event.rejectCisComplete.injEq, and_true]
    exact fun hx => he hx.symm
  unfold rejectCis at hr
  split at hr
  · obtain ⟨rfl, rfl⟩ := answer_ok hr; exact bad nofun
  rename_i c hf
  split at hr
  · obtain ⟨rfl, rfl⟩ := answer_ok hr; exact bad nofun
  split at hr
  · obtain ⟨rfl, rfl⟩ := answer_ok hr; exact bad nofun
  rename_i hst
  have hst : c.state = .pendingAccept := Decidable.byContradiction hst
  split at hr
  · cases hr
  rename_i acl hacl
  cases hr
  have hall : ∀ r, ∀ o ∈ [Out.llcp acl (.rejectExtInd opcodeCisReq r), Out.event (.rejectCisComplete success h)], o.plain = true := by
    intro r o ho
    simp only [List.mem_cons, List.not_mem_nil, or_false] at ho
    rcases ho with rfl | rfl <;> rfl
  refine ⟨fun x => ?_, .plain (hall _)⟩
  unfold Notes.note
  simp only
  rw [(quiet_plain (hall _)).fold]
  have hact : ∀ outs, Out.event (.rejectCisComplete 0 h) ∈ outs → (phaseOf s).act outs (.hci (.rejectCis h e)) = (phaseOf s).set h .idle := fun _ hx => if_pos hx
  rw [hact _ (by simp [success])]
  have hne : c.state ≠ .configuration := by rw [hst]; exact nofun
  refine phaseOf_set (h := h) (by rfl) (queue_none hq hf hne) ?_ ?_ x
  · simp only
    rw [findCis_erase, if_pos rfl]
    rfl
  · intro y hy
    simp only
    rw [findCis_erase, if_neg hy]

theorem noted_disconnect {s s' : State} {h reason : Nat} {outs : List Out} (hq : Queue s)
    (hr : disconnect s h reason = .ok (s', outs)) : Noted s s' (.hci (.disconnect h reason)) outs := by
  unfold disconnect at hr
  split at hr
  · obtain ⟨rfl, rfl⟩ := answer_ok hr; exact noted_answer rfl rfl
  rename_i c hf
  split at hr
  · obtain ⟨rfl, rfl⟩ := answer_ok hr; exact noted_answer rfl rfl
  rename_i hst
  have hne : c.state ≠ .configuration := by intro e; rw [e] at hst; simp at hst
  split at hr
  · cases hr
  rename_i acl hacl
  cases hr
  refine ⟨fun x => ?_, ⟨fun e he => ?_, fun a b c d he => ?_, fun k r he _ => ?_⟩⟩
  · show (phaseOf s).set h .idle x = _
    refine phaseOf_set (h := h) (by rfl) (queue_none hq hf hne) ?_ ?_ x
    · simp only
      split
      · rw [findCis_update (by exact fun _ => rfl), if_pos rfl, hf]
        rfl
      · rw [findCis_erase, if_pos rfl]
        rfl
    · intro y hy
      simp only
      split
      · rw [findCis_update (by exact fun _ => rfl), if_neg hy]
      · rw [findCis_erase, if_neg hy]
  · simp at he
  · simp at he
  · simp only [List.mem_cons, Out.event.injEq, List.not_mem_nil, or_false, reduceCtorEq, false_or, Event.disconnectionComplete.injEq] at he
    obtain ⟨rfl, -⟩ := he
    rw [phaseOf_cis hq hf hne]
    refine ⟨acl, ?_⟩
    unfold Cis.phase
    rw [hacl]
    cases hs : c.state <;> simp_all

theorem noted_other {env : Env} {s s' : State} {c : Cmd} {outs : List Out} (hc : c.isOther = true)
    (h : runCmd env s c = .ok (s', outs)) : Noted s s' (.hci c) outs := by
  have upd : ∀ {h0 : Nat} {f : Cis → Cis} {c : Cmd} {e : Event}, (∀ c, (f c).handle = c.handle) → (∀ c, (f c).phase = c.phase) →
      (phaseOf s).act [.event e] (.hci c) = phaseOf s → (Out.event e).plain = true →
      Noted s { s with cises := updateCis s.cises h0 f } (.hci c) [.event e] := by
    intro h0 f c e h1 h2 h3 h4
    refine .same h3 (fun o ho => by rw [List.mem_singleton.1 ho]; exact h4) (fun x => phaseOf_congr rfl ?_)
    simp only
    rw [findCis_update h1]
    split
    · cases findCis s.cises x with
      | none => rfl
      | some c => simp [h2]
    · rfl
  have one : ∀ {s1 : State} {c : Cmd} {e : Event}, s1.requests = s.requests → s1.cises = s.cises →
      (phaseOf s).act [.event e] (.hci c) = phaseOf s → (Out.event e).plain = true → Noted s s1 (.hci c) [.event e] := by
    intro s1 c e h1 h2 h3 h4
    exact .same h3 (fun o ho => by rw [List.mem_singleton.1 ho]; exact h4) (fun x => phaseOf_eq h1 (by rw [h2]))
  cases c <;> first | (cases hc; done) | skip
  case setupPath a b c d =>
    simp only [runCmd, setupPath] at h
    repeat' split at h
    all_goals
      obtain ⟨rfl, rfl⟩ := answer_ok h
      first
        | exact noted_answer rfl rfl
        | exact one rfl rfl rfl rfl
        | exact upd (fun _ => by split <;> rfl) (fun _ => by split <;> rfl) rfl rfl
  case removePath a b c =>
    simp only [runCmd, removePath] at h
    repeat' split at h
    all_goals
      obtain ⟨rfl, rfl⟩ := answer_ok h
      first
        | exact noted_answer rfl rfl
        | exact one rfl rfl rfl rfl
        | exact upd (fun _ => rfl) (fun _ => rfl) rfl rfl
  case createBig b a n i m l p =>
    simp only [runCmd] at h
    rcases createBig_cases (env := env) (s := s) (b := b) (a := a) (n := n) (i := i) (m := m) (l := l) (p := p)
      with ⟨e, he, hx⟩ | ⟨-, -, hx⟩
    · rw [hx] at h; cases h; exact noted_answer rfl rfl
    · rw [hx] at h
      split at h
      · cases h
      · cases h
        refine .same rfl (fun o ho => ?_) (fun x => phaseOf_eq rfl rfl)
        simp only [List.mem_cons, List.not_mem_nil, or_false] at ho
        rcases ho with rfl | rfl <;> rfl
  case terminateBig b r =>
    simp only [runCmd, terminateBig] at h
    repeat' split at h
    · obtain ⟨rfl, rfl⟩ := answer_ok h; exact noted_answer rfl rfl
    · obtain ⟨rfl, rfl⟩ := answer_ok h; exact noted_answer rfl rfl
    · cases h
      refine .same rfl (fun o ho => ?_) (fun x => phaseOf_eq rfl rfl)
      simp only [List.mem_cons, List.not_mem_nil, or_false] at ho
      rcases ho with rfl | rfl <;> rfl
  case malformed => cases h

/-! ### Links and the peer -/

/-- Events that end a note. -/
def Out.ends (x : Nat) : Out → Bool
  | .event (.cisEstablished e) => e.handle = x
  | .event (.disconnectionComplete h _) => h = x
  | _ => false

theorem fold_ends (outs : List Out) (x : Nat) (hs : ∀ o ∈ outs, ∀ n : Notes, n.hear o x = if o.ends x = true then .idle else n x) (n : Notes) :
    outs.foldl Notes.hear n x = if ∃ o ∈ outs, o.ends x = true then .idle else n x := by
  induction outs generalizing n with
  | nil => simp
  | cons o os ih =>
    rw [List.foldl_cons, ih (fun y hy => hs y (.tail _ hy)), hs o (.head _)]
    by_cases h1 : ∃ y ∈ os, y.ends x = true
    · obtain ⟨y, hy, he⟩ := h1
      rw [if_pos ⟨y, hy, he⟩, if_pos ⟨y, .tail _ hy, he⟩]
    · rw [if_neg h1]
      by_cases h2 : o.ends x = true
      · rw [if_pos h2, if_pos ⟨o, .head _, h2⟩]
      · rw [if_neg h2, if_neg]
        rintro ⟨y, hy, he⟩
        rcases List.mem_cons.1 hy with rfl | hy
        · exact h2 he
        · exact h1 ⟨y, hy, he⟩

theorem hear_failed {e h x : Nat} (he : e ≠ 0) (n : Notes) :
    n.hear (.event (.cisEstablished (.failed e h))) x = if Out.ends x (.event (.cisEstablished (.failed e h))) = true then .idle else n x := by
  show (if x = h then (n h).answered e else n x) = if decide (h = x) = true then .idle else n x
  by_cases hx : x = h
  · subst hx
    simp only [if_true, decide_true]
    cases e with
    | zero => exact absurd rfl he
    | succ e => cases n x <;> rfl
  · have : ¬ h = x := fun e => hx e.symm
    simp [hx, this]

theorem hear_gone {h e x : Nat} (n : Notes) :
    n.hear (.event (.disconnectionComplete h e)) x = if Out.ends x (.event (.disconnectionComplete h e)) = true then .idle else n x := by
  show (if x = h then Phase.idle else n x) = if decide (h = x) = true then .idle else n x
  by_cases hx : x = h
  · subst hx; simp
  · have : ¬ h = x := fun e => hx e.symm
    simp [hx, this]

theorem lostEvent_some {acl e : Nat} {c : Cis} {o : Out} (h : lostEvent acl e c = some o) :
    c.acl = some acl ∧ ((c.state = .connected ∧ o = .event (.disconnectionComplete c.handle e)) ∨
      ((c.state = .pendingRsp ∨ c.state = .pendingInd) ∧ o = .event (.cisEstablished (.failed e c.handle)))) := by
  unfold lostEvent at h
  split at h
  · rename_i ha
    refine ⟨ha, ?_⟩
    split at h <;> cases h
    · rename_i hs; exact .inl ⟨hs, rfl⟩
    · rename_i hs; exact .inr ⟨.inl hs, rfl⟩
    · rename_i hs; exact .inr ⟨.inr hs, rfl⟩
  · cases h

/-- The events when a link is lost. -/
theorem remove_kind {s : State} {acl e : Nat} {o : Out} (ho : o ∈ (removeAcl s acl e).2) :
    (∃ c ∈ s.cises, lostEvent acl e c = some o) ∨
      ∃ r ∈ s.requests, r.acl = acl ∧ o = .event (.cisEstablished (.failed e r.handle)) := by
  rcases List.mem_append.1 ho with ho | ho
  · exact .inl (List.mem_filterMap.1 ho)
  · obtain ⟨r, hr, rfl⟩ := List.mem_map.1 ho
    obtain ⟨hr, ha⟩ := List.mem_filter.1 hr
    exact .inr ⟨r, hr, by simpa using ha, rfl⟩

theorem noted_remove {s s' : State} {acl reason : Nat} {outs : List Out} (hi : Inv s) (hq : Queue s) (h0 : reason ≠ 0)
    (h : removeLink s acl reason = .ok (s', outs)) : Noted s s' (.removeLink acl reason) outs := by
  unfold removeLink at h
  split at h
  · cases h
  have he : (if reason ∈ errorCodes then reason else remoteUserTerminated) ≠ 0 := by
    split
    · exact h0
    · exact nofun
  generalize (if reason ∈ errorCodes then reason else remoteUserTerminated) = e at h he
  cases h
  have hfind : ∀ x, findCis (removeAcl s acl e).1.cises x =
      ((findCis s.cises x).filter (fun c => c.role = .central ∨ c.acl ≠ some acl)).map (fun c =>
      if c.acl = some acl then { c with acl := none, state := .configuration } else c) := by
    intro x
    show findCis ((s.cises.filter _).map _) x = _
    rw [findCis_map (by intro c; split <;> rfl), findCis_filter hi.handles]
  have kind := fun o => @remove_kind s acl e o
  have hends : ∀ x, (∃ o ∈ (removeAcl s acl e).2, o.ends x = true) ↔
      (∃ c, findCis s.cises x = some c ∧ c.acl = some acl ∧ (c.state = .connected ∨ c.state = .pendingRsp ∨ c.state = .pendingInd)) ∨
      ∃ r ∈ s.requests, r.acl = acl ∧ r.handle = x := by
    intro x
    constructor
    · rintro ⟨o, ho, hx⟩
      rcases kind o ho with ⟨c, hc, hl⟩ | ⟨r, hr, ha, rfl⟩
      · obtain ⟨ha, hs⟩ := lostEvent_some hl
        have hh : c.handle = x := by
          rcases hs with ⟨-, rfl⟩ | ⟨-, rfl⟩ <;> exact of_decide_eq_true hx
        refine .inl ⟨c, hh ▸ findCis_of_mem hi hc, ha, ?_⟩
        rcases hs with ⟨hs, -⟩ | ⟨hs, -⟩
        · exact .inl hs
        · exact .inr hs
      · exact .inr ⟨r, hr, ha, of_decide_eq_true hx⟩
    · rintro (⟨c, hf, ha, hs⟩ | ⟨r, hr, ha, hx⟩)
      · obtain ⟨hm, hh⟩ := findCis_some hf
        rcases hs with hs | hs
        · refine ⟨.event (.disconnectionComplete c.handle e), List.mem_append.2 (.inl (List.mem_filterMap.2 ⟨c, hm, ?_⟩)), by simp [Out.ends, hh]⟩
          simp [lostEvent, ha, hs]
        · refine ⟨.event (.cisEstablished (.failed e c.handle)), List.mem_append.2 (.inl (List.mem_filterMap.2 ⟨c, hm, ?_⟩)),
            by simp [Out.ends, hh, Established.failed]⟩
          rcases hs with hs | hs <;> simp [lostEvent, ha, hs]
      · refine ⟨.event (.cisEstablished (.failed e r.handle)), List.mem_append.2 (.inr (List.mem_map.2 ⟨r, List.mem_filter.2 ⟨hr, by simpa using ha⟩, rfl⟩)),
          by simp [Out.ends, hx, Established.failed]⟩
  have hfold : ∀ n : Notes, ∀ x, (removeAcl s acl e).2.foldl Notes.hear n x =
      if ∃ o ∈ (removeAcl s acl e).2, o.ends x = true then .idle else n x := by
    intro n x
    refine fold_ends _ x (fun o ho n => ?_) n
    rcases kind o ho with ⟨c, -, hl⟩ | ⟨r, -, -, rfl⟩
    · obtain ⟨-, ⟨-, rfl⟩ | ⟨-, rfl⟩⟩ := lostEvent_some hl
      · exact hear_gone n
      · exact hear_failed he n
    · exact hear_failed he n
  have uniq : ∀ r ∈ s.requests, ∀ r' ∈ s.requests, r.handle = r'.handle → r = r' := fun r hr r' hr' hh =>
    inj_of_nodup_map hq.nodup hr hr' hh
  refine ⟨fun x => ?_, ⟨fun e' he' => ?_, fun a b c d he' => ?_, fun k r he' _ => ?_⟩⟩
  · show ((removeAcl s acl e).2.foldl Notes.hear ((phaseOf s).act (removeAcl s acl e).2 (.removeLink acl reason))) x =
      phaseOf (removeAcl s acl e).1 x
    rw [hfold]
    show (if _ then Phase.idle else if phaseOf s x = Phase.offered acl then Phase.idle else phaseOf s x) = _
    cases hr : s.requests.find? (fun r => r.handle = x) with
    | some r =>
      have hrm := List.mem_of_find?_eq_some hr
      have hrx : r.handle = x := by simpa using List.find?_some hr
      obtain ⟨c, hc, hcs, hcr, -⟩ := hq.valid r hrm
      rw [hrx] at hc
      have hp : phaseOf s x = .asked r.acl := by unfold phaseOf; rw [hr]
      by_cases ha : r.acl = acl
      · rw [if_pos ((hends x).2 (.inr ⟨r, hrm, ha, hrx⟩))]
        unfold phaseOf
        have h1 : (removeAcl s acl e).1.requests.find? (fun r => r.handle = x) = none := by
          rw [List.find?_eq_none]
          intro y hy hyx
          obtain ⟨hy1, hy2⟩ := List.mem_filter.1 hy
          have : y = r := uniq y hy1 r hrm (by rw [hrx]; simpa using hyx)
          rw [this, ha] at hy2
          simp at hy2
        rw [h1, hfind, hc]
        simp only [Option.filter, hcr, true_or, decide_true, if_true, Option.map_some, Option.getD_some]
        split
        · rfl
        · simp [Cis.phase, hcs]
      · have h1 : (removeAcl s acl e).1.requests.find? (fun r => r.handle = x) = some r := by
          cases h2 : (removeAcl s acl e).1.requests.find? (fun r => r.handle = x) with
          | none =>
            rw [List.find?_eq_none] at h2
            exact absurd (by simpa using hrx) (h2 r (List.mem_filter.2 ⟨hrm, by simpa using ha⟩))
          | some y =>
            have hy1 := (List.mem_filter.1 (List.mem_of_find?_eq_some h2)).1
            have hyx : y.handle = x := by simpa using List.find?_some h2
            rw [uniq y hy1 r hrm (by rw [hrx, hyx])]
        rw [if_neg, hp, if_neg nofun]
        · unfold phaseOf
          rw [h1]
        · rw [hends]
          rintro (⟨d, hd, -, hs⟩ | ⟨y, hy, hya, hyx⟩)
          · rw [hc] at hd
            cases hd
            rw [hcs] at hs
            rcases hs with hs | hs | hs <;> cases hs
          · rw [uniq y hy r hrm (by rw [hrx, hyx])] at hya
            exact ha hya
    | none =>
      have h1 : (removeAcl s acl e).1.requests.find? (fun r => r.handle = x) = none := by
        rw [List.find?_eq_none] at hr ⊢
        exact fun y hy => hr y (List.mem_filter.1 hy).1
      have hnr : ¬ ∃ r ∈ s.requests, r.acl = acl ∧ r.handle = x := by
        rintro ⟨r, hr1, -, hr2⟩
        rw [List.find?_eq_none] at hr
        exact hr r hr1 (by simpa using hr2)
      have hp' : phaseOf (removeAcl s acl e).1 x = ((findCis (removeAcl s acl e).1.cises x).map Cis.phase).getD .idle := by
        unfold phaseOf; rw [h1]
      rw [hp', hfind]
      cases hc : findCis s.cises x with
      | none =>
        have hp : phaseOf s x = .idle := by unfold phaseOf; rw [hr, hc]; rfl
        rw [hp]
        simp
      | some c =>
        have hp : phaseOf s x = c.phase := by unfold phaseOf; rw [hr, hc]; rfl
        rw [hp]
        have hok := hi.cises c (findCis_some hc).1
        by_cases ha : c.acl = some acl
        · have hidle : ((Option.filter (fun c => decide (c.role = .central ∨ c.acl ≠ some acl)) (some c)).map (fun c =>
              if c.acl = some acl then { c with acl := none, state := .configuration } else c)).map Cis.phase = none ∨
              ((Option.filter (fun c => decide (c.role = .central ∨ c.acl ≠ some acl)) (some c)).map (fun c =>
              if c.acl = some acl then { c with acl := none, state := .configuration } else c)).map Cis.phase = some .idle := by
            by_cases hr : c.role = .central <;> simp [Option.filter, hr, ha, Cis.phase]
          have hg : (((Option.filter (fun c => decide (c.role = .central ∨ c.acl ≠ some acl)) (some c)).map (fun c =>
              if c.acl = some acl then { c with acl := none, state := .configuration } else c)).map Cis.phase).getD .idle = .idle := by
            rcases hidle with h | h <;> rw [h] <;> rfl
          rw [hg]
          by_cases hs : c.state = .connected ∨ c.state = .pendingRsp ∨ c.state = .pendingInd
          · rw [if_pos ((hends x).2 (.inl ⟨c, hc, ha, hs⟩))]
          · rw [if_neg]
            · cases hst : c.state with
              | configuration => simp [Cis.phase, hst]
              | pendingAccept => simp [Cis.phase, hst, ha]
              | connected => exact absurd (.inl hst) hs
              | pendingRsp => exact absurd (.inr (.inl hst)) hs
              | pendingInd => exact absurd (.inr (.inr hst)) hs
            · rw [hends]
              rintro (⟨d, hd, -, hs'⟩ | hx)
              · rw [hc] at hd; cases hd; exact hs hs'
              · exact hnr hx
        · rw [if_neg]
          · have hoff : c.phase ≠ .offered acl := by
              intro hx
              cases hst : c.state with
              | pendingAccept =>
                have := (hok.linked (by rw [hst]; exact nofun)).1
                obtain ⟨a, haa⟩ := Option.isSome_iff_exists.1 this
                simp only [Cis.phase, hst, haa, Option.getD_some, Phase.offered.injEq] at hx
                exact ha (by rw [haa, hx])
              | _ => simp [Cis.phase, hst] at hx
            rw [if_neg hoff]
            simp [Option.filter, ha]
          · rw [hends]
            rintro (⟨d, hd, hda, -⟩ | hx)
            · rw [hc] at hd; cases hd; exact ha hda
            · exact hnr hx
  · rcases kind _ he' with ⟨c, hc, hl⟩ | ⟨r, hr, -, hre⟩
    · obtain ⟨ha, ⟨-, hx⟩ | ⟨hs, hx⟩⟩ := lostEvent_some hl
      · cases hx
      · cases hx
        have hf := findCis_of_mem hi hc
        refine ⟨acl, ?_⟩
        show phaseOf s c.handle = _
        rcases hs with hs | hs
        · rw [phaseOf_cis hq hf (by rw [hs]; exact nofun)]; simp [Cis.phase, hs, ha]
        · rw [phaseOf_cis hq hf (by rw [hs]; exact nofun)]; simp [Cis.phase, hs, ha]
    · cases hre
      show ∃ a, phaseOf s r.handle = _
      unfold phaseOf
      cases h1 : s.requests.find? (fun y => y.handle = r.handle) with
      | none => rw [List.find?_eq_none] at h1; exact absurd (by simp) (h1 r hr)
      | some y => exact ⟨_, rfl⟩
  · rcases kind _ he' with ⟨c, hc, hl⟩ | ⟨r, hr, -, hre⟩
    · obtain ⟨-, ⟨-, hx⟩ | ⟨-, hx⟩⟩ := lostEvent_some hl <;> cases hx
    · cases hre
  · rcases kind _ he' with ⟨c, hc, hl⟩ | ⟨r, hr, -, hre⟩
    · obtain ⟨ha, ⟨hs, hx⟩ | ⟨hs, hx⟩⟩ := lostEvent_some hl
      · cases hx
        have hf := findCis_of_mem hi hc
        refine ⟨acl, .inr ?_⟩
        rw [phaseOf_cis hq hf (by rw [hs]; exact nofun)]; simp [Cis.phase, hs, ha]
      · cases hx
    · cases hre

theorem noted_cisReq {s s' : State} {acl : Nat} {r : CisReq} {outs : List Out} (hq : Queue s)
    (h : cisReq s acl r = .ok (s', outs)) : Noted s s' (.llcp acl (.cisReq r)) outs := by
  unfold cisReq at h
  split at h
  · cases h
  rename_i h0 hn
  cases h
  obtain ⟨-, hfresh⟩ := newCisHandle_some hn
  have hnone := findCis_none.2 hfresh
  refine ⟨fun x => ?_, ⟨fun e he => ?_, fun a b c d he => ?_, fun k r he => ?_⟩⟩
  · show (phaseOf s).set h0 (.offered acl) x = _
    refine phaseOf_set (h := h0) (by rfl) (queue_free hq hnone) ?_ ?_ x
    · simp only
      rw [findCis_append hfresh, if_pos rfl]
      rfl
    · intro y hy
      simp only
      rw [findCis_append hfresh, if_neg hy]
  · simp at he
  · simp only [List.mem_singleton, Out.event.injEq, Event.cisRequest.injEq] at he
    obtain ⟨-, rfl, -⟩ := he
    unfold phaseOf
    rw [queue_free hq hnone, hnone]
    rfl
  · simp at he

/-- A procedure that waits for the peer ends. -/
theorem finish_phase {s : State} {c : Cis} {f : Cis → Cis} {p : Phase} (hi : Inv s) (hq : Queue s) (hm : c ∈ s.cises)
    (hne : c.state ≠ .configuration) (hf : ∀ c, (f c).handle = c.handle) (hp : (f c).phase = p) (x : Nat) :
    (phaseOf s).set c.handle p x = phaseOf (setCises s (updateCis s.cises c.handle f)) x := by
  have hfc := findCis_of_mem hi hm
  refine phaseOf_set (h := c.handle) (by rfl) (queue_none hq hfc hne) ?_ ?_ x
  · simp only [setCises]
    rw [findCis_update hf, if_pos rfl, hfc]
    simp [hp]
  · intro y hy
    simp only [setCises]
    rw [findCis_update hf, if_neg hy]

theorem noted_cisRsp {s s' : State} {acl : Nat} {outs : List Out} (hi : Inv s) (hq : Queue s)
    (h : cisRsp s acl = .ok (s', outs)) : Noted s s' (.llcp acl .cisRsp) outs := by
  unfold cisRsp at h
  split at h
  · cases h; exact .same rfl nofun (fun _ => rfl)
  rename_i c ha
  obtain ⟨hm, hacl, -, hst⟩ := awaitingRsp_some ha
  have hne : c.state ≠ .configuration := by rw [hst]; exact nofun
  split at h
  · cases h
  split at h
  · cases h
  rename_i e he
  split at h
  · cases h
  rename_i s1 o1 hd
  obtain ⟨rfl, rfl⟩ := send_ok h
  obtain ⟨hh, hz⟩ := centralEvent_handle he
  have hfc := findCis_of_mem hi hm
  have hph : phaseOf s c.handle = .asked acl := by
    rw [phaseOf_cis hq hfc hne]; simp [Cis.phase, hst, hacl]
  have hq1 := finish_queue (f := fun c => { c with state := .connected }) hi hq hm (by rw [hst]; rfl) (fun _ => rfl)
  obtain ⟨hp, ho⟩ := dequeue_phase hq1 hd
  refine ⟨fun x => ?_, ⟨fun e' he' => ?_, fun a b c d he' => ?_, fun k r he' => ?_⟩⟩
  · rw [hp x, ← finish_phase (f := fun c => { c with state := .connected }) (p := .established acl) hi hq hm hne (fun _ => rfl)
      (by simp [Cis.phase, hacl]) x]
    unfold Notes.note
    simp only
    rw [List.foldl_append, (quiet_plain ho).fold]
    show ((phaseOf s).set e.handle ((phaseOf s e.handle).answered e.status)) x = _
    rw [hh, hz, hph]
    rfl
  · rcases List.mem_append.1 he' with hx | hx
    · simp only [List.mem_cons, reduceCtorEq, Out.event.injEq, Event.cisEstablished.injEq, List.not_mem_nil, or_false, false_or] at hx
      subst hx
      exact ⟨acl, by rw [hh, hph]⟩
    · cases ho _ hx
  · rcases List.mem_append.1 he' with hx | hx
    · simp at hx
    · cases ho _ hx
  · rcases List.mem_append.1 he' with hx | hx
    · simp at hx
    · cases ho _ hx

theorem noted_rejectExtInd {s s' : State} {acl op e : Nat} {outs : List Out} (hi : Inv s) (hq : Queue s)
    (h : rejectExtInd s acl op = .ok (s', outs)) : Noted s s' (.llcp acl (.rejectExtInd op e)) outs := by
  unfold rejectExtInd at h
  split at h
  · cases h
  split at h
  · cases h; exact .same rfl nofun (fun _ => rfl)
  rename_i c ha
  obtain ⟨hm, hacl, -, hst⟩ := awaitingRsp_some ha
  have hne : c.state ≠ .configuration := by rw [hst]; exact nofun
  split at h
  · cases h
  rename_i s1 o1 hd
  cases h
  have hfc := findCis_of_mem hi hm
  have hph : phaseOf s c.handle = .asked acl := by
    rw [phaseOf_cis hq hfc hne]; simp [Cis.phase, hst, hacl]
  have hq1 := finish_queue (f := fun c => { c with state := .configuration, params := none }) hi hq hm (by rw [hst]; rfl) (fun _ => rfl)
  obtain ⟨hp, ho⟩ := dequeue_phase hq1 hd
  refine ⟨fun x => ?_, ⟨fun e' he' => ?_, fun a b c d he' => ?_, fun k r he' => ?_⟩⟩
  · rw [hp x, ← finish_phase (f := fun c => { c with state := .configuration, params := none }) (p := .idle) hi hq hm hne (fun _ => rfl)
      (by simp [Cis.phase]) x]
    unfold Notes.note
    simp only
    rw [List.foldl_cons, (quiet_plain ho).fold]
    show ((phaseOf s).set c.handle ((phaseOf s c.handle).answered remoteUserTerminated)) x = _
    rw [hph]
    rfl
  · rcases List.mem_cons.1 he' with hx | hx
    · cases hx
      exact ⟨acl, hph⟩
    · cases ho _ hx
  · rcases List.mem_cons.1 he' with hx | hx
    · cases hx
    · cases ho _ hx
  · rcases List.mem_cons.1 he' with hx | hx
    · cases hx
    · cases ho _ hx

theorem noted_cisInd {s s' : State} {acl a b : Nat} {outs : List Out} (hi : Inv s) (hq : Queue s)
    (h : cisInd s acl a b = .ok (s', outs)) : Noted s s' (.llcp acl (.cisInd a b)) outs := by
  simp only [cisInd] at h
  split at h
  · cases h; exact .same rfl nofun (fun _ => rfl)
  rename_i c ha
  obtain ⟨hm, hacl, -, hst⟩ := awaitingInd_some ha
  have hne : c.state ≠ .configuration := by rw [hst]; exact nofun
  split at h
  · cases h
  rename_i p _
  split at h
  · cases h
  rename_i e he
  obtain ⟨rfl, rfl⟩ := send_ok h
  obtain ⟨hh, hz⟩ := peripheralEvent_handle he
  have hfc := findCis_of_mem hi hm
  have hph : phaseOf s c.handle = .asked acl := by
    rw [phaseOf_cis hq hfc hne]; simp [Cis.phase, hst, hacl]
  refine ⟨fun x => ?_, ⟨fun e' he' => ?_, fun a b c d he' => ?_, fun k r he' => ?_⟩⟩
  · have := finish_phase (f := fun c => { c with state := .connected, params := some { p with cigSyncDelay := a, cisSyncDelay := b } })
      (p := .established acl) hi hq hm hne (fun _ => rfl) (by simp [Cis.phase, hacl]) x
    refine Eq.trans ?_ this
    show ((phaseOf s).set e.handle ((phaseOf s e.handle).answered e.status)) x = _
    rw [hh, hz, hph]
    rfl
  · cases List.mem_singleton.1 he'
    exact ⟨acl, by rw [hh, hph]⟩
  · cases List.mem_singleton.1 he'
  · cases List.mem_singleton.1 he'

theorem noted_terminateInd {s s' : State} {acl a b e : Nat} {outs : List Out}
    (hk : KeepsQueued s (.llcp acl (.terminateInd a b e)))
    (h : terminateInd s acl a b e = .ok (s', outs)) : Noted s s' (.llcp acl (.terminateInd a b e)) outs := by
  unfold terminateInd at h
  split at h
  · cases h; exact .same rfl nofun (fun _ => rfl)
  rename_i c hf
  have hm := List.mem_of_find?_eq_some hf
  have hmatch := List.find?_some hf
  simp only [decide_eq_true_eq] at hmatch
  split at h
  · cases h
    refine ⟨fun x => ?_, ⟨fun e' he' => ?_, fun a b c d he' => ?_, fun k r he' hx => absurd rfl (hx _ _ _ _)⟩⟩
    · show (phaseOf s).set c.handle .idle x = _
      refine phaseOf_set (h := c.handle) (by rfl) ?_ ?_ ?_ x
      · rw [List.find?_eq_none]
        intro r hr he
        have he : r.handle = c.handle := by simpa using he
        exact hk r hr c hm he.symm hmatch
      · simp only
        rw [findCis_erase, if_pos rfl]
        rfl
      · intro y hy
        simp only
        rw [findCis_erase, if_neg hy]
    · cases List.mem_singleton.1 he'
    · cases List.mem_singleton.1 he'
  · cases h

theorem noted_step {env : Env} {s s' : State} {op : Op} {outs : List Out} (hi : Inv s) (hq : Queue s) (hs : Sane s op)
    (h : step env s op = .ok (s', outs)) : Noted s s' op outs := by
  cases op with
  | addLink acl role =>
    simp only [step, addLink] at h
    split at h
    · cases h
    · cases h; exact .same rfl nofun (fun x => phaseOf_eq rfl rfl)
  | removeLink acl reason => exact noted_remove hi hq (fun h0 => hs.2 acl (by rw [h0])) h
  | hci c =>
    cases c with
    | setCig => exact noted_setCig hi h
    | setCigTest => exact noted_setCigTest hi h
    | removeCig => exact noted_removeCig hi h
    | createCis => exact noted_createCis hi h
    | acceptCis => exact noted_accept hq h
    | rejectCis => exact noted_reject hq h
    | disconnect => exact noted_disconnect hq h
    | _ => exact noted_other (env := env) rfl h
  | llcp acl p =>
    cases p with
    | cisReq => exact noted_cisReq hq h
    | cisRsp => exact noted_cisRsp hi hq h
    | cisInd => exact noted_cisInd hi hq h
    | rejectExtInd => exact noted_rejectExtInd hi hq h
    | terminateInd => exact noted_terminateInd hs.1 h
    | other => cases h
    | malformed => cases h
  | rehash order =>
    simp only [step] at h
    cases h
    split
    · rename_i hp
      exact .same rfl nofun (fun x => phaseOf_eq rfl (findCis_perm (List.isPerm_iff.1 hp) hi.handles x))
    · exact .same rfl nofun (fun _ => rfl)

/-! ### Histories -/

theorem sane_queued {tr : List (Op × List Out)} {s : State} (h : TraceOf Sane {} tr s) : TraceOf KeepsQueued {} tr s := by
  induction h with
  | nil => exact .nil _
  | snoc _ hp hstep ih => exact .snoc ih hp.1 hstep

theorem noted_trace {tr : List (Op × List Out)} {s : State} (h : TraceOf Sane {} tr s) :
    Inv s ∧ Queue s ∧ notesOf tr = phaseOf s := by
  refine ⟨trace_inv h.trace, queue_traceOf (sane_queued h), ?_⟩
  induction h with
  | nil => rfl
  | snoc ht hp hstep ih =>
    unfold notesOf at ih ⊢
    rw [List.foldl_append, ih]
    funext x
    exact (noted_step (trace_inv ht.trace) (queue_traceOf (sane_queued ht)) hp hstep).1 x

/-- Only the peripheral has a stream that waits for its host. -/
theorem offers_trace {tr : List (Op × List Out)} {s : State} (ht : Trace {} tr s) :
    ∀ c ∈ s.cises, c.state = .pendingAccept → c.role = .peripheral := by
  induction ht with
  | nil => exact nofun
  | @snoc s1 s2 tr env op outs ht hstep ih =>
    have hi := trace_inv ht
    intro c hc hst
    have hlive : c.Live := Or.inr (Or.inl hst)
    have of_from : From s1.cises c → c.role = .peripheral := by
      rintro ⟨x, hx, h1, -, -, h4⟩
      have e3 : x.role = c.role := congrArg (·.2.2.2) h1
      rw [← e3]
      rcases h4 with h4 | ⟨-, h4⟩
      · exact ih x hx (h4.trans hst)
      · rw [hst] at h4; cases h4
    cases ho : op.starts with
    | false =>
      rcases step_back hi ho hstep with hb | ⟨acl, q, d, -, -, hs, hrole, -⟩
      · exact of_from (hb c hc hlive)
      · rw [hs] at hc
        rcases List.mem_append.1 hc with hc | hc
        · exact ih c hc hst
        · rw [List.mem_singleton] at hc; subst hc; exact hrole
    | true =>
      rcases start_back ho hstep with ⟨rfl, hz⟩ | ⟨sa, o1, o2, o3, rfl, -, -, hd, hback, -, -⟩
      · exact ih c hc hst
      · rcases dequeue_back hd with ⟨hb, rfl⟩ | ⟨r, p, q, c₀, hr, rfl, -, -, -, -, hb⟩
        · exact of_from (hback.trans hb c hc hlive)
        · rcases hb c hc hlive with ⟨hfrom, -⟩ | ⟨y, hy, -, -, -, -, y5⟩
          · refine of_from ?_
            exact hback.trans (c := [c]) (fun c' hc' _ => by
              rw [List.mem_singleton] at hc'; subst hc'; exact hfrom) c (by simp) hlive
          · rw [y5] at hst; cases hst

theorem checkCreates_codes {s : State} {rs : List CisRequest} {cs : List (Nat × Nat)} {e : ErrorCode}
    (h : checkCreates s rs cs = .error e) : e ∈ [2, 0x0B, 0x0C, 0x12] := by
  induction cs generalizing rs with
  | nil => cases h
  | cons p cs ih =>
    simp only [checkCreates] at h
    split at h
    · rename_i he
      cases h
      unfold checkCreate at he
      repeat' split at he
      all_goals (cases he) <;> decide
    · exact ih h

/-- What the note tells of a stream. -/
theorem phaseOf_offered {s : State} {h acl : Nat} (hp : phaseOf s h = .offered acl) (hi : Inv s) :
    ∃ c, findCis s.cises h = some c ∧ c.state = .pendingAccept ∧ c.acl = some acl := by
  unfold phaseOf at hp
  split at hp
  · cases hp
  cases hc : findCis s.cises h with
  | none => rw [hc] at hp; cases hp
  | some c =>
    rw [hc] at hp
    simp only [Option.map_some, Option.getD_some] at hp
    have hok := hi.cises c (findCis_some hc).1
    refine ⟨c, rfl, ?_⟩
    unfold Cis.phase at hp
    cases hst : c.state <;> rw [hst] at hp <;> cases hp
    obtain ⟨a, ha⟩ := Option.isSome_iff_exists.1 (hok.linked (by rw [hst]; exact nofun)).1
    rw [ha]
    exact ⟨rfl, rfl⟩

theorem phaseOf_established {s : State} {h acl : Nat} (hp : phaseOf s h = .established acl) (hi : Inv s) :
    ∃ c, findCis s.cises h = some c ∧ c.state = .connected ∧ c.acl = some acl := by
  unfold phaseOf at hp
  split at hp
  · cases hp
  cases hc : findCis s.cises h with
  | none => rw [hc] at hp; cases hp
  | some c =>
    rw [hc] at hp
    simp only [Option.map_some, Option.getD_some] at hp
    have hok := hi.cises c (findCis_some hc).1
    refine ⟨c, rfl, ?_⟩
    unfold Cis.phase at hp
    cases hst : c.state <;> rw [hst] at hp <;> cases hp
    obtain ⟨a, ha⟩ := Option.isSome_iff_exists.1 (hok.linked (by rw [hst]; exact nofun)).1
    rw [ha]
    exact ⟨rfl, rfl⟩

theorem phaseOf_asked {s : State} {h acl : Nat} (hp : phaseOf s h = .asked acl) (hi : Inv s) (hq : Queue s) :
    (∃ r ∈ s.requests, r.handle = h ∧ r.acl = acl ∧ ∃ c, findCis s.cises h = some c ∧ c.state = .configuration) ∨
    ∃ c, findCis s.cises h = some c ∧ (c.state = .pendingRsp ∨ c.state = .pendingInd) ∧ c.acl = some acl := by
  unfold phaseOf at hp
  split at hp
  · rename_i r hr
    cases hp
    have hm := List.mem_of_find?_eq_some hr
    have hh : r.handle = h := by simpa using List.find?_some hr
    obtain ⟨c, hc, hcs, -⟩ := hq.valid r hm
    rw [hh] at hc
    exact .inl ⟨r, hm, hh, rfl, c, hc, hcs⟩
  cases hc : findCis s.cises h with
  | none => rw [hc] at hp; cases hp
  | some c =>
    rw [hc] at hp
    simp only [Option.map_some, Option.getD_some] at hp
    have hok := hi.cises c (findCis_some hc).1
    refine .inr ⟨c, rfl, ?_⟩
    unfold Cis.phase at hp
    cases hst : c.state <;> rw [hst] at hp <;> cases hp
    all_goals
      obtain ⟨a, ha⟩ := Option.isSome_iff_exists.1 (hok.linked (by rw [hst]; exact nofun)).1
      rw [ha]
    · exact ⟨.inl rfl, rfl⟩
    · exact ⟨.inr rfl, rfl⟩

theorem phaseOf_idle {s : State} {h : Nat} (hp : phaseOf s h = .idle) :
    findCis s.cises h = none ∨ ∃ c, findCis s.cises h = some c ∧ c.state = .configuration := by
  unfold phaseOf at hp
  split at hp
  · cases hp
  cases hc : findCis s.cises h with
  | none => exact .inl rfl
  | some c =>
    rw [hc] at hp
    simp only [Option.map_some, Option.getD_some] at hp
    refine .inr ⟨c, rfl, ?_⟩
    unfold Cis.phase at hp
    cases hst : c.state <;> rw [hst] at hp <;> first | rfl | cases hp

end Verif.Iso
