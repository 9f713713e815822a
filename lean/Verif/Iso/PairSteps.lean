import Verif.Iso.PairLemmas
/-! # Steps of two devices, for C116 -/
namespace Verif.Iso
open Verif.Le

def Cis.ids (c : Cis) : Id := (c.cigId, c.cisId)

/-- There is a stream `y` in the state `st`. -/
def HasSt (l : List Cis) (y : Id) (st : CisState) : Prop := ∃ c ∈ l, c.ids = y ∧ c.state = st

/-- The streams that are more than configured have different identifiers. -/
def Uniq (l : List Cis) : Prop :=
  ∀ c ∈ l, ∀ d ∈ l, c.ids = d.ids → c.state ≠ .configuration → d.state ≠ .configuration → c = d

/-- The streams that are more than configured. -/
def mapOf (l : List Cis) : Map := fun y =>
  (l.find? (fun c => c.ids = y ∧ c.state ≠ .configuration)).map (·.state)

theorem mapOf_some {l : List Cis} {y : Id} {st : CisState} (h : mapOf l y = some st) :
    HasSt l y st ∧ st ≠ .configuration := by
  unfold mapOf at h
  cases hf : l.find? (fun c => c.ids = y ∧ c.state ≠ .configuration) with
  | none => rw [hf] at h; cases h
  | some c =>
    rw [hf] at h
    cases h
    have := List.find?_some hf
    simp only [decide_eq_true_eq] at this
    exact ⟨⟨c, List.mem_of_find?_eq_some hf, this.1, rfl⟩, this.2⟩

theorem mapOf_iff {l : List Cis} (hu : Uniq l) {y : Id} {st : CisState} (hs : st ≠ .configuration) :
    mapOf l y = some st ↔ HasSt l y st := by
  refine ⟨fun h => (mapOf_some h).1, ?_⟩
  rintro ⟨c, hc, hy, rfl⟩
  unfold mapOf
  cases hf : l.find? (fun c => c.ids = y ∧ c.state ≠ .configuration) with
  | none =>
    rw [List.find?_eq_none] at hf
    exact absurd (by simpa using ⟨hy, hs⟩) (hf c hc)
  | some d =>
    have := List.find?_some hf
    simp only [decide_eq_true_eq] at this
    rw [hu c hc d (List.mem_of_find?_eq_some hf) (by rw [hy, this.1]) hs this.2]
    rfl

theorem mapOf_eq {l : List Cis} {g : Map} (hu : Uniq l) (h : ∀ y st, st ≠ .configuration → (HasSt l y st ↔ g y = some st))
    (hg : ∀ y, g y ≠ some .configuration) : mapOf l = g := by
  funext y
  apply Option.ext
  intro st
  by_cases hs : st = .configuration
  · subst hs
    exact ⟨fun hx => absurd rfl (mapOf_some hx).2, fun hx => absurd hx (hg y)⟩
  · rw [mapOf_iff hu hs, h y st hs]

theorem mapOf_conf {l : List Cis} (y : Id) : mapOf l y ≠ some .configuration := fun h => (mapOf_some h).2 rfl

/-! ### Changes of the tables -/

/-- No other stream has the identifiers of `c`, except in its configuration. -/
def Sole (l : List Cis) (c : Cis) : Prop := ∀ d ∈ l, d.ids = c.ids → d.state ≠ .configuration → d = c

theorem Uniq.sole {l : List Cis} (hu : Uniq l) {c : Cis} (hc : c ∈ l) (hs : c.state ≠ .configuration) : Sole l c :=
  fun d hd he hds => hu d hd c hc he hds hs

theorem mem_update_self {l : List Cis} {c : Cis} (hc : c ∈ l) (f : Cis → Cis) : f c ∈ updateCis l c.handle f :=
  List.mem_map.2 ⟨c, hc, if_pos rfl⟩

theorem mem_update_other {l : List Cis} {c : Cis} {h : Nat} (hc : c ∈ l) (hh : c.handle ≠ h) (f : Cis → Cis) : c ∈ updateCis l h f :=
  List.mem_map.2 ⟨c, hc, if_neg hh⟩

theorem mem_eraseCis {l : List Cis} {c : Cis} {h : Nat} : c ∈ eraseCis l h ↔ c ∈ l ∧ c.handle ≠ h := by
  unfold eraseCis
  rw [List.mem_filter]
  simp

theorem has_update {l : List Cis} {c : Cis} {f : Cis → Cis} (hi : IdsOk (l.map Cis.ident)) (hc : c ∈ l) (hs : Sole l c)
    (hf : (f c).ids = c.ids) {z : Id} {st : CisState} (hst : st ≠ .configuration) :
    HasSt (updateCis l c.handle f) z st ↔ (z = c.ids ∧ (f c).state = st) ∨ (z ≠ c.ids ∧ HasSt l z st) := by
  constructor
  · rintro ⟨d, hd, hz, hd'⟩
    obtain ⟨c₀, hm, ⟨hh, rfl⟩ | ⟨hh, rfl⟩⟩ := mem_updateCis hd
    · have := eq_of_handle hi hm hc hh
      subst this
      exact .inl ⟨by rw [← hz, hf], hd'⟩
    · refine .inr ⟨fun e => hh ?_, d, hm, hz, hd'⟩
      rw [hs d hm (by rw [hz, e]) (by rw [hd']; exact hst)]
  · rintro (⟨rfl, h⟩ | ⟨hz, d, hd, hdz, hd'⟩)
    · exact ⟨f c, mem_update_self hc f, hf, h⟩
    · refine ⟨d, mem_update_other hd (fun e => hz ?_) f, hdz, hd'⟩
      rw [← hdz, eq_of_handle hi hd hc e]

theorem has_erase {l : List Cis} {c : Cis} (hi : IdsOk (l.map Cis.ident)) (hc : c ∈ l) (hs : Sole l c)
    {z : Id} {st : CisState} (hst : st ≠ .configuration) :
    HasSt (eraseCis l c.handle) z st ↔ (z ≠ c.ids ∧ HasSt l z st) := by
  constructor
  · rintro ⟨d, hd, hz, hd'⟩
    obtain ⟨hm, hh⟩ := mem_eraseCis.1 hd
    refine ⟨fun e => hh ?_, d, hm, hz, hd'⟩
    rw [hs d hm (by rw [hz, e]) (by rw [hd']; exact hst)]
  · rintro ⟨hz, d, hd, hdz, hd'⟩
    refine ⟨d, mem_eraseCis.2 ⟨hd, fun e => hz ?_⟩, hdz, hd'⟩
    rw [← hdz, eq_of_handle hi hd hc e]

theorem uniq_update {l : List Cis} {c : Cis} {f : Cis → Cis} (hi : IdsOk (l.map Cis.ident)) (hc : c ∈ l) (hs : Sole l c)
    (hf : (f c).ids = c.ids) (hu : Uniq l) : Uniq (updateCis l c.handle f) := by
  intro a ha b hb he ha' hb'
  obtain ⟨a₀, hm, ⟨hh, rfl⟩ | ⟨hh, rfl⟩⟩ := mem_updateCis ha
  · have := eq_of_handle hi hm hc hh
    subst this
    obtain ⟨b₀, hn, ⟨hk, rfl⟩ | ⟨hk, rfl⟩⟩ := mem_updateCis hb
    · rw [eq_of_handle hi hn hm hk]
    · exact absurd (by rw [hs b hn (by rw [← he, hf]) hb']) hk
  · obtain ⟨b₀, hn, ⟨hk, rfl⟩ | ⟨hk, rfl⟩⟩ := mem_updateCis hb
    · have := eq_of_handle hi hn hc hk
      subst this
      exact absurd (by rw [hs a hm (by rw [he, hf]) ha']) hh
    · exact hu a hm b hn he ha' hb'

theorem uniq_erase {l : List Cis} {h : Nat} (hu : Uniq l) : Uniq (eraseCis l h) := fun a ha b hb =>
  hu a (mem_eraseCis.1 ha).1 b (mem_eraseCis.1 hb).1

/-- The same as far as the protocol is concerned. -/
structure Same (c d : Cis) : Prop where
  handle : d.handle = c.handle
  ids : d.ids = c.ids
  role : d.role = c.role
  acl : d.acl = c.acl
  state : d.state = c.state

theorem Same.refl (c : Cis) : Same c c := ⟨rfl, rfl, rfl, rfl, rfl⟩

/-- Only streams in their configuration come or go. -/
structure Grow (l k : List Cis) : Prop where
  fwd : ∀ c ∈ l, c.state ≠ .configuration → ∃ d ∈ k, Same c d
  bwd : ∀ d ∈ k, (∃ c ∈ l, Same c d) ∨ (d.role = .central ∧ d.state = .configuration ∧ d.acl = none)

theorem Grow.refl (l : List Cis) : Grow l l := ⟨fun c hc _ => ⟨c, hc, .refl c⟩, fun c hc => .inl ⟨c, hc, .refl c⟩⟩

theorem Grow.has {l k : List Cis} (h : Grow l k) {y : Id} {st : CisState} (hs : st ≠ .configuration) : HasSt k y st ↔ HasSt l y st := by
  constructor
  · rintro ⟨d, hd, rfl, rfl⟩
    rcases h.bwd d hd with ⟨c, hc, e⟩ | ⟨-, e, -⟩
    · exact ⟨c, hc, e.ids.symm, e.state.symm⟩
    · exact absurd e hs
  · rintro ⟨c, hc, rfl, rfl⟩
    obtain ⟨d, hd, e⟩ := h.fwd c hc hs
    exact ⟨d, hd, e.ids, e.state⟩

theorem Grow.uniq {l k : List Cis} (h : Grow l k) (hi : IdsOk (k.map Cis.ident)) (hu : Uniq l) : Uniq k := by
  intro a ha b hb he ha' hb'
  rcases h.bwd a ha with ⟨c, hc, e1⟩ | ⟨-, e, -⟩
  · rcases h.bwd b hb with ⟨d, hd, e2⟩ | ⟨-, e, -⟩
    · have : c = d := hu c hc d hd (by rw [← e1.ids, ← e2.ids, he]) (by rw [← e1.state]; exact ha') (by rw [← e2.state]; exact hb')
      subst this
      exact eq_of_handle hi ha hb (by rw [e1.handle, e2.handle])
    · exact absurd e hb'
  · exact absurd e ha'

theorem Grow.perm {l k : List Cis} (h : k.Perm l) : Grow l k :=
  ⟨fun c hc _ => ⟨c, h.symm.mem_iff.1 hc, .refl c⟩, fun c hc => .inl ⟨c, h.mem_iff.1 hc, .refl c⟩⟩

theorem Grow.update {l : List Cis} {h : Nat} {f : Cis → Cis} (hf : ∀ c, Same c (f c)) : Grow l (updateCis l h f) := by
  constructor
  · intro c hc _
    by_cases hh : c.handle = h
    · exact ⟨f c, by rw [← hh]; exact mem_update_self hc f, hf c⟩
    · exact ⟨c, mem_update_other hc hh f, .refl c⟩
  · intro d hd
    obtain ⟨c, hm, ⟨-, rfl⟩ | ⟨-, rfl⟩⟩ := mem_updateCis hd
    · exact .inl ⟨c, hm, hf c⟩
    · exact .inl ⟨d, hm, .refl d⟩

theorem Grow.configured {s s' : State} {k : Nat} {g : CigConfig} {cs : List NewCis} {hs : List Nat} (h : Configured s s' k g cs hs) :
    Grow s.cises s'.cises := by
  constructor
  · exact fun c hc _ => ⟨c, h.kept c hc, .refl c⟩
  · intro d hd
    rcases h.added d hd with hd | ⟨-, h1, h2, _, -, h3⟩
    · exact .inl ⟨d, hd, .refl d⟩
    · exact .inr ⟨h3.1, h1, h2⟩

/-! ### Commands that do not concern the peer -/

/-- Only events. -/
def Mute (outs : List Out) : Prop := ∀ acl, sentOver acl outs = []

theorem mute_event (e : Event) : Mute [.event e] := fun _ => rfl

/-- What such a command does. -/
structure Calm (s s' : State) (outs : List Out) : Prop where
  acls : s'.acls = s.acls
  requests : s'.requests = s.requests
  mute : Mute outs
  grow : Grow s.cises s'.cises

theorem Calm.answer (s : State) (e : Event) : Calm s s [.event e] := ⟨rfl, rfl, mute_event e, .refl _⟩

/-- The commands with no effect on the streams that are more than configured. -/
def Cmd.isCalm : Cmd → Bool
  | .createCis .. | .acceptCis .. | .rejectCis .. | .disconnect .. => false
  | _ => true

theorem calm_cmd {env : Env} {s s' : State} {c : Cmd} {outs : List Out} (hi : Inv s) (hc : c.isCalm = true)
    (h : runCmd env s c = .ok (s', outs)) : Calm s s' outs := by
  cases c <;> first | (cases hc; done) | skip
  case setCig =>
    simp only [runCmd, setCig] at h
    repeat' split at h
    all_goals first
      | (cases h; done)
      | (obtain ⟨rfl, rfl⟩ := answer_ok h; exact .answer _ _)
      | (rename_i hcfg; obtain ⟨rfl, rfl⟩ := answer_ok h
         have hcc := configured_of hi hcfg
         exact ⟨hcc.acls, hcc.requests, mute_event _, .configured hcc⟩)
  case setCigTest =>
    simp only [runCmd, setCigTest] at h
    repeat' split at h
    all_goals first
      | (cases h; done)
      | (obtain ⟨rfl, rfl⟩ := answer_ok h; exact .answer _ _)
      | (rename_i hcfg; obtain ⟨rfl, rfl⟩ := answer_ok h
         have hcc := configured_of hi hcfg
         exact ⟨hcc.acls, hcc.requests, mute_event _, .configured hcc⟩)
  case removeCig k =>
    simp only [runCmd, removeCig] at h
    split at h
    · obtain ⟨rfl, rfl⟩ := answer_ok h; exact .answer _ _
    split at h
    · obtain ⟨rfl, rfl⟩ := answer_ok h; exact .answer _ _
    rename_i hbusy
    obtain ⟨rfl, rfl⟩ := answer_ok h
    refine ⟨rfl, rfl, mute_event _, ⟨fun c hc hs => ⟨c, List.mem_filter.2 ⟨hc, ?_⟩, .refl c⟩, fun d hd => .inl ⟨d, (List.mem_filter.1 hd).1, .refl d⟩⟩⟩
    have := fun hx => hbusy (List.any_eq_true.2 ⟨c, hc, hx⟩)
    by_cases h1 : c.role = .central
    · by_cases h2 : c.cigId = k
      · exact absurd (by simp [h1, h2, hs]) this
      · simp [h2]
    · simp [h1]
  case setupPath a b c d =>
    simp only [runCmd, setupPath] at h
    repeat' split at h
    all_goals
      obtain ⟨rfl, rfl⟩ := answer_ok h
      first
        | exact .answer _ _
        | exact ⟨rfl, rfl, mute_event _, .refl _⟩
        | exact ⟨rfl, rfl, mute_event _, .update fun c => by split <;> exact ⟨rfl, rfl, rfl, rfl, rfl⟩⟩
  case removePath a b c =>
    simp only [runCmd, removePath] at h
    repeat' split at h
    all_goals
      obtain ⟨rfl, rfl⟩ := answer_ok h
      first
        | exact .answer _ _
        | exact ⟨rfl, rfl, mute_event _, .refl _⟩
        | exact ⟨rfl, rfl, mute_event _, .update fun c => ⟨rfl, rfl, rfl, rfl, rfl⟩⟩
  case createBig b a n i m l p =>
    simp only [runCmd] at h
    rcases createBig_cases (env := env) (s := s) (b := b) (a := a) (n := n) (i := i) (m := m) (l := l) (p := p)
      with ⟨e, he, hx⟩ | ⟨-, -, hx⟩
    · rw [hx] at h; cases h; exact .answer _ _
    · rw [hx] at h
      split at h
      · cases h
      · cases h
        exact ⟨rfl, rfl, fun _ => rfl, .refl _⟩
  case terminateBig b r =>
    simp only [runCmd, terminateBig] at h
    repeat' split at h
    · obtain ⟨rfl, rfl⟩ := answer_ok h; exact .answer _ _
    · obtain ⟨rfl, rfl⟩ := answer_ok h; exact .answer _ _
    · cases h
      exact ⟨rfl, rfl, fun _ => rfl, .refl _⟩
  case malformed => cases h

/-! ### The central -/

/-- A stream of the central. -/
structure CentralCis (la : Nat) (c : Cis) : Prop where
  role : c.role = .central
  state : c.state = .configuration ∨ c.state = .pendingRsp ∨ c.state = .connected
  acl : c.state ≠ .configuration → c.acl = some la

structure Central (la : Nat) (s : State) : Prop where
  acls : s.acls = [(la, .central)]
  requests : ∀ r ∈ s.requests, r.acl = la
  cises : ∀ c ∈ s.cises, CentralCis la c

theorem same_ids {s : State} (hi : Inv s) {la : Nat} (hp : Central la s) {c d : Cis} (hc : c ∈ s.cises) (hd : d ∈ s.cises)
    (he : c.ids = d.ids) : c = d := by
  refine eq_of_handle hi.ids hc hd ?_
  have := hi.ids.unique c.ident (List.mem_map_of_mem hc) d.ident (List.mem_map_of_mem hd) (hp.cises c hc).role (by
    have h1 := (hp.cises c hc).role
    have h2 := (hp.cises d hd).role
    simp only [Cis.ids, Prod.mk.injEq] at he
    simp [Cis.ident, he.1, he.2, h1, h2])
  exact congrArg (·.1) this

theorem central_sole {s : State} (hi : Inv s) {la : Nat} (hp : Central la s) {c : Cis} (hc : c ∈ s.cises) : Sole s.cises c :=
  fun _ hd he _ => same_ids hi hp hd hc he

theorem Central.calm {la : Nat} {s s' : State} {outs : List Out} (hp : Central la s) (h : Calm s s' outs) : Central la s' := by
  refine ⟨by rw [h.acls]; exact hp.acls, by rw [h.requests]; exact hp.requests, fun d hd => ?_⟩
  rcases h.grow.bwd d hd with ⟨c, hc, e⟩ | ⟨h1, h2, -⟩
  · have := hp.cises c hc
    exact ⟨by rw [e.role]; exact this.role, by rw [e.state]; exact this.state, by rw [e.state, e.acl]; exact this.acl⟩
  · exact ⟨h1, .inl h2, fun hx => absurd h2 hx⟩

theorem Central.update {la : Nat} {s : State} {h : Nat} {f : Cis → Cis} (hp : Central la s)
    (hf : ∀ c ∈ s.cises, c.handle = h → CentralCis la (f c)) : Central la (setCises s (updateCis s.cises h f)) := by
  refine ⟨hp.acls, hp.requests, fun d hd => ?_⟩
  obtain ⟨c, hm, ⟨hh, rfl⟩ | ⟨-, rfl⟩⟩ := mem_updateCis hd
  · exact hf c hm hh
  · exact hp.cises d hm

/-- The central starts the next request. -/
theorem central_next {la : Nat} {s s' : State} {outs : List Out} (hi : Inv s) (hq : Queue s) (hp : Central la s)
    (h : dequeue s = .ok (s', outs)) : Central la s' ∧ ((s' = s ∧ outs = []) ∨ ∃ x q, outs = [.llcp la (.cisReq q)] ∧
      (q.cigId, q.cisId) = x ∧ (∀ st, st ≠ .configuration → ¬ HasSt s.cises x st) ∧
      ∀ z st, st ≠ .configuration → (HasSt s'.cises z st ↔ (z = x ∧ .pendingRsp = st) ∨ (z ≠ x ∧ HasSt s.cises z st))) := by
  rcases dequeue_cases h with ⟨-, rfl, rfl⟩ | ⟨r, rest, p, c, hr, hf, rfl, q, rfl, h1, h2⟩
  · exact ⟨hp, .inl ⟨rfl, rfl⟩⟩
  · obtain ⟨hm, hh⟩ := findCis_some hf
    obtain ⟨d, hd, g1, g2, g3, g4⟩ := hq.valid r (by rw [hr]; exact .head _)
    rw [hf] at hd
    cases hd
    have hra : r.acl = la := hp.requests r (by rw [hr]; exact .head _)
    have hx : c.ids = (q.cigId, q.cisId) := by rw [h1, h2, ← g3, ← g4]; rfl
    refine ⟨⟨hp.acls, fun y hy => hp.requests y (by rw [hr]; exact .tail _ hy), fun d hd => ?_⟩, .inr ⟨_, q, by rw [hra], rfl, ?_, ?_⟩⟩
    · obtain ⟨c₀, hm', ⟨-, rfl⟩ | ⟨-, rfl⟩⟩ := mem_updateCis hd
      · exact ⟨(hp.cises c₀ hm').role, .inr (.inl rfl), fun _ => by rw [hra]⟩
      · exact hp.cises d hm'
    · rintro st hst ⟨d, hd, he, rfl⟩
      rw [same_ids hi hp hd hm (by rw [he, hx]), g1] at hst
      exact hst rfl
    · intro z st hst
      rw [← hx, ← hh]
      exact has_update hi.ids hm (central_sole hi hp hm) rfl hst

theorem sent_append (acl : Nat) (a b : List Out) : sentOver acl (a ++ b) = sentOver acl a ++ sentOver acl b :=
  List.filterMap_append

theorem sent_cons (acl : Nat) (p : Pdu) (b : List Out) : sentOver acl (.llcp acl p :: b) = p :: sentOver acl b := by
  simp [sentOver]

theorem sent_event (acl : Nat) (e : Event) (b : List Out) : sentOver acl (.event e :: b) = sentOver acl b := by
  simp [sentOver]

/-- What the central sends with a request. -/
theorem next_proto {la : Nat} {s s' : State} {outs : List Out} {m : Map} {ab ba : List Msg} (hi : Inv s) (hq : Queue s) (hp : Central la s)
    (h : dequeue s = .ok (s', outs)) (hw : ∀ y, ¬ HasSt s.cises y .pendingRsp)
    (hx : Proto (HasSt s.cises · .pendingRsp) (HasSt s.cises · .connected) m ab ba) :
    Central la s' ∧ Proto (HasSt s'.cises · .pendingRsp) (HasSt s'.cises · .connected) m (ab ++ (sentOver la outs).map Pdu.msg) ba := by
  obtain ⟨h1, ⟨rfl, rfl⟩ | ⟨x, q, rfl, he, hn, hs⟩⟩ := central_next hi hq hp h
  · refine ⟨h1, ?_⟩
    simpa [sentOver] using hx
  · refine ⟨h1, ?_⟩
    rw [sent_cons]
    show Proto _ _ m (ab ++ [.req (q.cigId, q.cisId)]) ba
    rw [he]
    refine (hx.ask hw (x := x) (hn _ nofun) (wait' := (HasSt s'.cises · .pendingRsp)) (fun y => ?_)).congr (fun _ => .rfl) (fun y => ?_)
    · rw [hs y .pendingRsp nofun]
      constructor
      · rintro (⟨e, -⟩ | ⟨-, e⟩)
        · exact e
        · exact absurd e (hw y)
      · exact fun e => .inl ⟨e, rfl⟩
    · rw [hs y .connected nofun]
      constructor
      · rintro (⟨-, e⟩ | ⟨-, e⟩)
        · cases e
        · exact e
      · exact fun e => .inr ⟨fun e' => hn .connected nofun (e' ▸ e), e⟩

theorem Proto.grow {l k : List Cis} {m : Map} {ab ba : List Msg} (hg : Grow l k)
    (hx : Proto (HasSt l · .pendingRsp) (HasSt l · .connected) m ab ba) : Proto (HasSt k · .pendingRsp) (HasSt k · .connected) m ab ba :=
  hx.congr (fun _ => hg.has nofun) (fun _ => hg.has nofun)

/-- A command of the central's host. -/
theorem central_cmd {env : Env} {la : Nat} {s s' : State} {c : Cmd} {outs : List Out} {m : Map} {ab ba : List Msg}
    (hi : Inv s) (hp : Central la s)
    (h : runCmd env s c = .ok (s', outs))
    (h1 : ∀ cs, c = .createCis cs → s.requests = [] ∧ ∀ c ∈ s.cises, c.state ≠ .pendingRsp)
    (h2 : ∀ h r, c = .disconnect h r → (∀ c ∈ s.cises, c.handle = h → c.state ≠ .pendingRsp) ∧ ∀ z, .term z ∉ ba)
    (hx : Proto (HasSt s.cises · .pendingRsp) (HasSt s.cises · .connected) m ab ba) :
    Central la s' ∧ Proto (HasSt s'.cises · .pendingRsp) (HasSt s'.cises · .connected) m (ab ++ (sentOver la outs).map Pdu.msg) ba := by
  have calm : ∀ {s1 outs1}, Calm s s1 outs1 →
      Central la s1 ∧ Proto (HasSt s1.cises · .pendingRsp) (HasSt s1.cises · .connected) m (ab ++ (sentOver la outs1).map Pdu.msg) ba := by
    intro s1 outs1 hc
    refine ⟨hp.calm hc, ?_⟩
    rw [hc.mute la, List.map_nil, List.append_nil]
    exact hx.grow hc.grow
  cases hc : c.isCalm with
  | true => exact calm (calm_cmd hi hc h)
  | false =>
    cases c <;> first | (cases hc; done) | skip
    case createCis cs =>
      obtain ⟨hr, hn⟩ := h1 cs rfl
      simp only [runCmd, createCis] at h
      split at h
      · obtain ⟨rfl, rfl⟩ := answer_ok h; exact calm (.answer _ _)
      rename_i rs hrs
      split at h
      · obtain ⟨rfl, rfl⟩ := answer_ok h; exact calm (.answer _ _)
      split at h
      · obtain ⟨rfl, rfl⟩ := answer_ok h; exact calm (.answer _ _)
      split at h
      · cases h
      rename_i cigs hl
      split at h
      · cases h
      rename_i s1 o1 hd
      cases h
      obtain ⟨new, hnew, -, g2, g3⟩ := checkCreates_ok hrs
      rw [List.nil_append] at hnew
      subst hnew
      have hq1 : Queue { s with cigs := cigs, requests := rs } := by
        refine ⟨g3 List.nodup_nil, ?_⟩
        intro r hr
        obtain ⟨-, c, hc, h4, h5, h6, h7⟩ := g2 r hr
        have := findCis_of_mem hi hc
        rw [h4] at this
        exact ⟨c, this, h5, (hp.cises c hc).role, h6, h7⟩
      have hi1 : Inv { s with cigs := cigs, requests := rs } :=
        ⟨fun c hc => (hi.cises c hc).mono (fun _ hx => hx) (fun _ hx => lockCigs_isSome hl _ hx), hi.ids, hi.bisNodup, hi.bisRange⟩
      have hp1 : Central la { s with cigs := cigs, requests := rs } := by
        refine ⟨hp.acls, fun r hr => ?_, hp.cises⟩
        have := (g2 r hr).1
        rw [hp.acls, mapFind_cons, mapFind_nil] at this
        split at this
        · rename_i e; exact e.symm
        · cases this
      rw [sent_append]
      have hev : sentOver la [Out.event (.createCisStatus success)] = [] := rfl
      rw [hev, List.append_nil]
      exact next_proto hi1 hq1 hp1 hd (fun y ⟨c, hc, _, he⟩ => hn c hc he) hx
    case acceptCis h0 =>
      simp only [runCmd, acceptCis] at h
      split at h
      · obtain ⟨rfl, rfl⟩ := answer_ok h; exact calm (.answer _ _)
      rename_i c hf
      rw [if_pos (hp.cises c (findCis_some hf).1).role] at h
      obtain ⟨rfl, rfl⟩ := answer_ok h
      exact calm (.answer _ _)
    case rejectCis h0 r =>
      simp only [runCmd, rejectCis] at h
      split at h
      · obtain ⟨rfl, rfl⟩ := answer_ok h; exact calm (.answer _ _)
      rename_i c hf
      rw [if_pos (hp.cises c (findCis_some hf).1).role] at h
      obtain ⟨rfl, rfl⟩ := answer_ok h
      exact calm (.answer _ _)
    case disconnect h0 r =>
      obtain ⟨g1, g2⟩ := h2 h0 r rfl
      simp only [runCmd, disconnect] at h
      split at h
      · obtain ⟨rfl, rfl⟩ := answer_ok h; exact calm (.answer _ _)
      rename_i c hf
      obtain ⟨hm, rfl⟩ := findCis_some hf
      have hnp := g1 c hm rfl
      split at h
      · obtain ⟨rfl, rfl⟩ := answer_ok h; exact calm (.answer _ _)
      rename_i hst
      have hst : c.state = .connected := Decidable.byContradiction fun e => hst ⟨e, hnp⟩
      have hla := (hp.cises c hm).acl (by rw [hst]; exact nofun)
      rw [hla] at h
      simp only [(hp.cises c hm).role, if_true, Except.ok.injEq, Prod.mk.injEq] at h
      obtain ⟨rfl, rfl⟩ := h
      have hs := fun z st hs => has_update (f := fun c => { c with state := .configuration }) hi.ids hm (central_sole hi hp hm) rfl (z := z) (st := st) hs
      refine ⟨hp.update (fun c hc _ => ⟨(hp.cises c hc).role, .inl rfl, fun e => absurd rfl e⟩), ?_⟩
      rw [sent_cons]
      show Proto _ _ m (ab ++ [.term c.ids]) ba
      refine (hx.finish (y := c.ids) ⟨c, hm, rfl, hst⟩ g2 (conn' := (HasSt (updateCis s.cises c.handle _) · .connected)) (fun z => ?_)).congr
        (fun z => ?_) (fun _ => .rfl)
      · rw [hs z .connected nofun]
        simp only [reduceCtorEq, and_false, false_or]
        exact and_comm
      · show HasSt (updateCis s.cises c.handle _) z _ ↔ _
        rw [hs z .pendingRsp nofun]
        simp only [reduceCtorEq, and_false, false_or]
        refine ⟨fun e => e.2, fun e => ⟨?_, e⟩⟩
        rintro rfl
        obtain ⟨d, hd, he, hds⟩ := e
        rw [same_ids hi hp hd hm he] at hds
        exact hnp hds

/-- A PDU arrives at the central. -/
theorem central_pdu {la : Nat} {s s' : State} {x : Pdu} {outs : List Out} {m : Map} {ab rest : List Msg} (hi : Inv s) (hq : Queue s)
    (hp : Central la s) (h : runPdu s la x = .ok (s', outs))
    (hx : Proto (HasSt s.cises · .pendingRsp) (HasSt s.cises · .connected) m ab (x.msg :: rest)) :
    KeepsQueued s (.llcp la x) ∧
    Central la s' ∧ Proto (HasSt s'.cises · .pendingRsp) (HasSt s'.cises · .connected) m (ab ++ (sentOver la outs).map Pdu.msg) rest := by
  cases x with
  | cisReq r => rcases hx.up _ (.head _) with e | e | ⟨y, e⟩ <;> cases e
  | cisInd a b => rcases hx.up _ (.head _) with e | e | ⟨y, e⟩ <;> cases e
  | other => cases h
  | malformed => cases h
  | cisRsp =>
    refine ⟨trivial, ?_⟩
    have hx : Proto (HasSt s.cises · .pendingRsp) (HasSt s.cises · .connected) m ab (.rsp :: rest) := hx
    have hwait := fun wait' conn' => hx.accepted (wait' := wait') (conn' := conn')
    simp only [runPdu, cisRsp] at h
    cases ha : awaitingRsp s la with
    | none =>
      obtain ⟨x, h1, -⟩ := hwait (fun _ => False) (fun _ => False)
      obtain ⟨c, hc, -, hst⟩ := (h1 x).2 rfl
      unfold awaitingRsp at ha
      rw [List.find?_eq_none] at ha
      have hcc := hp.cises c hc
      exact absurd (by simp [hcc.role, hst, hcc.acl (by rw [hst]; exact nofun)]) (ha c hc)
    | some c =>
      obtain ⟨hm, hacl, -, hst⟩ := awaitingRsp_some ha
      have hne : c.state ≠ .configuration := by rw [hst]; exact nofun
      rw [ha] at h
      simp only at h
      split at h
      · cases h
      split at h
      · cases h
      rename_i e he
      split at h
      · cases h
      rename_i s1 o1 hd
      obtain ⟨rfl, rfl⟩ := send_ok h
      have hs := fun z st hs => has_update (f := fun c => { c with state := .connected }) hi.ids hm (central_sole hi hp hm) rfl (z := z) (st := st) hs
      have hp1 : Central la (setCises s (updateCis s.cises c.handle fun c => { c with state := .connected })) :=
        hp.update (fun d hd0 hh => by
          have := eq_of_handle hi.ids hd0 hm hh
          subst this
          exact ⟨(hp.cises d hd0).role, .inr (.inr rfl), fun _ => hacl⟩)
      have hq1 := finish_queue (f := fun c => { c with state := .connected }) hi hq hm (by rw [hst]; rfl) (fun _ => rfl)
      have hi1 := connected_inv hi hm hne
      obtain ⟨x, h1, h2⟩ := hwait (HasSt (updateCis s.cises c.handle fun c => { c with state := .connected }) · .pendingRsp)
        (HasSt (updateCis s.cises c.handle fun c => { c with state := .connected }) · .connected)
      have hxc : c.ids = x := (h1 c.ids).1 ⟨c, hm, rfl, hst⟩
      subst hxc
      have hw1 : ∀ y, ¬ HasSt (updateCis s.cises c.handle fun c => { c with state := .connected }) y .pendingRsp := by
        intro y hy
        rw [hs y .pendingRsp nofun] at hy
        rcases hy with ⟨-, e⟩ | ⟨hne, e⟩
        · cases e
        · exact hne ((h1 y).1 e)
      have h3 := h2 hw1 (fun y => by
        rw [hs y .connected nofun]
        simp only [and_true]
        by_cases e : y = c.ids
        · simp [e]
        · simp [e])
      have h4 := next_proto hi1 hq1 hp1 hd hw1 h3
      rw [List.cons_append, List.cons_append, List.nil_append, sent_cons, sent_event, List.map_cons]
      show _ ∧ Proto _ _ m (ab ++ (.ind :: _)) rest
      rw [List.append_cons]
      exact h4
  | rejectExtInd op e =>
    refine ⟨trivial, ?_⟩
    have hx : Proto (HasSt s.cises · .pendingRsp) (HasSt s.cises · .connected) m ab (.rej :: rest) := hx
    have hwait := fun wait' => hx.rejected (wait' := wait')
    simp only [runPdu, rejectExtInd] at h
    split at h
    · cases h
    cases ha : awaitingRsp s la with
    | none =>
      obtain ⟨x, h1, -⟩ := hwait (fun _ => False)
      obtain ⟨c, hc, -, hst⟩ := (h1 x).2 rfl
      unfold awaitingRsp at ha
      rw [List.find?_eq_none] at ha
      have hcc := hp.cises c hc
      exact absurd (by simp [hcc.role, hst, hcc.acl (by rw [hst]; exact nofun)]) (ha c hc)
    | some c =>
      obtain ⟨hm, hacl, hrole, hst⟩ := awaitingRsp_some ha
      have hne : c.state ≠ .configuration := by rw [hst]; exact nofun
      rw [ha] at h
      simp only at h
      split at h
      · cases h
      rename_i s1 o1 hd
      cases h
      have hs := fun z st hs => has_update (f := fun c => { c with state := .configuration, params := none }) hi.ids hm (central_sole hi hp hm) rfl (z := z) (st := st) hs
      have hp1 : Central la (setCises s (updateCis s.cises c.handle fun c => { c with state := .configuration, params := none })) :=
        hp.update (fun d hd _ => ⟨(hp.cises d hd).role, .inl rfl, fun e => absurd rfl e⟩)
      have hq1 := finish_queue (f := fun c => { c with state := .configuration, params := none }) hi hq hm (by rw [hst]; rfl) (fun _ => rfl)
      have hi1 := rejected_inv hi hm hrole
      obtain ⟨x, h1, h2⟩ := hwait (HasSt (updateCis s.cises c.handle fun c => { c with state := .configuration, params := none }) · .pendingRsp)
      have hxc : c.ids = x := (h1 c.ids).1 ⟨c, hm, rfl, hst⟩
      subst hxc
      have hw1 : ∀ y, ¬ HasSt (updateCis s.cises c.handle fun c => { c with state := .configuration, params := none }) y .pendingRsp := by
        intro y hy
        rw [hs y .pendingRsp nofun] at hy
        rcases hy with ⟨-, e⟩ | ⟨hne, e⟩
        · cases e
        · exact hne ((h1 y).1 e)
      have h3 := (h2 hw1).congr (fun _ => .rfl) (conn' := (HasSt (updateCis s.cises c.handle fun c => { c with state := .configuration, params := none }) · .connected)) (fun y => by
        rw [hs y .connected nofun]
        simp only [reduceCtorEq, and_false, false_or]
        refine ⟨fun e => e.2, fun e => ⟨?_, e⟩⟩
        rintro rfl
        obtain ⟨d, hd, he, hds⟩ := e
        rw [same_ids hi hp hd hm he, hst] at hds
        cases hds)
      have h4 := next_proto hi1 hq1 hp1 hd hw1 h3
      rw [sent_event]
      exact h4
  | terminateInd i j e =>
    have hx : Proto (HasSt s.cises · .pendingRsp) (HasSt s.cises · .connected) m ab (.term (i, j) :: rest) := hx
    obtain ⟨d, hd, hdi, hds⟩ := (hx.ended (conn' := fun z => HasSt s.cises z .connected ∧ z ≠ (i, j)) (fun _ => .rfl)).1
    refine ⟨?_, ?_⟩
    · rintro r hr c hc hh ⟨-, h1, h2⟩
      obtain ⟨c', hf, g1, -⟩ := hq.valid r hr
      rw [← hh, findCis_of_mem hi hc] at hf
      cases hf
      have := same_ids hi hp hc hd (by rw [hdi, ← h1, ← h2]; rfl)
      rw [this, hds] at g1
      cases g1
    · simp only [runPdu, terminateInd] at h
      split at h
      · rename_i hf
        rw [List.find?_eq_none] at hf
        have h1 := (hp.cises d hd).acl (by rw [hds]; exact nofun)
        simp only [Cis.ids, Prod.mk.injEq] at hdi
        exact absurd (by simp [h1, hdi.1, hdi.2]) (hf d hd)
      rename_i c hf
      have hm := List.mem_of_find?_eq_some hf
      have hmatch := List.find?_some hf
      simp only [decide_eq_true_eq] at hmatch
      have hids : c.ids = (i, j) := by rw [← hmatch.2.1, ← hmatch.2.2]; rfl
      have hcd : c = d := same_ids hi hp hm hd (by rw [hids, hdi])
      subst hcd
      split at h
      · cases h
        have hs := fun z st hs => has_erase hi.ids hm (central_sole hi hp hm) (z := z) (st := st) hs
        refine ⟨⟨hp.acls, hp.requests, fun x hx => hp.cises x (mem_eraseCis.1 hx).1⟩, ?_⟩
        rw [sent_event]
        show Proto _ _ m (ab ++ []) rest
        rw [List.append_nil]
        refine (hx.ended (conn' := (HasSt (eraseCis s.cises c.handle) · .connected)) (fun z => ?_)).2.congr (fun z => ?_) (fun _ => .rfl)
        · rw [hs z .connected nofun, hids]
          exact and_comm
        · show HasSt (eraseCis s.cises c.handle) z _ ↔ _
          rw [hs z .pendingRsp nofun]
          refine ⟨fun e => e.2, fun e => ⟨?_, e⟩⟩
          rintro rfl
          obtain ⟨x, hx1, he, hxs⟩ := e
          rw [same_ids hi hp hx1 hm he, hds] at hxs
          cases hxs
      · cases h

/-! ### The peripheral -/

/-- A stream of the peripheral. -/
structure PeriCis (lb : Nat) (c : Cis) : Prop where
  own : c.state = .configuration → c.acl = none
  role : c.state ≠ .configuration → c.role = .peripheral ∧ c.acl = some lb ∧ c.state ≠ .pendingRsp

structure Peri (lb : Nat) (s : State) : Prop where
  acls : s.acls = [(lb, .peripheral)]
  requests : s.requests = []
  cises : ∀ c ∈ s.cises, PeriCis lb c
  uniq : Uniq s.cises

theorem Peri.calm {lb : Nat} {s s' : State} {outs : List Out} (hp : Peri lb s) (hi' : Inv s') (h : Calm s s' outs) :
    Peri lb s' ∧ mapOf s'.cises = mapOf s.cises := by
  have hu := h.grow.uniq hi'.ids hp.uniq
  refine ⟨⟨by rw [h.acls]; exact hp.acls, by rw [h.requests]; exact hp.requests, fun d hd => ?_, hu⟩, ?_⟩
  · rcases h.grow.bwd d hd with ⟨c, hc, e⟩ | ⟨h1, h2, h3⟩
    · have := hp.cises c hc
      exact ⟨by rw [e.state, e.acl]; exact this.own, by rw [e.state, e.acl, e.role]; exact this.role⟩
    · exact ⟨fun _ => h3, fun hx => absurd h2 hx⟩
  · refine mapOf_eq hu (fun y st hs => ?_) mapOf_conf
    rw [h.grow.has hs, mapOf_iff hp.uniq hs]

/-- One stream of the peripheral changes. -/
theorem Peri.update {lb : Nat} {s : State} {c : Cis} {f : Cis → Cis} {st : CisState} (hi : Inv s) (hp : Peri lb s) (hm : c ∈ s.cises)
    (hne : c.state ≠ .configuration) (hf : ∀ c, (f c).ids = c.ids ∧ (f c).role = c.role ∧ (f c).acl = c.acl ∧ (f c).state = st)
    (hst : st ≠ .configuration) (hst' : st ≠ .pendingRsp) :
    Peri lb { s with cises := updateCis s.cises c.handle f } ∧
    mapOf (updateCis s.cises c.handle f) = fun z => if z = c.ids then some st else mapOf s.cises z := by
  have hu := uniq_update (f := f) hi.ids hm (hp.uniq.sole hm hne) (hf c).1 hp.uniq
  refine ⟨⟨hp.acls, hp.requests, fun d hd => ?_, hu⟩, ?_⟩
  · obtain ⟨c₀, hm', ⟨hh, rfl⟩ | ⟨-, rfl⟩⟩ := mem_updateCis hd
    · have := eq_of_handle hi.ids hm' hm hh
      subst this
      have hc := (hp.cises c₀ hm).role hne
      obtain ⟨-, h1, h2, h3⟩ := hf c₀
      exact ⟨fun e => absurd (h3 ▸ e) hst, fun _ => ⟨h1.trans hc.1, h2.trans hc.2.1, by rw [h3]; exact hst'⟩⟩
    · exact hp.cises d hm'
  · refine mapOf_eq hu (fun y x hx => ?_) (fun y => ?_)
    · rw [has_update hi.ids hm (hp.uniq.sole hm hne) (hf c).1 hx, (hf c).2.2.2, ← mapOf_iff hp.uniq hx]
      by_cases e : y = c.ids <;> simp [e]
    · split
      · simpa using hst
      · exact mapOf_conf y

/-- One stream of the peripheral goes. -/
theorem Peri.erase {lb : Nat} {s : State} {c : Cis} (hi : Inv s) (hp : Peri lb s) (hm : c ∈ s.cises) (hne : c.state ≠ .configuration) :
    Peri lb { s with cises := eraseCis s.cises c.handle } ∧
    mapOf (eraseCis s.cises c.handle) = fun z => if z = c.ids then none else mapOf s.cises z := by
  have hu : Uniq (eraseCis s.cises c.handle) := uniq_erase hp.uniq
  refine ⟨⟨hp.acls, hp.requests, fun d hd => hp.cises d (mem_eraseCis.1 hd).1, hu⟩, ?_⟩
  refine mapOf_eq hu (fun y x hx => ?_) (fun y => ?_)
  · rw [has_erase hi.ids hm (hp.uniq.sole hm hne) hx, ← mapOf_iff hp.uniq hx]
    by_cases e : y = c.ids <;> simp [e]
  · split
    · nofun
    · exact mapOf_conf y

/-- A command of the peripheral's host. -/
theorem peri_cmd {env : Env} {lb : Nat} {s s' : State} {c : Cmd} {outs : List Out} {wait conn : Id → Prop} {ab ba : List Msg}
    (hi : Inv s) (hi' : Inv s') (hp : Peri lb s) (h : runCmd env s c = .ok (s', outs))
    (h2 : ∀ h r, c = .disconnect h r → ∀ z, .term z ∉ ab)
    (hx : Proto wait conn (mapOf s.cises) ab ba) :
    Peri lb s' ∧ Proto wait conn (mapOf s'.cises) ab (ba ++ (sentOver lb outs).map Pdu.msg) := by
  have calm : ∀ {s1 outs1}, Inv s1 → Calm s s1 outs1 →
      Peri lb s1 ∧ Proto wait conn (mapOf s1.cises) ab (ba ++ (sentOver lb outs1).map Pdu.msg) := by
    intro s1 outs1 hi1 hc
    obtain ⟨g1, g2⟩ := hp.calm hi1 hc
    refine ⟨g1, ?_⟩
    rw [hc.mute lb, List.map_nil, List.append_nil, g2]
    exact hx
  cases hc : c.isCalm with
  | true => exact calm hi' (calm_cmd hi hc h)
  | false =>
    cases c <;> first | (cases hc; done) | skip
    case createCis cs =>
      simp only [runCmd, createCis] at h
      split at h
      · obtain ⟨rfl, rfl⟩ := answer_ok h; exact calm hi (.answer _ _)
      rename_i rs hrs
      split at h
      · obtain ⟨rfl, rfl⟩ := answer_ok h; exact calm hi (.answer _ _)
      split at h
      · obtain ⟨rfl, rfl⟩ := answer_ok h; exact calm hi (.answer _ _)
      split at h
      · cases h
      rename_i cigs hl
      split at h
      · cases h
      rename_i s1 o1 hd
      cases h
      obtain ⟨new, hnew, -, g2, g3⟩ := checkCreates_ok hrs
      rw [List.nil_append] at hnew
      subst hnew
      have : rs = [] := by
        cases rs with
        | nil => rfl
        | cons r rs =>
          have := (g2 r (.head _)).1
          rw [hp.acls, mapFind_cons, mapFind_nil] at this
          split at this <;> cases this
      subst this
      rcases dequeue_cases hd with ⟨-, rfl, rfl⟩ | ⟨r, rest, p, c, hr, -⟩
      · exact calm hi' ⟨rfl, hp.requests.symm, fun _ => rfl, .refl _⟩
      · cases hr
    case acceptCis h0 =>
      simp only [runCmd, acceptCis] at h
      split at h
      · obtain ⟨rfl, rfl⟩ := answer_ok h; exact calm hi (.answer _ _)
      rename_i c hf
      obtain ⟨hm, rfl⟩ := findCis_some hf
      split at h
      · obtain ⟨rfl, rfl⟩ := answer_ok h; exact calm hi (.answer _ _)
      split at h
      · obtain ⟨rfl, rfl⟩ := answer_ok h; exact calm hi (.answer _ _)
      rename_i hst
      have hst : c.state = .pendingAccept := Decidable.byContradiction hst
      have hne : c.state ≠ .configuration := by rw [hst]; exact nofun
      rw [((hp.cises c hm).role hne).2.1] at h
      simp only [Except.ok.injEq, Prod.mk.injEq] at h
      obtain ⟨rfl, rfl⟩ := h
      obtain ⟨g1, g2⟩ := hp.update (f := fun c => { c with state := .pendingInd }) hi hm hne (fun _ => ⟨rfl, rfl, rfl, rfl⟩) nofun nofun
      refine ⟨g1, ?_⟩
      rw [sent_cons]
      show Proto _ _ (mapOf (updateCis s.cises c.handle _)) ab (ba ++ [.rsp])
      rw [g2]
      exact hx.accept ((mapOf_iff (st := .pendingAccept) hp.uniq nofun).2 ⟨c, hm, rfl, hst⟩)
    case rejectCis h0 r =>
      simp only [runCmd, rejectCis] at h
      split at h
      · obtain ⟨rfl, rfl⟩ := answer_ok h; exact calm hi (.answer _ _)
      rename_i c hf
      obtain ⟨hm, rfl⟩ := findCis_some hf
      split at h
      · obtain ⟨rfl, rfl⟩ := answer_ok h; exact calm hi (.answer _ _)
      split at h
      · obtain ⟨rfl, rfl⟩ := answer_ok h; exact calm hi (.answer _ _)
      rename_i hst
      have hst : c.state = .pendingAccept := Decidable.byContradiction hst
      have hne : c.state ≠ .configuration := by rw [hst]; exact nofun
      rw [((hp.cises c hm).role hne).2.1] at h
      simp only [Except.ok.injEq, Prod.mk.injEq] at h
      obtain ⟨rfl, rfl⟩ := h
      obtain ⟨g1, g2⟩ := hp.erase hi hm hne
      refine ⟨g1, ?_⟩
      rw [sent_cons]
      show Proto _ _ (mapOf (eraseCis s.cises c.handle)) ab (ba ++ [.rej])
      rw [g2]
      exact hx.reject ((mapOf_iff (st := .pendingAccept) hp.uniq nofun).2 ⟨c, hm, rfl, hst⟩)
    case disconnect h0 r =>
      simp only [runCmd, disconnect] at h
      split at h
      · obtain ⟨rfl, rfl⟩ := answer_ok h; exact calm hi (.answer _ _)
      rename_i c hf
      obtain ⟨hm, rfl⟩ := findCis_some hf
      split at h
      · obtain ⟨rfl, rfl⟩ := answer_ok h; exact calm hi (.answer _ _)
      rename_i hst
      have hne : c.state ≠ .configuration := by intro e; rw [e] at hst; simp at hst
      obtain ⟨k1, k2, k3⟩ := (hp.cises c hm).role hne
      have hst : c.state = .connected := Decidable.byContradiction fun e => hst ⟨e, k3⟩
      rw [k2] at h
      simp only [k1, reduceCtorEq, if_false, Except.ok.injEq, Prod.mk.injEq] at h
      obtain ⟨rfl, rfl⟩ := h
      obtain ⟨g1, g2⟩ := hp.erase hi hm hne
      refine ⟨g1, ?_⟩
      rw [sent_cons]
      show Proto _ _ (mapOf (eraseCis s.cises c.handle)) ab (ba ++ [.term c.ids])
      rw [g2]
      exact hx.leave ((mapOf_iff (st := .connected) hp.uniq nofun).2 ⟨c, hm, rfl, hst⟩) (h2 _ _ rfl)

/-- A PDU arrives at the peripheral. -/
theorem peri_pdu {lb : Nat} {s s' : State} {x : Pdu} {outs : List Out} {wait conn : Id → Prop} {rest ba : List Msg} (hi : Inv s)
    (hp : Peri lb s) (h : runPdu s lb x = .ok (s', outs)) (hx : Proto wait conn (mapOf s.cises) (x.msg :: rest) ba) :
    Peri lb s' ∧ sentOver lb outs = [] ∧ Proto wait conn (mapOf s'.cises) rest ba := by
  have key : ∀ m', m' = recv (mapOf s.cises) x.msg → Proto wait conn m' rest ba := by
    rintro _ rfl
    exact hx.arrive
  cases x with
  | cisRsp => rcases hx.down _ (.head _) with ⟨y, e⟩ | e | ⟨y, e⟩ <;> cases e
  | rejectExtInd op e => rcases hx.down _ (.head _) with ⟨y, e⟩ | e | ⟨y, e⟩ <;> cases e
  | other => cases h
  | malformed => cases h
  | cisReq r =>
    simp only [runPdu, cisReq] at h
    split at h
    · cases h
    rename_i h0 hn
    have hnone : mapOf s.cises (r.cigId, r.cisId) = none := (hx.fresh [] rest _ rfl).2
    have hfree : ∀ c ∈ s.cises, c.ids = (r.cigId, r.cisId) → c.state = .configuration := by
      intro c hc he
      apply Decidable.byContradiction
      intro hs
      have := (mapOf_iff hp.uniq hs).2 ⟨c, hc, he, rfl⟩
      rw [hnone] at this
      cases this
    generalize hnew : (some _ : Option CisParameters) = ps at h
    clear hnew
    cases h
    have hu : Uniq (s.cises ++ [{ handle := h0, cigId := r.cigId, cisId := r.cisId, role := .peripheral, acl := some lb, state := .pendingAccept, params := ps }]) := by
      intro c hc d hd he hcs hds
      rcases List.mem_append.1 hc with hc | hc
      · rcases List.mem_append.1 hd with hd | hd
        · exact hp.uniq c hc d hd he hcs hds
        · rw [List.mem_singleton.1 hd] at he
          exact absurd (hfree c hc he) hcs
      · rcases List.mem_append.1 hd with hd | hd
        · rw [List.mem_singleton.1 hc] at he
          exact absurd (hfree d hd he.symm) hds
        · rw [List.mem_singleton.1 hc, List.mem_singleton.1 hd]
    refine ⟨⟨hp.acls, hp.requests, fun c hc => ?_, hu⟩, rfl, key _ ?_⟩
    · rcases List.mem_append.1 hc with hc | hc
      · exact hp.cises c hc
      · rw [List.mem_singleton.1 hc]
        exact ⟨nofun, fun _ => ⟨rfl, rfl, nofun⟩⟩
    · refine mapOf_eq hu (fun y st hs => ?_) (fun y => ?_)
      · show _ ↔ (if y = (r.cigId, r.cisId) then some CisState.pendingAccept else mapOf s.cises y) = some st
        constructor
        · rintro ⟨c, hc, he, hcs⟩
          rcases List.mem_append.1 hc with hc | hc
          · rw [if_neg]
            · exact (mapOf_iff hp.uniq hs).2 ⟨c, hc, he, hcs⟩
            · intro e
              exact hs (by rw [← hcs]; exact hfree c hc (he.trans e))
          · rw [List.mem_singleton.1 hc] at he hcs
            rw [if_pos (show y = (r.cigId, r.cisId) from he.symm), ← hcs]
        · intro e
          split at e
          · rename_i hy
            cases e
            exact ⟨_, List.mem_append.2 (.inr (.head _)), hy.symm, rfl⟩
          · obtain ⟨c, hc, g1, g2⟩ := (mapOf_iff hp.uniq hs).1 e
            exact ⟨c, List.mem_append.2 (.inl hc), g1, g2⟩
      · show (if y = (r.cigId, r.cisId) then some CisState.pendingAccept else mapOf s.cises y) ≠ _
        split
        · nofun
        · exact mapOf_conf y
  | cisInd a b =>
    have hr : ∀ y, recv (mapOf s.cises) .ind y = if mapOf s.cises y = some .pendingInd then some .connected else mapOf s.cises y := fun _ => rfl
    simp only [runPdu, cisInd] at h
    cases ha : awaitingInd s lb with
    | none =>
      rw [ha] at h
      cases h
      refine ⟨hp, rfl, key _ ?_⟩
      funext y
      show _ = recv (mapOf s.cises) .ind y
      rw [hr, if_neg]
      intro e
      obtain ⟨c, hc, -, hst⟩ := (mapOf_iff (st := .pendingInd) hp.uniq nofun).1 e
      obtain ⟨k1, k2, -⟩ := (hp.cises c hc).role (by rw [hst]; exact nofun)
      unfold awaitingInd at ha
      rw [List.find?_eq_none] at ha
      exact absurd (by simp [k1, k2, hst]) (ha c hc)
    | some c =>
      rw [ha] at h
      obtain ⟨hm, hacl, -, hst⟩ := awaitingInd_some ha
      have hne : c.state ≠ .configuration := by rw [hst]; exact nofun
      simp only at h
      split at h
      · cases h
      rename_i p _
      split at h
      · cases h
      rename_i e he
      obtain ⟨rfl, rfl⟩ := send_ok h
      obtain ⟨g1, g2⟩ := hp.update (f := fun c => { c with state := .connected, params := some { p with cigSyncDelay := a, cisSyncDelay := b } }) hi hm hne
        (fun _ => ⟨rfl, rfl, rfl, rfl⟩) nofun nofun
      refine ⟨g1, rfl, key _ ?_⟩
      refine Eq.trans g2 ?_
      have hmc := (mapOf_iff (st := .pendingInd) hp.uniq nofun).2 ⟨c, hm, rfl, hst⟩
      funext y
      show _ = recv (mapOf s.cises) .ind y
      rw [hr]
      by_cases e : y = c.ids
      · rw [if_pos e, e, if_pos hmc]
      · rw [if_neg e, if_neg]
        exact fun e' => e (hx.single y c.ids e' hmc)
  | terminateInd i j e =>
    have hr : ∀ y, recv (mapOf s.cises) (.term (i, j)) y = if y = (i, j) then none else mapOf s.cises y := fun _ => rfl
    simp only [runPdu, terminateInd] at h
    split at h
    · rename_i hf
      cases h
      rw [List.find?_eq_none] at hf
      refine ⟨hp, rfl, key _ ?_⟩
      funext y
      show _ = recv (mapOf s.cises) (.term (i, j)) y
      rw [hr]
      split
      · rename_i hy
        cases hm : mapOf s.cises y with
        | none => rfl
        | some st =>
          obtain ⟨⟨c, hc, g1, g2⟩, g3⟩ := mapOf_some hm
          obtain ⟨-, k2, -⟩ := (hp.cises c hc).role (by rw [g2]; exact g3)
          rw [hy] at g1
          simp only [Cis.ids, Prod.mk.injEq] at g1
          exact absurd (by simp [k2, g1.1, g1.2]) (hf c hc)
      · rfl
    rename_i c hf
    have hm := List.mem_of_find?_eq_some hf
    have hmatch := List.find?_some hf
    simp only [decide_eq_true_eq] at hmatch
    have hids : c.ids = (i, j) := by rw [← hmatch.2.1, ← hmatch.2.2]; rfl
    have hne : c.state ≠ .configuration := by
      intro e
      have := (hp.cises c hm).own e
      rw [hmatch.1] at this
      cases this
    split at h
    · cases h
      obtain ⟨g1, g2⟩ := hp.erase hi hm hne
      refine ⟨g1, rfl, key _ ?_⟩
      refine Eq.trans g2 ?_
      funext y
      show _ = recv (mapOf s.cises) (.term (i, j)) y
      rw [hr, hids]
    · cases h

/-! ### Both -/

/-- What holds in all histories of patient hosts. -/
structure PairInv (la lb : Nat) (p : Pair) : Prop where
  invA : Inv p.a
  queue : Queue p.a
  central : Central la p.a
  invB : Inv p.b
  peri : Peri lb p.b
  proto : Proto (HasSt p.a.cises · .pendingRsp) (HasSt p.a.cises · .connected) (mapOf p.b.cises) (p.ab.map Pdu.msg) (p.ba.map Pdu.msg)

theorem noEnd_msg {l : List Pdu} (h : NoEnd l) (z : Id) : Msg.term z ∉ l.map Pdu.msg := by
  intro hx
  obtain ⟨p, hp, he⟩ := List.mem_map.1 hx
  cases p <;> cases he
  exact h _ _ _ hp

theorem pairInv_start (la lb : Nat) : PairInv la lb (.start la lb) := by
  have hi : ∀ r, Inv { acls := r } := fun r => ⟨nofun, inv_init.ids, inv_init.bisNodup, inv_init.bisRange⟩
  refine ⟨hi _, ⟨List.nodup_nil, nofun⟩, ⟨rfl, nofun, nofun⟩, hi _, ⟨rfl, rfl, nofun, nofun⟩, ?_⟩
  have hn : ∀ y st, ¬ HasSt [] y st := by rintro y st ⟨c, hc, -⟩; cases hc
  refine ⟨nofun, nofun, .idle (fun y => hn y _) rfl (fun y hy => absurd rfl hy), fun y => ⟨fun h => absurd h (hn y _), ?_⟩, nofun, fun _ => Nat.zero_le _, nofun, ?_, nofun, nofun⟩
  · rintro (h | h) <;> cases h
  · intro l k x h
    cases l <;> cases h

theorem pairInv_step {la lb : Nat} {p q : Pair} {m : Move} (hp : PairInv la lb p) (hm : Patient p m) (h : PairStep la lb p m q) :
    PairInv la lb q := by
  cases h with
  | @hostA env c a outs h =>
    have hi' := step_inv hp.invA h
    have hk : KeepsQueued p.a (.hci c) := by
      cases c with
      | removeCig k => exact hm
      | _ => trivial
    have hq' := (step_stepOk hp.invA h).queue hp.queue hk
    obtain ⟨h1, h2⟩ := central_cmd hp.invA hp.central h (by rintro cs rfl; exact hm)
      (by rintro h0 r rfl; exact ⟨hm.1, noEnd_msg hm.2⟩) hp.proto
    refine ⟨hi', hq', h1, hp.invB, hp.peri, ?_⟩
    simp only [List.map_append]
    exact h2
  | @hostB env c b outs h =>
    have hi' := step_inv hp.invB h
    obtain ⟨h1, h2⟩ := peri_cmd hp.invB hi' hp.peri h (by rintro h0 r rfl; exact noEnd_msg hm) hp.proto
    refine ⟨hp.invA, hp.queue, hp.central, hi', h1, ?_⟩
    simp only [List.map_append]
    exact h2
  | @toA env x rest a outs hx h =>
    have hi' := step_inv hp.invA h
    have hpr := hp.proto
    rw [hx] at hpr
    obtain ⟨hk, h1, h2⟩ := central_pdu hp.invA hp.queue hp.central h hpr
    refine ⟨hi', (step_stepOk hp.invA h).queue hp.queue hk, h1, hp.invB, hp.peri, ?_⟩
    simp only [List.map_append]
    exact h2
  | @toB env x rest b outs hx h =>
    have hi' := step_inv hp.invB h
    have hpr := hp.proto
    rw [hx] at hpr
    obtain ⟨h1, h2, h3⟩ := peri_pdu hp.invB hp.peri h hpr
    refine ⟨hp.invA, hp.queue, hp.central, hi', h1, ?_⟩
    simp only [h2, List.append_nil]
    exact h3
  | @orderA env l a outs h =>
    have hi' := step_inv hp.invA h
    have hq' := (step_stepOk hp.invA h).queue hp.queue trivial
    have hc : Calm p.a a [] := by
      simp only [step, Except.ok.injEq, Prod.mk.injEq] at h
      obtain ⟨rfl, -⟩ := h
      split
      · rename_i hperm
        exact ⟨rfl, rfl, fun _ => rfl, .perm (List.isPerm_iff.1 hperm)⟩
      · exact ⟨rfl, rfl, fun _ => rfl, .refl _⟩
    exact ⟨hi', hq', hp.central.calm hc, hp.invB, hp.peri, hp.proto.grow hc.grow⟩
  | @orderB env l b outs h =>
    have hi' := step_inv hp.invB h
    have hc : Calm p.b b [] := by
      simp only [step, Except.ok.injEq, Prod.mk.injEq] at h
      obtain ⟨rfl, -⟩ := h
      split
      · rename_i hperm
        exact ⟨rfl, rfl, fun _ => rfl, .perm (List.isPerm_iff.1 hperm)⟩
      · exact ⟨rfl, rfl, fun _ => rfl, .refl _⟩
    obtain ⟨h1, h2⟩ := hp.peri.calm hi' hc
    refine ⟨hp.invA, hp.queue, hp.central, hi', h1, ?_⟩
    show Proto _ _ (mapOf b.cises) _ _
    rw [h2]
    exact hp.proto

theorem pairInv {la lb : Nat} {p : Pair} (h : PairReach Patient la lb p) : PairInv la lb p := by
  induction h with
  | start => exact pairInv_start la lb
  | step _ hm h ih => exact pairInv_step ih hm h

end Verif.Iso
