import Verif.Br.SpecTalk
import Verif.Br.CallsLemmas
import Verif.Br.PairLemmas
/-! # Lemmas for C119 -/
namespace Verif.Br
open Verif.Conn (Table find erase firstWith getUnusedHandle ScoState keys Sound)
open Verif.Sco (ConnParams LinkParams)

/-! ## The words -/

/-- What can be, up to the names of the two: the talk of each, the words from the first to the second, and back. -/
inductive Half : Talk → Talk → List Word → List Word → Prop
  | asking : Half .asked .none [.request] []
  | offered : Half .asked .offered [] []
  | yes (l) : Half .asked (.on l) [] [.yes l]
  | no : Half .asked .none [] [.no]
  | yesBye (l) : Half .asked .none [] [.yes l, .bye]
  | yesByeAsk (l) : Half .asked .asked [] [.yes l, .bye, .request]
  | noAsk : Half .asked .asked [] [.no, .request]
  | askNo : Half .asked .asked [] [.request, .no]
  | bye (l) : Half .none (.on l) [.bye] []
  | byeAsk (l) : Half .asked (.on l) [.bye, .request] []
  | idle : Half .none .none [] []
  | on (l) : Half (.on l) (.on l) [] []
  | both : Half .asked .asked [.request] [.request]
  | cross : Half .asked .asked [.no] [.no]

def Rel (v w : Talk) (vw wv : List Word) : Prop := Half v w vw wv ∨ Half w v wv vw

theorem Rel.symm {v w : Talk} {vw wv : List Word} (h : Rel v w vw wv) : Rel w v wv vw := Or.symm h

/-- What a patient host does. -/
inductive Does (v : Talk) (coming : List Word) : Talk → List Word → Prop
  | stay : Does v coming v []
  | ask : v = .none → Does v coming .asked [.request]
  | yes (l) : v = .offered → Does v coming (.on l) [.yes l]
  | no : v = .offered → Does v coming .none [.no]
  | bye (l) : v = .on l → .bye ∉ coming → Does v coming .none [.bye]

/-- Finds the case. -/
macro "find_rel" : tactic => `(tactic| first
  | exact .inl .asking | exact .inl .offered | exact .inl (.yes _) | exact .inl .no | exact .inl (.yesBye _)
  | exact .inl (.yesByeAsk _) | exact .inl .noAsk | exact .inl .askNo | exact .inl (.bye _) | exact .inl (.byeAsk _)
  | exact .inl .idle | exact .inl (.on _) | exact .inl .both | exact .inl .cross
  | exact .inr .asking | exact .inr .offered | exact .inr (.yes _) | exact .inr .no | exact .inr (.yesBye _)
  | exact .inr (.yesByeAsk _) | exact .inr .noAsk | exact .inr .askNo | exact .inr (.bye _) | exact .inr (.byeAsk _))

theorem rel_does {v w v' : Talk} {vw wv o : List Word} (h : Rel v w vw wv) (hd : Does v wv v' o) : Rel v' w (vw ++ o) wv := by
  cases hd with
  | stay => rw [List.append_nil]; exact h
  | ask hv => rcases h with h | h <;> cases h <;> cases hv <;> find_rel
  | yes l hv => rcases h with h | h <;> cases h <;> cases hv <;> find_rel
  | no hv => rcases h with h | h <;> cases h <;> cases hv <;> find_rel
  | bye l hv hb =>
    rcases h with h | h <;> cases h <;> cases hv <;> first
      | find_rel
      | exact absurd (List.mem_cons_self) hb

/-- What a device does when it hears a word. -/
inductive Hears : Talk → Word → Talk → List Word → Prop
  | request : Hears .none .request .offered []
  | crossed : Hears .asked .request .asked [.no]
  | yes (l) : Hears .asked (.yes l) (.on l) []
  | no : Hears .asked .no .none []
  | bye (l) : Hears (.on l) .bye .none []

theorem rel_hears {v w : Talk} {vw wv : List Word} {x : Word} (h : Rel v w vw (x :: wv)) :
    ∃ v' o, Hears v x v' o ∧ Rel v' w (vw ++ o) wv := by
  rcases h with h | h <;> cases h <;> first
    | exact ⟨_, _, .request, by find_rel⟩
    | exact ⟨_, _, .crossed, by find_rel⟩
    | exact ⟨_, _, .yes _, by find_rel⟩
    | exact ⟨_, _, .no, by find_rel⟩
    | exact ⟨_, _, .bye _, by find_rel⟩

/-! ## The table -/

/-- The entries of a device. -/
def entries (t : Table Syn) (a : Nat) : List Syn := (t.filter (fun e => e.2.addr = a)).map Prod.snd

theorem entries_cons (h : Nat) (c : Syn) (t : Table Syn) (a : Nat) :
    entries ((h, c) :: t) a = if c.addr = a then c :: entries t a else entries t a := by
  unfold entries
  rw [List.filter_cons]
  by_cases hc : c.addr = a <;> simp [hc]

theorem mem_entries {t : Table Syn} {a h : Nat} {c : Syn} (hm : (h, c) ∈ t) (ha : c.addr = a) : c ∈ entries t a :=
  List.mem_map.mpr ⟨(h, c), List.mem_filter.mpr ⟨hm, by simpa using ha⟩, rfl⟩

theorem entries_none {t : Table Syn} {a : Nat} (h : entries t a = []) : scoOf t a = none := by
  cases hs : scoOf t a with
  | none => rfl
  | some e =>
    obtain ⟨k, c⟩ := e
    obtain ⟨h1, h2⟩ := scoOf_some hs
    have := mem_entries h1 h2
    rw [h] at this
    cases this

theorem entries_one {t : Table Syn} {a : Nat} {c : Syn} (h : entries t a = [c]) : ∃ k, scoOf t a = some (k, c) ∧ (k, c) ∈ t ∧ c.addr = a := by
  cases hs : scoOf t a with
  | none =>
    have h1 := scoOf_none hs
    have h2 : c ∈ entries t a := by rw [h]; exact List.mem_singleton.mpr rfl
    obtain ⟨e, he, rfl⟩ := List.mem_map.1 h2
    obtain ⟨h3, h4⟩ := List.mem_filter.1 he
    exact (h1 e h3 (by simpa using h4)).elim
  | some e =>
    obtain ⟨k, d⟩ := e
    obtain ⟨h1, h2⟩ := scoOf_some hs
    have := mem_entries h1 h2
    rw [h] at this
    obtain rfl := List.mem_singleton.1 this
    exact ⟨k, rfl, h1, h2⟩

theorem only {t : Table Syn} (hn : (keys t).Nodup) {h : Nat} {c : Syn} (hm : (h, c) ∈ t) {e : Nat × Syn} (he : e ∈ t) (hk : e.1 = h) : e = (h, c) := by
  obtain ⟨k, d⟩ := e
  obtain rfl : k = h := hk
  rw [unique hn he hm]

theorem entries_erase_other {t : Table Syn} (hn : (keys t).Nodup) {h a : Nat} {c : Syn} (hm : (h, c) ∈ t) (ha : c.addr ≠ a) :
    entries (erase t h) a = entries t a := by
  unfold entries erase
  rw [List.filter_filter]
  congr 1
  refine List.filter_congr (fun e he => ?_)
  by_cases h1 : e.2.addr = a
  · have : e.1 ≠ h := fun hk => ha (by rw [only hn hm he hk] at h1; exact h1)
    simp [h1, this]
  · simp [h1]

theorem entries_erase_one {t : Table Syn} {h a : Nat} {c x : Syn} (hm : (h, c) ∈ t) (ha : c.addr = a) (h1 : entries t a = [x]) :
    entries (erase t h) a = [] := by
  unfold entries at h1 ⊢
  rw [List.map_eq_nil_iff, List.filter_eq_nil_iff]
  rw [List.map_eq_singleton_iff] at h1
  obtain ⟨e0, h2, -⟩ := h1
  have h3 : (h, c) ∈ t.filter (fun e => e.2.addr = a) := List.mem_filter.mpr ⟨hm, by simpa using ha⟩
  rw [h2] at h3
  obtain rfl := List.mem_singleton.1 h3
  intro e he h4
  obtain ⟨h5, h6⟩ := mem_erase'.1 he
  have h7 : e ∈ t.filter (fun e => e.2.addr = a) := List.mem_filter.mpr ⟨h5, h4⟩
  rw [h2] at h7
  exact h6 (by rw [List.mem_singleton.1 h7])

theorem entries_update_other {t : Table Syn} (hn : (keys t).Nodup) {h a : Nat} {c d : Syn} (hm : (h, c) ∈ t) (hd : d.addr = c.addr) (ha : c.addr ≠ a) :
    entries (update t h d) a = entries t a := by
  unfold entries update
  have key : ∀ u : Table Syn, (∀ e ∈ u, e ∈ t) →
      ((u.map (fun e => if e.1 = h then (h, d) else e)).filter (fun e => e.2.addr = a)).map Prod.snd = (u.filter (fun e => e.2.addr = a)).map Prod.snd := by
    intro u hu
    induction u with
    | nil => rfl
    | cons e u ih =>
      have ih' := ih (fun x hx => hu x (List.mem_cons_of_mem _ hx))
      rw [List.map_cons, List.filter_cons, List.filter_cons]
      by_cases hk : e.1 = h
      · obtain rfl := only hn hm (hu e List.mem_cons_self) hk
        have h1 : d.addr ≠ a := hd ▸ ha
        simpa [h1, ha] using ih'
      · rw [if_neg hk]
        by_cases h2 : e.2.addr = a
        · simpa [h2] using ih'
        · simpa [h2] using ih'
  exact key t (fun _ h => h)

theorem entries_update_one {t : Table Syn} (hn : (keys t).Nodup) {h a : Nat} {c d x : Syn} (hm : (h, c) ∈ t) (hd : d.addr = c.addr) (ha : c.addr = a)
    (h1 : entries t a = [x]) : entries (update t h d) a = [d] := by
  unfold entries update at *
  have key : ∀ u : Table Syn, (∀ e ∈ u, e ∈ t) → ((u.map (fun e => if e.1 = h then (h, d) else e)).filter (fun e => e.2.addr = a)).map Prod.snd =
      ((u.filter (fun e => e.2.addr = a)).map (fun e => if e.1 = h then (h, d) else e)).map Prod.snd := by
    intro u hu
    induction u with
    | nil => rfl
    | cons e u ih =>
      have ih' := ih (fun x hx => hu x (List.mem_cons_of_mem _ hx))
      rw [List.map_cons, List.filter_cons, List.filter_cons]
      by_cases hk : e.1 = h
      · obtain rfl := only hn hm (hu e List.mem_cons_self) hk
        have h2 : d.addr = a := hd.trans ha
        simpa [h2, ha] using ih'
      · rw [if_neg hk]
        by_cases h2 : e.2.addr = a
        · simpa [h2, hk] using ih'
        · simpa [h2] using ih'
  rw [key t (fun _ h => h)]
  rw [List.map_eq_singleton_iff] at h1
  obtain ⟨e0, h2, -⟩ := h1
  have h3 : (h, c) ∈ t.filter (fun e => e.2.addr = a) := List.mem_filter.mpr ⟨hm, by simpa using ha⟩
  rw [h2] at h3 ⊢
  obtain rfl := List.mem_singleton.1 h3
  simp

/-! ## Steps of one device -/

/-- A device and its talk with `a`. -/
structure Side (s : Ctl) (a : Nat) (v : Talk) : Prop where
  inv : Inv s
  named : ∀ e ∈ s.sco, e.2.addr ≠ 0
  talks : Talks s a v

/-- What a step of the host leads to. -/
def Leads (s : Ctl) (a : Nat) (v : Talk) (coming : List Word) : Res → Prop
  | .ok _ s' out _ => (∀ e ∈ s'.sco, e.2.addr ≠ 0) ∧ ∃ v', Talks s' a v' ∧ Does v coming v' (words a out)
  | _ => True

theorem talks_same {s s' : Ctl} {a : Nat} {v : Talk} (h : Talks s a v) (he : entries s'.sco a = entries s.sco a) : Talks s' a v := by
  have h1 : callsWith s' a = callsWith s a := he
  cases v <;> simp only [Talks, h1] at h ⊢ <;> exact h

theorem leads_calm {s s' : Ctl} {a : Nat} {v : Talk} {coming : List Word} (hs : Side s a v) {st : Nat} {out : List (Nat × Pkt)} {ev : List Ev}
    (h1 : s'.sco = s.sco) (h2 : words a out = []) : Leads s a v coming (.ok st s' out ev) :=
  ⟨by rw [h1]; exact hs.named, v, talks_same hs.talks (by rw [h1]), by rw [h2]; exact .stay⟩

theorem words_nil (a : Nat) : words a [] = [] := rfl

theorem words_calm {a d : Nat} {p : Pkt} (h : word d (d, p) = none) : words a [(d, p)] = [] := by
  unfold words
  rw [List.filterMap_cons, List.filterMap_nil]
  have : word a (d, p) = none := by
    unfold word at h ⊢
    split
    · simpa using h
    · rfl
  rw [this]

theorem words_other {a d : Nat} {p : Pkt} (h : d ≠ a) (h0 : d ≠ 0) : words a [(d, p)] = [] := by
  unfold words
  rw [List.filterMap_cons, List.filterMap_nil]
  simp [word, h, h0]

theorem leads_refuse {s : Ctl} {a : Nat} {v : Talk} {coming : List Word} (hs : Side s a v) {st : Nat} : Leads s a v coming (refuse s st) :=
  leads_calm hs rfl rfl

theorem talks_pending {s : Ctl} {a : Nat} {v : Talk} (h : Talks s a v) : scoPending s a = true ↔ v = .asked ∨ v = .offered := by
  cases v with
  | none =>
    have h1 : scoOf s.sco a = none := entries_none h
    simp [scoPending, h1]
  | asked =>
    obtain ⟨c, h1, h2⟩ := h
    obtain ⟨k, h3, -, -⟩ := entries_one h1
    simp [scoPending, h3, h2]
  | offered =>
    obtain ⟨c, h1, h2⟩ := h
    obtain ⟨k, h3, -, -⟩ := entries_one h1
    rcases h2 with h2 | h2 <;> simp [scoPending, h3, h2]
  | on l =>
    obtain ⟨c, h1, h2, -⟩ := h
    obtain ⟨k, h3, -, -⟩ := entries_one h1
    simp [scoPending, h3, h2]

/-- A new entry for another device, or for this one. -/
theorem create_named {s s' : Ctl} (hi : Inv s) {b : Nat} {p : ConnParams} {st : ScoState} {sp lg : Bool} (hc : createSyn s b p st sp lg = some s') :
    ∃ h, s'.sco = (h, ⟨b, p, noLink, st, sp, lg, false⟩) :: s.sco := by
  rcases createSyn_cases hi b p st sp lg with ⟨_, h2⟩ | ⟨_, h, last, h2, _, _⟩
  · rw [hc] at h2; cases h2
  · rw [hc] at h2; cases h2; exact ⟨h, rfl⟩

theorem leads_setup {s : Ctl} {a : Nat} {v : Talk} {coming : List Word} (hs : Side s a v) (h : Nat) (p : ConnParams) (sp lg : Bool)
    (hp : ∀ c, (h, c) ∈ s.acl → callsWith s c.addr = []) : Leads s a v coming (setupSync s h p sp lg) := by
  unfold setupSync
  split
  · exact leads_refuse hs
  · rename_i c hc
    have hm := Conn.find_mem _ _ _ hc
    split
    · exact leads_refuse hs
    · split
      · trivial
      · rename_i s' h1
        obtain ⟨k, h2⟩ := create_named hs.inv h1
        have h0 : c.addr ≠ 0 := fun h0 => hs.inv.zero (h0 ▸ List.mem_map.mpr ⟨(h, c), hm, rfl⟩)
        refine ⟨fun e he => ?_, ?_⟩
        · rw [h2] at he
          rcases List.mem_cons.1 he with rfl | he
          · exact h0
          · exact hs.named e he
        · by_cases hca : c.addr = a
          · have h3 := hp c hm
            rw [hca] at h3
            have hv : v = .none := by
              have ht := hs.talks
              cases v with
              | none => rfl
              | asked => obtain ⟨d, h4, _⟩ := ht; rw [h3] at h4; cases h4
              | offered => obtain ⟨d, h4, _⟩ := ht; rw [h3] at h4; cases h4
              | on l => obtain ⟨d, h4, _⟩ := ht; rw [h3] at h4; cases h4
            refine ⟨.asked, ⟨⟨c.addr, p, noLink, .pending, sp, lg, false⟩, ?_, rfl⟩, ?_⟩
            · show entries s'.sco a = _
              rw [h2, entries_cons, if_pos hca]
              exact congrArg _ h3
            · have : words a [(c.addr, Pkt.scoReq p s.info.cod)] = [.request] := by simp [words, word, hca]
              rw [this]
              exact .ask hv
          · refine ⟨v, talks_same hs.talks ?_, ?_⟩
            · rw [h2, entries_cons, if_neg hca]
            · rw [words_other hca h0]; exact .stay

/-- The answer of a host to a request of another device. -/
theorem leads_answer {s : Ctl} {a b : Nat} {v : Talk} {coming : List Word} (hs : Side s a v) {q : Option ConnParams} {bad : Status} (hb : bad ≠ 0)
    (hp : scoPending s b = true) (hn : ∀ c ∈ callsWith s b, c.state ≠ .pending) {t : Table Syn} {st k : Nat} {l : LinkParams}
    (ha : acceptSyn s b q bad = some (t, st, k, l)) (x : Nat) (ev : List Ev) :
    Leads s a v coming (.ok x { s with sco := t } [(b, .scoRsp st l)] ev) := by
  obtain ⟨j, c, hf, hc⟩ := pending_some hp
  obtain ⟨hm, hcb⟩ := scoOf_some hf
  have hb0 : b ≠ 0 := hcb ▸ hs.named _ hm
  have hnd := hs.inv.ssound.nodup
  unfold acceptSyn at ha
  rw [hf] at ha
  have key : (st = 0 ∧ ∃ d : Syn, t = update s.sco j d ∧ d.addr = c.addr ∧ d.state = .opened ∧ d.link = l) ∨ (st ≠ 0 ∧ t = erase s.sco j) := by
    simp only at ha
    split at ha
    · rw [Option.map_eq_some_iff] at ha
      obtain ⟨u, h1, h2⟩ := ha
      cases h2
      unfold openSyn at h1
      split at h1
      · cases h1
      · cases h1
        exact .inl ⟨rfl, _, rfl, rfl, rfl, rfl⟩
    · rw [Option.map_eq_some_iff] at ha
      obtain ⟨u, h1, h2⟩ := ha
      cases h2
      refine .inr ⟨hb, ?_⟩
      have h3 : scoOf (update s.sco j { c with state := .closed }) b = some (j, { c with state := .closed }) := by
        rw [scoOf_find?, find?_update (c := { c with state := .closed }) (c0 := c) (h := j) hnd hm (fun x => decide (x.addr = b)) rfl]
        rw [scoOf_find?] at hf
        rw [hf]
        simp
      rw [cancel_first h3 h1, erase_update]
  rcases key with ⟨rfl, d, rfl, hd, hd1, hd2⟩ | ⟨hst, rfl⟩
  · refine ⟨fun e he => ?_, ?_⟩
    · rcases mem_update he with ⟨rfl, rfl⟩ | ⟨_, g⟩
      · rw [hd]; exact hs.named _ hm
      · exact hs.named _ g
    · by_cases hba : b = a
      · subst hba
        have hv : v = .offered := by
          rcases (talks_pending hs.talks).1 hp with rfl | rfl
          · obtain ⟨c', h1, h2⟩ := hs.talks
            exact (hn c' (by rw [h1]; exact List.mem_singleton.mpr rfl) h2).elim
          · rfl
        subst hv
        obtain ⟨c', h1, h2⟩ := hs.talks
        refine ⟨.on l, ⟨d, entries_update_one hnd hm hd hcb h1, hd1, hd2⟩, ?_⟩
        have : words b [(b, Pkt.scoRsp 0 l)] = [.yes l] := by simp [words, word]
        rw [this]
        exact .yes l rfl
      · refine ⟨v, talks_same hs.talks (entries_update_other hnd hm hd (hcb ▸ hba)), ?_⟩
        rw [words_other hba hb0]; exact .stay
  · refine ⟨fun e he => hs.named _ (mem_erase'.1 he).1, ?_⟩
    by_cases hba : b = a
    · subst hba
      have hv : v = .offered := by
        rcases (talks_pending hs.talks).1 hp with rfl | rfl
        · obtain ⟨c', h1, h2⟩ := hs.talks
          exact (hn c' (by rw [h1]; exact List.mem_singleton.mpr rfl) h2).elim
        · rfl
      subst hv
      obtain ⟨c', h1, h2⟩ := hs.talks
      refine ⟨.none, entries_erase_one hm hcb h1, ?_⟩
      have : words b [(b, Pkt.scoRsp st l)] = [.no] := by simp [words, word, hst]
      rw [this]
      exact .no rfl
    · refine ⟨v, talks_same hs.talks (entries_erase_other hnd hm (hcb ▸ hba)), ?_⟩
      rw [words_other hba hb0]; exact .stay

theorem leads_reject {s : Ctl} {a b : Nat} {v : Talk} {coming : List Word} (hs : Side s a v) (r : Nat)
    (hn : ∀ c ∈ callsWith s b, c.state ≠ .pending) : Leads s a v coming (rejectSync s b r) := by
  unfold rejectSync
  split
  · rename_i hp
    obtain ⟨j, c, hf, hc⟩ := pending_some hp
    obtain ⟨hm, hcb⟩ := scoOf_some hf
    have hb0 : b ≠ 0 := hcb ▸ hs.named _ hm
    split
    · trivial
    · rename_i u hu
      obtain rfl := cancel_first hf hu
      have hne : rejectReason r ≠ 0 := by
        unfold rejectReason
        split
        · decide
        · assumption
      refine ⟨fun e he => hs.named _ (mem_erase'.1 he).1, ?_⟩
      by_cases hba : b = a
      · subst hba
        have hv : v = .offered := by
          rcases (talks_pending hs.talks).1 hp with rfl | rfl
          · obtain ⟨c', h1, h2⟩ := hs.talks
            exact (hn c' (by rw [h1]; exact List.mem_singleton.mpr rfl) h2).elim
          · rfl
        subst hv
        obtain ⟨c', h1, h2⟩ := hs.talks
        refine ⟨.none, entries_erase_one hm hcb h1, ?_⟩
        have : words b [(b, Pkt.scoRsp (rejectReason r) noLink)] = [.no] := by simp [words, word, hne]
        rw [this]
        exact .no rfl
      · refine ⟨v, talks_same hs.talks (entries_erase_other hs.inv.ssound.nodup hm (hcb ▸ hba)), ?_⟩
        rw [words_other hba hb0]; exact .stay
  · exact leads_refuse hs

theorem leads_end {s : Ctl} {a : Nat} {v : Talk} {coming : List Word} (hs : Side s a v) (h r1 r2 : Nat) (hb : .bye ∉ coming)
    (h1 : ∀ c, (h, c) ∉ s.acl) (h2 : ∀ c, (h, c) ∈ s.sco → c.state = .opened) : Leads s a v coming (disconnect s h r1 r2) := by
  unfold disconnect
  split
  · rename_i c hc
    have hm := Conn.find_mem _ _ _ hc
    refine ⟨fun e he => hs.named _ (mem_erase'.1 he).1, ?_⟩
    by_cases hca : c.addr = a
    · have hv : ∃ l, v = .on l := by
        have hin : c ∈ callsWith s a := mem_entries hm hca
        have ht := hs.talks
        cases v with
        | none => rw [show callsWith s a = [] from ht] at hin; cases hin
        | asked => obtain ⟨d, h3, h4⟩ := ht; rw [h3] at hin; rw [← List.mem_singleton.1 hin, h2 c hm] at h4; cases h4
        | offered => obtain ⟨d, h3, h4⟩ := ht; rw [h3] at hin; rw [← List.mem_singleton.1 hin, h2 c hm] at h4; rcases h4 with h4 | h4 <;> cases h4
        | on l => exact ⟨l, rfl⟩
      obtain ⟨l, rfl⟩ := hv
      obtain ⟨d, h3, h4, h5⟩ := hs.talks
      refine ⟨.none, entries_erase_one hm hca h3, ?_⟩
      have : words a [(c.addr, Pkt.scoDisc r1)] = [.bye] := by simp [words, word, hca]
      rw [this]
      exact .bye l rfl hb
    · refine ⟨v, talks_same hs.talks (entries_erase_other hs.inv.ssound.nodup hm hca), ?_⟩
      rw [words_other hca (hs.named _ hm)]; exact .stay
  · split
    · exact leads_refuse hs
    · rename_i c hc
      exact (h1 c (Conn.find_mem _ _ _ hc)).elim

theorem connect_sco {s s' : Ctl} {now a h : Nat} {role : Role} (hc : connect s now a role = .ok h s') : s'.sco = s.sco := by
  unfold connect at hc
  split at hc
  · cases hc
  · split at hc
    · cases hc
    · cases hc; rfl

theorem leads_accept {s : Ctl} {a b : Nat} {v : Talk} {coming : List Word} (hs : Side s a v) (now : Nat) (t : Bool)
    (hn : ∀ c ∈ callsWith s b, c.state ≠ .pending) : Leads s a v coming (acceptConnection s now b t) := by
  unfold acceptConnection
  split
  · rename_i p hp
    unfold acceptPage
    split
    · exact leads_calm hs rfl rfl
    split
    · trivial
    · trivial
    · rename_i h s' h1
      exact leads_calm hs (by exact (connect_sco h1 : _)) (words_calm (by simp [word]))
  · split
    · rename_i hp
      split
      · trivial
      · rename_i u st k l ha
        exact leads_answer hs (by decide) hp hn ha _ _
    · exact leads_refuse hs

theorem leads_ask {s : Ctl} {a : Nat} {v : Talk} {coming : List Word} (hs : Side s a v) (h : Nat) (p : Pkt) (hp : word 0 (0, p) = none) :
    Leads s a v coming (ask s h p) := by
  unfold ask
  split
  · exact leads_refuse hs
  · refine leads_calm hs rfl (words_calm ?_)
    unfold word at hp ⊢
    simpa using hp

theorem leads_command {s : Ctl} {a : Nat} {v : Talk} {coming : List Word} (hs : Side s a v) (now : Nat) (c : Cmd) (hp : PatientHost s coming c) :
    Leads s a v coming (command s now c) := by
  cases c with
  | reset => exact hp.elim
  | accept b t => exact leads_accept hs now t hp
  | disconnect h r => exact leads_end hs h _ _ hp.2.2 (fun c hc => hp.1 (h, c) hc rfl) (fun c hc => hp.2.1 (h, c) hc rfl)
  | setupSync h p sp => exact leads_setup hs h p sp _ (fun c hc => hp (h, c) hc rfl)
  | addSco h t => exact leads_setup hs h _ _ _ (fun c hc => hp (h, c) hc rfl)
  | rejectSync b r => exact leads_reject hs r hp
  | acceptSync b p =>
    show Leads s a v coming (acceptSync s b p)
    unfold acceptSync
    split
    · rename_i hq
      split
      · trivial
      · rename_i u st k l ha
        exact leads_answer hs (by decide) hq hp ha _ _
    · exact leads_refuse hs
  | inquiry l n r =>
    show Leads s a v coming (startInquiry s now l n r)
    unfold startInquiry
    repeat' split
    all_goals exact leads_calm hs rfl rfl
  | inquiryCancel =>
    show Leads s a v coming (cancelInquiry s)
    unfold cancelInquiry
    split
    all_goals exact leads_calm hs rfl rfl
  | create b w =>
    show Leads s a v coming (createConnection s now b w)
    unfold createConnection
    repeat' split
    all_goals exact leads_calm hs rfl rfl
  | cancel b =>
    show Leads s a v coming (cancelConnection s b)
    unfold cancelConnection
    repeat' split
    all_goals exact leads_calm hs rfl rfl
  | reject b r =>
    show Leads s a v coming (rejectConnection s b r)
    unfold rejectConnection
    split
    all_goals exact leads_calm hs rfl rfl
  | switchRole b r =>
    show Leads s a v coming (switchRole s b r)
    unfold switchRole
    repeat' split
    all_goals first | exact leads_calm hs rfl rfl | exact leads_calm hs rfl (words_calm (by simp [word]))
  | writePolicy h p =>
    show Leads s a v coming (writePolicy s h p)
    unfold writePolicy
    repeat' split
    all_goals exact leads_calm hs rfl rfl
  | writeDefaultPolicy p =>
    show Leads s a v coming (writeDefaultPolicy s p)
    unfold writeDefaultPolicy
    split
    all_goals exact leads_calm hs rfl rfl
  | features h => exact leads_ask hs h _ rfl
  | ext h p => exact leads_ask hs h _ rfl
  | version h => exact leads_ask hs h _ rfl
  | extLocal p =>
    show Leads s a v coming (match lmpFeatures s.info p with | none => .wild | some _ => .ok Status.success s [] [])
    split
    · trivial
    · exact leads_calm hs rfl rfl
  | acl h pb bc d =>
    show Leads s a v coming (sendAcl s h pb bc d)
    unfold sendAcl
    split
    · trivial
    split
    · exact leads_calm hs rfl rfl
    · exact leads_calm hs rfl (words_calm (by simp [word]))
  | sco h d =>
    show Leads s a v coming (sendSco s h d)
    unfold sendSco
    split
    · exact leads_refuse hs
    · exact leads_calm hs rfl (words_calm (by simp [word]))
  | name b =>
    refine leads_calm hs rfl ?_
    show words a [(b, .hostFeaturesReq), (b, .nameReq)] = []
    simp [words, word]
  | _ => exact leads_calm hs rfl rfl

theorem leads_tick {s : Ctl} {a : Nat} {v : Talk} {coming : List Word} (hs : Side s a v) (now : Nat) : Leads s a v coming (tick s now) := by
  rw [tick_eq]
  obtain ⟨page, h1, -⟩ := paging_same { s with later := [] } now
  obtain ⟨inq, h2⟩ := inquiring_same (paging { s with later := [] } now).1 now
  refine leads_calm hs (by rw [h2, h1]) ?_
  unfold words
  rw [List.filterMap_append, List.filterMap_append]
  have e1 : (sendRejects s).1.filterMap (word a) = [] := by
    refine List.filterMap_eq_nil_iff.mpr (fun o ho => ?_)
    obtain ⟨x, -, rfl⟩ := List.mem_map.1 ho
    simp [word]
  have e2 : (paging { s with later := [] } now).2.1.filterMap (word a) = [] := by
    unfold paging
    split
    · rfl
    split
    · rfl
    split
    · exact words_calm (by simp [word])
    · rfl
  have e3 : (inquiring (paging { s with later := [] } now).1 now).2.1.filterMap (word a) = [] := by
    unfold inquiring
    split
    · rfl
    split
    · rfl
    split
    · exact words_calm (by simp [word])
    · rfl
  rw [e1, e2, e3]
  rfl

theorem leads_check {s : Ctl} {a : Nat} {v : Talk} {coming : List Word} (hs : Side s a v) (now h : Nat) (ht : InTime s now h) :
    Leads s a v coming (checkExpiring s now h) := by
  unfold checkExpiring
  split
  · exact leads_calm hs rfl rfl
  · rename_i c hf
    have h1 : now ≤ c.last + 3000000000 := ht (h, c) (Conn.find_mem _ _ _ hf) rfl
    rw [if_neg (by omega)]
    split
    · exact leads_calm hs rfl (words_calm (by simp [word]))
    · exact leads_calm hs rfl rfl

/-! ## Arriving packets -/

/-- A packet that says nothing leaves the talk as it is. -/
theorem leads_silent {s : Ctl} {a : Nat} {v : Talk} {coming : List Word} (hs : Side s a v) (now src d rssi : Nat) (p : Pkt) (hw : word s.addr (d, p) = none) :
    Leads s a v coming (incoming s now src d rssi p) := by
  unfold incoming
  split
  · exact leads_calm hs rfl rfl
  rename_i hd
  have hme : d = s.addr ∨ d = 0 := by omega
  have ht : (touch s now src).sco = s.sco := by rw [touch_eq]
  have calm : ∀ {s' : Ctl} {st : Nat} {out : List (Nat × Pkt)} {ev : List Ev}, s'.sco = (touch s now src).sco → words a out = [] →
      Leads s a v coming (.ok st s' out ev) := fun h1 h2 => leads_calm hs (h1.trans ht) h2
  unfold word at hw
  rw [if_pos hme] at hw
  cases p with
  | scoReq q c => cases hw
  | scoRsp st l => cases hw
  | scoDisc r => cases hw
  | page cod allow =>
    show Leads s a v coming (onPage _ src cod allow)
    unfold onPage
    repeat' split
    all_goals first | exact calm rfl rfl | exact calm rfl (words_calm (by simp [word]))
  | pageRsp t =>
    show Leads s a v coming (onPageRsp _ now src t)
    unfold onPageRsp
    split
    · exact calm rfl rfl
    split
    · exact calm rfl rfl
    split
    · trivial
    · trivial
    · rename_i h1
      exact calm (by exact (connect_sco h1 : _)) rfl
  | pageReject r =>
    show Leads s a v coming (onPageReject _ src r)
    unfold onPageReject
    repeat' split
    all_goals exact calm rfl rfl
  | disconnect r =>
    show Leads s a v coming (onDisconnect _ src r)
    unfold onDisconnect
    split
    · exact calm rfl rfl
    split
    · trivial
    · rename_i h1
      exact calm (endAcl_sco h1).1 rfl
  | roleReq =>
    show Leads s a v coming (onRoleReq _ src)
    unfold onRoleReq
    repeat' split
    all_goals first | exact calm rfl rfl | exact calm rfl (words_calm (by simp [word]))
  | roleRsp st =>
    show Leads s a v coming (onRoleRsp _ src st)
    unfold onRoleRsp
    repeat' split
    all_goals exact calm rfl rfl
  | lmp ok =>
    show Leads s a v coming (if ok then .ok 0 _ [] [] else .abort)
    split
    · exact calm rfl rfl
    · trivial
  | ping => exact calm rfl (words_calm (by simp [word]))
  | pong => exact calm rfl rfl
  | inquiry t lap =>
    show Leads s a v coming (onInquiry _ src t lap rssi)
    unfold onInquiry
    repeat' split
    all_goals first | exact calm rfl rfl | exact calm rfl (words_calm (by simp [word]))
  | inqRsp t cod r eir =>
    show Leads s a v coming (onInqRsp _ src t cod r eir)
    unfold onInqRsp
    repeat' split
    all_goals exact calm rfl rfl
  | acl pb bc x =>
    show Leads s a v coming (onAcl _ src pb bc x)
    unfold onAcl
    split <;> exact calm rfl rfl
  | sco x =>
    show Leads s a v coming (onSco _ src x)
    unfold onSco
    split <;> exact calm rfl rfl
  | nameReq => exact calm rfl (words_calm (by simp [word]))
  | nameRsp n => exact calm rfl rfl
  | hostFeaturesReq => exact calm rfl (words_calm (by simp [word]))
  | hostFeaturesRsp f => exact calm rfl rfl
  | featuresReq => exact calm rfl (words_calm (by simp [word]))
  | featuresRsp f =>
    show Leads s a v coming (report _ src _ _)
    unfold report
    split <;> exact calm rfl rfl
  | extReq q =>
    show Leads s a v coming (onExtReq _ src q)
    unfold onExtReq
    split
    · trivial
    · exact calm rfl (words_calm (by simp [word]))
  | extRsp st q m f =>
    show Leads s a v coming (report _ src _ _)
    unfold report
    split <;> exact calm rfl rfl
  | versionReq => exact calm rfl (words_calm (by simp [word]))
  | versionRsp x y z =>
    show Leads s a v coming (report _ src _ _)
    unfold report
    split <;> exact calm rfl rfl

/-- What a word leads to. -/
def Obeys (a : Nat) (v' : Talk) (o : List Word) : Res → Prop
  | .ok _ s' out _ => (∀ e ∈ s'.sco, e.2.addr ≠ 0) ∧ Talks s' a v' ∧ words a out = o
  | _ => True

/-- A packet of the device `a` that says a word. -/
theorem obeys {s : Ctl} {a : Nat} {v v' : Talk} {x : Word} {o : List Word} (hs : Side s a v) (ha : a ≠ 0) (hh : Hears v x v' o) (now d rssi : Nat) (p : Pkt)
    (hw : word s.addr (d, p) = some x) : Obeys a v' o (incoming s now a d rssi p) := by
  have hme : d = s.addr ∨ d = 0 := by
    unfold word at hw
    split at hw
    · assumption
    · cases hw
  have ht : (touch s now a).sco = s.sco := by rw [touch_eq]
  have hi : Inv (touch s now a) := (touch_inv hs.inv now a).1
  have hs' : Side (touch s now a) a v := ⟨hi, by rw [ht]; exact hs.named, talks_same hs.talks (by rw [ht])⟩
  unfold incoming
  rw [if_neg (by omega)]
  unfold word at hw
  rw [if_pos hme] at hw
  generalize touch s now a = u at hi hs'
  cases p with
  | scoReq q c =>
    cases hw
    show Obeys a v' o (onScoReq u a q c)
    unfold onScoReq
    have hp := talks_pending hs'.talks
    cases hh with
    | request =>
      have hp : scoPending u a = false := by
        cases h : scoPending u a with
        | false => rfl
        | true => rcases hp.1 h with h1 | h1 <;> cases h1
      rw [hp]
      simp only [Bool.false_eq_true, if_false]
      split
      · trivial
      · rename_i u' h1
        obtain ⟨k, h2⟩ := create_named hi h1
        refine ⟨fun e he => ?_, ⟨⟨a, q, noLink, if Sco.isExtended q then .sentEsco else .sentSco, false, false, false⟩, ?_, ?_⟩, rfl⟩
        · rw [h2] at he
          rcases List.mem_cons.1 he with rfl | he
          · exact ha
          · exact hs'.named e he
        · show entries u'.sco a = _
          rw [h2, entries_cons, if_pos rfl]
          exact congrArg _ hs'.talks
        · show (if Sco.isExtended q = true then ScoState.sentEsco else .sentSco) = .sentEsco ∨ (if Sco.isExtended q = true then ScoState.sentEsco else .sentSco) = .sentSco
          split
          · exact .inl rfl
          · exact .inr rfl
    | crossed =>
      rw [hp.2 (.inl rfl)]
      refine ⟨hs'.named, hs'.talks, ?_⟩
      simp [words, word, Status.syncLimit]
  | scoRsp st l =>
    show Obeys a v' o (onScoRsp u a st l)
    unfold onScoRsp
    injection hw with hw
    by_cases hst : st = 0
    · rw [if_pos hst] at hw
      subst hw
      cases hh with
      | yes =>
        obtain ⟨c, h1, h2⟩ := hs'.talks
        obtain ⟨k, h3, h4, h5⟩ := entries_one h1
        rw [h3]
        simp only [show st = Status.success from hst, if_true]
        split
        · trivial
        · rename_i t h6
          unfold openSyn at h6
          split at h6
          · cases h6
          · cases h6
            refine ⟨fun e he => ?_, ⟨{ c with state := .opened, link := l, stream := c.spoofed }, ?_, rfl, rfl⟩, rfl⟩
            · rcases mem_update he with ⟨_, g⟩ | ⟨_, g⟩
              · rw [g]; exact hs'.named _ h4
              · exact hs'.named _ g
            · exact entries_update_one (d := { c with state := .opened, link := l, stream := c.spoofed }) hi.ssound.nodup h4 rfl h5 h1
    · rw [if_neg hst] at hw
      subst hw
      cases hh with
      | no =>
        obtain ⟨c, h1, h2⟩ := hs'.talks
        obtain ⟨k, h3, h4, h5⟩ := entries_one h1
        rw [h3]
        simp only [show ¬st = Status.success from hst, if_false]
        split
        · trivial
        · rename_i t h6
          obtain rfl := cancel_first h3 h6
          exact ⟨fun e he => hs'.named _ (mem_erase'.1 he).1, entries_erase_one h4 h5 h1, rfl⟩
  | scoDisc r =>
    cases hw
    show Obeys a v' o (onScoDisc u a r)
    unfold onScoDisc
    cases hh with
    | bye l =>
      obtain ⟨c, h1, h2, h3⟩ := hs'.talks
      obtain ⟨k, h3, h4, h5⟩ := entries_one h1
      rw [h3]
      exact ⟨fun e he => hs'.named _ (mem_erase'.1 he).1, entries_erase_one h4 h5 h1, rfl⟩
  | _ => cases hw

/-! ## The two devices -/

/-- What is always true of two patient devices. -/
structure TalkInv (x y : Nat) (n : Net) : Prop where
  addrA : n.a.addr = x
  addrB : n.b.addr = y
  rel : ∃ v w, Side n.a y v ∧ Side n.b x w ∧ Rel v w (words y n.toB) (words x n.toA)

theorem words_append (a : Nat) (p q : List (Nat × Pkt)) : words a (p ++ q) = words a p ++ words a q := List.filterMap_append ..

theorem words_cons (a : Nat) (o : Nat × Pkt) (q : List (Nat × Pkt)) :
    (word a o = none ∧ words a (o :: q) = words a q) ∨ ∃ w, word a o = some w ∧ words a (o :: q) = w :: words a q := by
  unfold words
  rw [List.filterMap_cons]
  cases word a o with
  | none => exact .inl ⟨rfl, rfl⟩
  | some w => exact .inr ⟨w, rfl, rfl⟩

/-- A step of a host, or of time, at one of the devices. -/
theorem side_does {s s' : Ctl} {y : Nat} {v w : Talk} {vw wv : List Word} (hs : Side s y v) (hr : Rel v w vw wv) {st : Nat} {out : List (Nat × Pkt)}
    {ev : List Ev} {now : Nat} {act : Act} (hn : Named act) (hst : step s now act = .ok st s' out ev) (hl : Leads s y v wv (.ok st s' out ev)) :
    ∃ v', Side s' y v' ∧ Rel v' w (vw ++ words y out) wv := by
  have hf := fits hs.inv now act hn
  rw [hst] at hf
  obtain ⟨h1, v', h2, h3⟩ := hl
  exact ⟨v', ⟨hf.1, h1, h2⟩, rel_does hr h3⟩

/-- The arrival of a packet at one of the devices. -/
theorem side_hears {s s' : Ctl} {x y : Nat} (hx : s.addr = x) (hy : y ≠ 0) {v w : Talk} {vw : List Word} {o : Nat × Pkt} {q : List (Nat × Pkt)} (hs : Side s y v)
    (hr : Rel v w vw (words x (o :: q))) {st now rssi : Nat} {out : List (Nat × Pkt)} {ev : List Ev}
    (hst : incoming s now y o.1 rssi o.2 = .ok st s' out ev) : ∃ v', Side s' y v' ∧ Rel v' w (vw ++ words y out) (words x q) := by
  have hf := fits hs.inv now (.packet y o.1 rssi o.2) hy
  rw [show step s now (.packet y o.1 rssi o.2) = .ok st s' out ev from hst] at hf
  rcases words_cons x o q with ⟨h1, h2⟩ | ⟨z, h1, h2⟩
  · rw [h2] at hr
    have hl := leads_silent (coming := words x q) hs now y o.1 rssi o.2 (by rw [hx]; exact h1)
    rw [hst] at hl
    obtain ⟨g1, v', g2, g3⟩ := hl
    exact ⟨v', ⟨hf.1, g1, g2⟩, rel_does hr g3⟩
  · rw [h2] at hr
    obtain ⟨v', o', h3, h4⟩ := rel_hears hr
    have hl := obeys hs hy h3 now o.1 rssi o.2 (by rw [hx]; exact h1)
    rw [hst] at hl
    obtain ⟨g1, g2, g3⟩ := hl
    exact ⟨v', ⟨hf.1, g1, g2⟩, by rw [g3]; exact h4⟩

theorem patient_named {s : Ctl} {coming : List Word} {c : Cmd} (h : PatientHost s coming c) : Named (.cmd c) := by
  cases c with
  | create a r => exact h
  | _ => trivial

/-- What the host of a device does, and what time does to it. -/
theorem own_step {s : Ctl} {y : Nat} {v : Talk} {coming : List Word} (hs : Side s y v) (now : Nat) :
    (∀ c, PatientHost s coming c → Leads s y v coming (command s now c)) ∧ Leads s y v coming (tick s now) ∧
    ∀ h, InTime s now h → Leads s y v coming (checkExpiring s now h) :=
  ⟨fun c hc => leads_command hs now c hc, leads_tick hs now, fun h ht => leads_check hs now h ht⟩

/-- A step at the first device. -/
theorem talk_putA {x y : Nat} {n n' : Net} (hn : TalkInv x y n) {now : Nat} {act : Act} (hN : Named act) {ea eb : List Ev}
    (hl : ∀ v, Side n.a y v → Leads n.a y v (words x n.toA) (step n.a now act)) (hs : putA n n.toA (step n.a now act) = some (n', ea, eb)) :
    TalkInv x y n' := by
  obtain ⟨h1, h2, v, w, h3, h4, h5⟩ := hn
  unfold putA at hs
  split at hs
  · rename_i st s' out ev hst
    cases hs
    have hl := hl v h3
    rw [hst] at hl
    obtain ⟨v', h6, h7⟩ := side_does h3 h5 hN hst hl
    exact ⟨(step_addr hst).trans h1, h2, v', w, h6, h4, by rw [words_append]; exact h7⟩
  · cases hs

/-- A step at the second device. -/
theorem talk_putB {x y : Nat} {n n' : Net} (hn : TalkInv x y n) {now : Nat} {act : Act} (hN : Named act) {ea eb : List Ev}
    (hl : ∀ v, Side n.b x v → Leads n.b x v (words y n.toB) (step n.b now act)) (hs : putB n n.toB (step n.b now act) = some (n', ea, eb)) :
    TalkInv x y n' := by
  obtain ⟨h1, h2, v, w, h3, h4, h5⟩ := hn
  unfold putB at hs
  split at hs
  · rename_i st s' out ev hst
    cases hs
    have hl := hl w h4
    rw [hst] at hl
    obtain ⟨w', h6, h7⟩ := side_does h4 h5.symm hN hst hl
    exact ⟨h1, (step_addr hst).trans h2, v, w', h3, h6, by rw [words_append]; exact h7.symm⟩
  · cases hs

theorem talk_step {x y : Nat} (hx : x ≠ 0) (hy : y ≠ 0) {n n' : Net} (hn : TalkInv x y n) {now : Nat} {act : NAct} (hp : PatientNet n now act)
    {ea eb : List Ev} (hs : nstep n now act = some (n', ea, eb)) : TalkInv x y n' := by
  obtain ⟨ha, hb, -⟩ := id hn
  cases act with
  | hostA c =>
    have hp : PatientHost n.a (words x n.toA) c := by rw [← ha]; exact hp
    exact talk_putA (act := .cmd c) hn (patient_named hp) (fun v h => (own_step h now).1 c hp) hs
  | hostB c =>
    have hp : PatientHost n.b (words y n.toB) c := by rw [← hb]; exact hp
    exact talk_putB (act := .cmd c) hn (patient_named hp) (fun v h => (own_step h now).1 c hp) hs
  | tickA => exact talk_putA (act := .tick) hn trivial (fun v h => (own_step h now).2.1) hs
  | tickB => exact talk_putB (act := .tick) hn trivial (fun v h => (own_step h now).2.1) hs
  | checkA k => exact talk_putA (act := .check k) hn trivial (fun v h => (own_step h now).2.2 k hp) hs
  | checkB k => exact talk_putB (act := .check k) hn trivial (fun v h => (own_step h now).2.2 k hp) hs
  | arriveA =>
    obtain ⟨h1, h2, v, w, h3, h4, h5⟩ := hn
    simp only [nstep] at hs
    split at hs
    · cases hs
      exact ⟨h1, h2, v, w, h3, h4, h5⟩
    · rename_i d p q hq
      unfold putA at hs
      split at hs
      · rename_i st s' out ev hst
        cases hs
        rw [hq] at h5
        rw [h2] at hst
        obtain ⟨v', h6, h7⟩ := side_hears (o := (d, p)) h1 hy h3 h5 hst
        exact ⟨(step_addr (x := .packet y d 0 p) hst).trans h1, h2, v', w, h6, h4, by rw [words_append]; exact h7⟩
      · cases hs
  | arriveB =>
    obtain ⟨h1, h2, v, w, h3, h4, h5⟩ := hn
    simp only [nstep] at hs
    split at hs
    · cases hs
      exact ⟨h1, h2, v, w, h3, h4, h5⟩
    · rename_i d p q hq
      unfold putB at hs
      split at hs
      · rename_i st s' out ev hst
        cases hs
        rw [hq] at h5
        rw [h1] at hst
        obtain ⟨w', h6, h7⟩ := side_hears (o := (d, p)) h2 hx h4 h5.symm hst
        exact ⟨h1, (step_addr (x := .packet x d 0 p) hst).trans h2, v, w', h3, h6, by rw [words_append]; exact h7.symm⟩
      · cases hs

theorem talk_reach {x y : Nat} (hx : x ≠ 0) (hy : y ≠ 0) {i j : Info} {p q : Nat} {n : Net}
    (hr : TalkReach PatientNet (Ctl.fresh x i p) (Ctl.fresh y j q) n) : TalkInv x y n := by
  induction hr with
  | start => exact ⟨rfl, rfl, .none, .none, ⟨fresh_inv .., by simp [Ctl.fresh], rfl⟩, ⟨fresh_inv .., by simp [Ctl.fresh], rfl⟩, .inl .idle⟩
  | step _ hp hs ih => exact talk_step hx hy ih hp hs

/-- Nothing on its way: the two agree. -/
theorem rel_settled {v w : Talk} (h : Rel v w [] []) : (v = .none ∧ w = .none) ∨ (v = .asked ∧ w = .offered) ∨ (v = .offered ∧ w = .asked) ∨
    ∃ l, v = .on l ∧ w = .on l := by
  rcases h with h | h <;> cases h <;> simp

end Verif.Br
