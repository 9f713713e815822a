import Verif.Br.SpecCalls
import Verif.Br.BookLemmas
/-! # Lemmas for C117 -/
namespace Verif.Br
open Verif.Conn (Table find erase keys ScoState)
open Verif.Sco (ConnParams LinkParams)

/-! ## The table -/

/-- Only the first connection with a device may be one that is not open yet. -/
def Front (t : Table Syn) : Prop := t.Pairwise (fun e d => e.2.addr = d.2.addr → d.2.state = .opened)

/-- The book fits the controller. -/
structure Called (s : Ctl) (b : Calls) : Prop where
  known : ∀ k a, b.known k = some a ↔ ∃ c, (k, c) ∈ s.sco ∧ c.addr = a ∧ c.state = .opened
  asked : ∀ a, b.asked a = true ↔ ∃ e ∈ s.sco, e.2.addr = a ∧ e.2.state ≠ .opened
  front : Front s.sco
  live : ∀ e ∈ s.sco, e.2.state ≠ .closed
  connHeard : s.mask.testBit 2 = true
  discHeard : s.mask.testBit 4 = true

theorem front_first {t : Table Syn} (hf : Front t) {e : Nat × Syn} (he : e ∈ t) (hs : e.2.state ≠ .opened) :
    scoOf t e.2.addr = some e := by
  rw [scoOf_find?]
  induction t with
  | nil => cases he
  | cons d t ih =>
    rw [List.find?_cons]
    obtain ⟨h1, h2⟩ := List.pairwise_cons.1 hf
    rcases List.mem_cons.1 he with rfl | h3
    · simp
    · have h4 : ¬ d.2.addr = e.2.addr := fun h5 => hs (h1 e h3 h5)
      simp only [h4, decide_false]
      exact ih h2 h3

theorem front_rest {t : Table Syn} (hf : Front t) (hn : (keys t).Nodup) {a k : Nat} {c : Syn} (hk : scoOf t a = some (k, c)) {e : Nat × Syn}
    (he : e ∈ t) (ha : e.2.addr = a) (hne : e.1 ≠ k) : e.2.state = .opened := by
  apply Classical.byContradiction
  intro hs
  have := front_first hf he hs
  rw [ha, hk] at this
  cases this
  exact hne rfl

theorem front_sub {t u : Table Syn} (h : u.Sublist t) (hf : Front t) : Front u := List.Pairwise.sublist h hf

theorem front_erase {t : Table Syn} (hf : Front t) (k : Nat) : Front (erase t k) := front_sub List.filter_sublist hf

theorem mem_update_iff {t : Table Syn} {h : Nat} {c c0 : Syn} (hm : (h, c0) ∈ t) {e : Nat × Syn} :
    e ∈ update t h c ↔ e = (h, c) ∨ (e.1 ≠ h ∧ e ∈ t) := by
  unfold update
  rw [List.mem_map]
  constructor
  · rintro ⟨d, hd, rfl⟩
    by_cases h1 : d.1 = h
    · rw [if_pos h1]; exact .inl rfl
    · rw [if_neg h1]; exact .inr ⟨h1, hd⟩
  · rintro (rfl | ⟨h1, h2⟩)
    · exact ⟨_, hm, if_pos rfl⟩
    · exact ⟨e, h2, if_neg h1⟩

theorem front_update {t : Table Syn} (hf : Front t) (hn : (keys t).Nodup) {h : Nat} {c c0 : Syn} (hm : (h, c0) ∈ t) (ha : c.addr = c0.addr)
    (ho : c.state = .opened) : Front (update t h c) := by
  unfold Front update
  rw [List.pairwise_map]
  refine List.Pairwise.imp_of_mem ?_ hf
  intro e d he hd hr
  have huniq : ∀ x ∈ t, x.1 = h → x.2 = c0 := fun x hx hk => by
    refine unique hn (h := h) ?_ hm
    rw [← hk]
    exact hx
  by_cases h2 : d.1 = h
  · rw [if_pos h2]
    exact fun _ => ho
  · rw [if_neg h2]
    by_cases h1 : e.1 = h
    · rw [if_pos h1]
      intro hx
      refine hr ?_
      rw [huniq e he h1, ← ha]
      exact hx
    · rw [if_neg h1]
      exact hr

theorem erase_update (t : Table Syn) (h : Nat) (c : Syn) : erase (update t h c) h = erase t h := by
  unfold erase update
  rw [List.filter_map]
  have : t.filter ((fun e => decide (e.1 ≠ h)) ∘ fun e => if e.1 = h then (h, c) else e) = t.filter (fun e => decide (e.1 ≠ h)) := by
    apply List.filter_congr
    intro e _
    by_cases h1 : e.1 = h
    · simp [h1]
    · simp [h1]
  rw [this]
  rw [List.map_congr_left (g := id)]
  · exact List.map_id _
  · intro e he
    have := of_decide_eq_true (List.mem_filter.1 he).2
    rw [if_neg this]
    rfl

theorem mem_erase' {t : Table Syn} {h : Nat} {e : Nat × Syn} : e ∈ erase t h ↔ e ∈ t ∧ e.1 ≠ h := by
  unfold erase
  rw [List.mem_filter, decide_eq_true_eq]

/-! ## The book against the table -/

theorem pending_iff {s : Ctl} {b : Calls} (hb : Called s b) (a : Nat) : scoPending s a = b.asked a := by
  rw [Bool.eq_iff_iff, hb.asked a]
  unfold scoPending
  constructor
  · cases hs : scoOf s.sco a with
    | none => intro h; cases h
    | some e =>
      obtain ⟨k, c⟩ := e
      intro h
      obtain ⟨h1, h2⟩ := scoOf_some hs
      refine ⟨_, h1, h2, fun h3 => ?_⟩
      have h3 : c.state = .opened := h3
      simp only [h3] at h
      revert h
      decide
  · rintro ⟨e, he, rfl, hs⟩
    rw [front_first hb.front he hs]
    have := hb.live e he
    cases h : e.2.state <;> simp_all

theorem known_of {s : Ctl} (hi : Inv s) {b : Calls} (hb : Called s b) {k : Nat} {c : Syn} (hm : (k, c) ∈ s.sco) :
    b.known k = if c.state = .opened then some c.addr else none := by
  by_cases h : c.state = .opened
  · rw [if_pos h]
    exact (hb.known k c.addr).2 ⟨c, hm, rfl, h⟩
  · rw [if_neg h]
    cases hk : b.known k with
    | none => rfl
    | some a =>
      obtain ⟨d, h1, _, h3⟩ := (hb.known k a).1 hk
      rw [unique hi.ssound.nodup h1 hm] at h3
      exact absurd h3 h

theorem known_none {s : Ctl} {b : Calls} (hb : Called s b) {k : Nat} (hk : k ∉ keys s.sco) : b.known k = none := by
  cases h : b.known k with
  | none => rfl
  | some a =>
    obtain ⟨c, h1, _⟩ := (hb.known k a).1 h
    exact absurd (mem_keys h1) hk

theorem known_acl {s : Ctl} (hi : Inv s) {b : Calls} (hb : Called s b) {k : Nat} (hk : k ≤ 255) : b.known k = none :=
  known_none hb (fun h => by have := (hi.ssound.range k h).1; omega)

theorem known_range {s : Ctl} (hi : Inv s) {b : Calls} (hb : Called s b) {k : Nat} (hk : b.known k ≠ none) : 256 ≤ k ∧ k ≤ 511 := by
  cases h : b.known k with
  | none => exact absurd h hk
  | some a =>
    obtain ⟨c, h1, _⟩ := (hb.known k a).1 h
    exact hi.ssound.range k (mem_keys h1)

/-! ## Steps -/

/-- What the host is told of its synchronous connections: a connection that is new answers a request; an end is that of a known
connection, of a request, or of a connection that is not synchronous. -/
def CallNews (b : Calls) (ev : List Ev) : Prop :=
  (∀ e ∈ ev, ∀ k a, begun e = some (k, a) → 256 ≤ k ∧ k ≤ 511 ∧ (b.known k = some a ∨ (b.known k = none ∧ b.asked a = true))) ∧
  ∀ k r, .disconnComplete k r ∈ ev → k ≤ 255 ∨ b.known k ≠ none ∨ ∃ a, b.asked a = true

/-- What a step must do. -/
def Says (b : Calls) (x : Act) : Res → Prop
  | .ok st s' out ev => (∀ now, Called s' (b.note ⟨now, x, st, out, ev⟩)) ∧ CallNews b ev
  | _ => True

/-- Events that do not concern synchronous connections. -/
def Hush (ev : List Ev) : Prop :=
  ∀ e ∈ ev, begun e = none ∧ askedBy e = none ∧ settles e = none ∧ ∀ k r, e = .disconnComplete k r → k ≤ 255

theorem hush_nil : Hush [] := nofun

theorem Hush.append {l m : List Ev} (h : Hush l) (g : Hush m) : Hush (l ++ m) := fun e he =>
  (List.mem_append.1 he).elim (h e) (g e)

/-- The events that never do. -/
def Ev.quiet : Ev → Bool
  | .syncComplete _ _ _ _ _ _ _ _ _ => false
  | .connComplete _ _ _ .acl => true
  | .connComplete _ _ _ _ => false
  | .connRequest _ _ .acl => true
  | .connRequest _ _ _ => false
  | .disconnComplete k _ => decide (k ≤ 255)
  | _ => true

theorem hush_ev {e : Ev} (h : e.quiet = true) : begun e = none ∧ askedBy e = none ∧ settles e = none ∧ ∀ k r, e = .disconnComplete k r → k ≤ 255 := by
  cases e with
  | connComplete st k a l =>
    cases l with
    | acl => exact ⟨rfl, rfl, rfl, nofun⟩
    | sco => cases h
    | esco => cases h
  | connRequest a c l =>
    cases l with
    | acl => exact ⟨rfl, rfl, rfl, nofun⟩
    | sco => cases h
    | esco => cases h
  | syncComplete => cases h
  | disconnComplete k r => exact ⟨rfl, rfl, rfl, fun k' r' he => by cases he; exact of_decide_eq_true h⟩
  | _ => exact ⟨rfl, rfl, rfl, nofun⟩

theorem hush_one {e : Ev} (h : e.quiet = true) : Hush [e] := fun x hx => by rw [List.mem_singleton.1 hx]; exact hush_ev h

theorem hush_tell {s : Ctl} {code : Nat} {e : Ev} (h : e.quiet = true) : Hush (tell s code e) := by
  unfold tell
  split
  · exact hush_one h
  · exact hush_nil

theorem Hush.hear {ev : List Ev} (h : Hush ev) {m : Nat → Option Nat} (hm : ∀ k, k ≤ 255 → m k = none) : ev.foldl hearCall m = m := by
  induction ev with
  | nil => rfl
  | cons e ev ih =>
    rw [List.foldl_cons]
    obtain ⟨h1, _, _, h4⟩ := h e (.head _)
    have : hearCall m e = m := by
      unfold hearCall
      rw [h1]
      simp only []
      cases e with
      | disconnComplete k r =>
        funext j
        show (if j = k then none else m j) = m j
        by_cases hj : j = k
        · rw [if_pos hj, hj, hm k (h4 k r rfl)]
        · rw [if_neg hj]
      | _ => rfl
    rw [this]
    exact ih (fun e he => h e (.tail _ he))

theorem Hush.news {ev : List Ev} (h : Hush ev) (b : Calls) : CallNews b ev :=
  ⟨fun e he k a hb => by (rw [(h e he).1] at hb; cases hb), fun k r he => .inl ((h _ he).2.2.2 k r rfl)⟩

theorem Hush.any {ev : List Ev} (h : Hush ev) (a : Nat) :
    ev.any (fun e => askedBy e == some a) = false ∧ ev.any (fun e => settles e == some a) = false := by
  constructor
  · rw [List.any_eq_false]
    intro e he
    rw [(h e he).2.1]
    exact nofun
  · rw [List.any_eq_false]
    intro e he
    rw [(h e he).2.2.1]
    exact nofun

/-- Packets that do not ask for a synchronous connection. -/
def Still' (out : List (Nat × Pkt)) : Prop := ∀ o ∈ out, asksFor o = none

theorem still_any {out : List (Nat × Pkt)} (h : Still' out) (a : Nat) : out.any (fun o => asksFor o == some a) = false := by
  rw [List.any_eq_false]
  intro o ho
  rw [h o ho]
  exact nofun

theorem still_nil : Still' [] := nofun

theorem still_one {a : Nat} {p : Pkt} (h : asksFor (a, p) = none) : Still' [(a, p)] := fun o ho => by rw [List.mem_singleton.1 ho]; exact h

theorem note_known {b : Calls} {x : Seen} (h : x.act ≠ .cmd .reset) : (b.note x).known = x.ev.foldl hearCall b.known := by
  unfold Calls.note
  rw [if_neg h]

theorem note_asked {b : Calls} {x : Seen} (h : x.act ≠ .cmd .reset) (a : Nat) : (b.note x).asked a =
    (x.out.any (fun o => asksFor o == some a) || x.ev.any (fun e => askedBy e == some a) ||
      (b.asked a && !(x.ev.any (fun e => settles e == some a) || withdrawn b x a))) := by
  unfold Calls.note
  rw [if_neg h]

/-- Nothing happens to the synchronous connections. -/
theorem says_calm {s s' : Ctl} {b : Calls} {x : Act} {st : Nat} {out : List (Nat × Pkt)} {ev : List Ev} (hi : Inv s) (hb : Called s b)
    (hr : x ≠ .cmd .reset) (h1 : s'.sco = s.sco) (h2 : s'.mask = s.mask) (hd : Hush ev) (ho : Still' out)
    (hw : ∀ now a, withdrawn b ⟨now, x, st, out, ev⟩ a = false) : Says b x (.ok st s' out ev) := by
  refine ⟨fun now => ?_, hd.news b⟩
  have hk : (b.note ⟨now, x, st, out, ev⟩).known = b.known := by
    rw [note_known hr]
    exact hd.hear (fun k hk => known_acl hi hb hk)
  have ha : ∀ a, (b.note ⟨now, x, st, out, ev⟩).asked a = b.asked a := by
    intro a
    rw [note_asked hr, hw now a]
    show (out.any _ || ev.any _ || (b.asked a && !(ev.any _ || false))) = _
    rw [still_any ho a, (hd.any a).1, (hd.any a).2]
    simp
  exact ⟨by rw [hk, h1]; exact hb.known, fun a => by rw [ha a, h1]; exact hb.asked a, by rw [h1]; exact hb.front, by rw [h1]; exact hb.live,
    by rw [h2]; exact hb.connHeard, by rw [h2]; exact hb.discHeard⟩

theorem says_refuse {s : Ctl} {b : Calls} {x : Act} {st : Nat} (hi : Inv s) (hb : Called s b) (hr : x ≠ .cmd .reset) :
    Says b x (refuse s st) := by
  refine says_calm hi hb hr rfl rfl hush_nil still_nil (fun now a => ?_)
  unfold withdrawn
  cases x with
  | cmd c => cases c <;> simp
  | tick => rfl
  | check h => rfl
  | packet src dst rssi p => cases p <;> simp

/-- A request. -/
theorem says_ask {s s' : Ctl} {b : Calls} {x : Act} {st h : Nat} {c : Syn} {out : List (Nat × Pkt)} {ev : List Ev} (hb : Called s b)
    (hr : x ≠ .cmd .reset) (h1 : s'.sco = (h, c) :: s.sco) (h2 : s'.mask = s.mask) (hk : h ∉ keys s.sco) (hc : c.state ≠ .opened)
    (hc' : c.state ≠ .closed) (hp : scoPending s c.addr = false) (hg : ev.foldl hearCall b.known = b.known)
    (ha : ∀ a, (out.any (fun o => asksFor o == some a) || ev.any (fun e => askedBy e == some a)) = decide (a = c.addr))
    (hset : ∀ a, ev.any (fun e => settles e == some a) = false) (hn : CallNews b ev)
    (hw : ∀ now a, withdrawn b ⟨now, x, st, out, ev⟩ a = false) : Says b x (.ok st s' out ev) := by
  refine ⟨fun now => ?_, hn⟩
  rw [pending_iff hb] at hp
  refine ⟨fun k a => ?_, fun a => ?_, ?_, ?_, by rw [h2]; exact hb.connHeard, by rw [h2]; exact hb.discHeard⟩
  · rw [note_known hr]
    show ev.foldl hearCall b.known k = some a ↔ _
    rw [hg, hb.known, h1]
    constructor
    · rintro ⟨d, hd, h3⟩
      exact ⟨d, .tail _ hd, h3⟩
    · rintro ⟨d, hd, h3, h4⟩
      rcases List.mem_cons.1 hd with h5 | h5
      · cases h5; exact absurd h4 hc
      · exact ⟨d, h5, h3, h4⟩
  · rw [note_asked hr, hw now a]
    show (out.any _ || ev.any _ || (b.asked a && !(ev.any _ || false))) = true ↔ _
    rw [ha a, hset a, h1]
    simp only [Bool.or_false, Bool.not_false, Bool.and_true, Bool.or_eq_true, decide_eq_true_eq]
    rw [hb.asked a]
    constructor
    · rintro (rfl | ⟨e, he, h3⟩)
      · exact ⟨_, .head _, rfl, hc⟩
      · exact ⟨e, .tail _ he, h3⟩
    · rintro ⟨e, he, h3, h4⟩
      rcases List.mem_cons.1 he with rfl | h5
      · exact .inl h3.symm
      · exact .inr ⟨e, h5, h3, h4⟩
  · rw [h1]
    refine List.pairwise_cons.2 ⟨fun e he hx => ?_, hb.front⟩
    apply Classical.byContradiction
    intro hs
    rw [(hb.asked c.addr).2 ⟨e, he, hx.symm, hs⟩] at hp
    cases hp
  · rw [h1]
    intro e he
    rcases List.mem_cons.1 he with rfl | h3
    · exact hc'
    · exact hb.live e h3

/-- A connection opens. -/
theorem says_open {s s' : Ctl} {b : Calls} {x : Act} {st h a : Nat} {c d : Syn} {out : List (Nat × Pkt)} {e : Ev} (hi : Inv s) (hb : Called s b)
    (hr : x ≠ .cmd .reset) (hf : scoOf s.sco a = some (h, c)) (h1 : s'.sco = update s.sco h d) (h2 : s'.mask = s.mask) (hd : d.addr = c.addr)
    (hd' : d.state = .opened) (he : begun e = some (h, a)) (ho : Still' out) (hs : settles e = some a) (hq : askedBy e = none)
    (hne : ∀ k r, e ≠ .disconnComplete k r) (hw : ∀ now a, withdrawn b ⟨now, x, st, out, [e]⟩ a = false) : Says b x (.ok st s' out [e]) := by
  obtain ⟨hm, haddr⟩ := scoOf_some hf
  refine ⟨fun now => ?_, ?_⟩
  · refine ⟨fun k y => ?_, fun y => ?_, ?_, ?_, by rw [h2]; exact hb.connHeard, by rw [h2]; exact hb.discHeard⟩
    · rw [note_known hr]
      show hearCall b.known e k = some y ↔ _
      unfold hearCall
      rw [he]
      show (if k = h then some a else b.known k) = some y ↔ _
      rw [h1]
      simp only [mem_update_iff hm]
      by_cases hk : k = h
      · rw [if_pos hk, hk]
        constructor
        · intro hx
          cases hx
          exact ⟨d, .inl rfl, hd.trans haddr, hd'⟩
        · rintro ⟨g, hg | hg, h3, -⟩
          · cases hg
            rw [← h3, hd, haddr]
          · exact absurd rfl hg.1
      · rw [if_neg hk, hb.known]
        constructor
        · rintro ⟨g, hg, h3⟩
          exact ⟨g, .inr ⟨hk, hg⟩, h3⟩
        · rintro ⟨g, hg | hg, h3⟩
          · cases hg; exact absurd rfl hk
          · exact ⟨g, hg.2, h3⟩
    · rw [note_asked hr, hw now y]
      show (out.any _ || (askedBy e == some y || false) || (b.asked y && !((settles e == some y || false) || false))) = true ↔ _
      rw [still_any ho y, hq, hs, h1]
      simp only [mem_update_iff hm]
      have e1 : ((none : Option Nat) == some y) = false := rfl
      rw [e1]
      simp only [Bool.or_false, Bool.false_or, Bool.and_eq_true, Bool.not_eq_true', beq_eq_false_iff_ne, ne_eq, Option.some.injEq]
      rw [hb.asked y]
      constructor
      · rintro ⟨⟨g, hg, h3, h4⟩, hy⟩
        refine ⟨g, .inr ⟨fun h5 => ?_, hg⟩, h3, h4⟩
        have : g.2 = c := unique hi.ssound.nodup (h := h) (by rw [← h5]; exact hg) hm
        rw [this, haddr] at h3
        exact hy h3
      · rintro ⟨g, hg | hg, h3, h4⟩
        · rw [hg] at h4; exact absurd hd' h4
        · refine ⟨⟨g, hg.2, h3, h4⟩, fun hy => ?_⟩
          exact h4 (front_rest hb.front hi.ssound.nodup hf hg.2 (h3.trans hy.symm) hg.1)
    · rw [h1]; exact front_update hb.front hi.ssound.nodup hm hd hd'
    · rw [h1]
      intro g hg
      rcases (mem_update_iff hm).1 hg with rfl | h3
      · rw [hd']; exact nofun
      · exact hb.live g h3.2
  · refine ⟨fun e' he' k y hk => ?_, fun k r hk => absurd (List.mem_singleton.1 hk).symm (hne k r)⟩
    rw [List.mem_singleton.1 he', he] at hk
    cases hk
    have hrg := hi.ssound.range h (mem_keys hm)
    refine ⟨hrg.1, hrg.2, ?_⟩
    rw [known_of hi hb hm]
    by_cases ho : c.state = .opened
    · rw [if_pos ho, haddr]; exact .inl rfl
    · rw [if_neg ho]; exact .inr ⟨rfl, (hb.asked a).2 ⟨_, hm, haddr, ho⟩⟩

/-- A request fails. -/
theorem says_fail {s s' : Ctl} {b : Calls} {x : Act} {st h a : Nat} {c : Syn} {out : List (Nat × Pkt)} {e : Ev} (hi : Inv s) (hb : Called s b)
    (hr : x ≠ .cmd .reset) (hf : scoOf s.sco a = some (h, c)) (hc : c.state ≠ .opened) (h1 : s'.sco = erase s.sco h) (h2 : s'.mask = s.mask)
    (he : begun e = none) (ho : Still' out) (hs : settles e = some a) (hq : askedBy e = none)
    (hne : ∀ k r, e ≠ .disconnComplete k r) (hw : ∀ now a, withdrawn b ⟨now, x, st, out, [e]⟩ a = false) : Says b x (.ok st s' out [e]) := by
  obtain ⟨hm, haddr⟩ := scoOf_some hf
  refine ⟨fun now => ?_, ?_⟩
  · refine ⟨fun k y => ?_, fun y => ?_, ?_, ?_, by rw [h2]; exact hb.connHeard, by rw [h2]; exact hb.discHeard⟩
    · have h3 : hearCall b.known e = b.known := by
        unfold hearCall
        rw [he]
        cases e with
        | disconnComplete k r => exact absurd rfl (hne k r)
        | _ => rfl
      rw [note_known hr]
      show hearCall b.known e k = some y ↔ _
      rw [h3, hb.known, h1]
      simp only [mem_erase']
      constructor
      · rintro ⟨g, hg, h3, h4⟩
        refine ⟨g, ⟨hg, fun h5 => ?_⟩, h3, h4⟩
        have h5 : k = h := h5
        subst h5
        rw [unique hi.ssound.nodup hg hm] at h4
        exact hc h4
      · rintro ⟨g, hg, h3⟩
        exact ⟨g, hg.1, h3⟩
    · rw [note_asked hr, hw now y]
      show (out.any _ || (askedBy e == some y || false) || (b.asked y && !((settles e == some y || false) || false))) = true ↔ _
      rw [still_any ho y, hq, hs, h1]
      simp only [mem_erase']
      have e1 : ((none : Option Nat) == some y) = false := rfl
      rw [e1]
      simp only [Bool.or_false, Bool.false_or, Bool.and_eq_true, Bool.not_eq_true', beq_eq_false_iff_ne, ne_eq, Option.some.injEq]
      rw [hb.asked y]
      constructor
      · rintro ⟨⟨g, hg, h3, h4⟩, hy⟩
        refine ⟨g, ⟨hg, fun h5 => ?_⟩, h3, h4⟩
        have : g.2 = c := unique hi.ssound.nodup (h := h) (by rw [← h5]; exact hg) hm
        rw [this, haddr] at h3
        exact hy h3
      · rintro ⟨g, hg, h3, h4⟩
        refine ⟨⟨g, hg.1, h3, h4⟩, fun hy => ?_⟩
        exact h4 (front_rest hb.front hi.ssound.nodup hf hg.1 (h3.trans hy.symm) hg.2)
    · rw [h1]; exact front_erase hb.front h
    · rw [h1]
      exact fun g hg => hb.live g (mem_erase'.1 hg).1
  · refine ⟨fun e' he' k y hk => ?_, fun k r hk => absurd (List.mem_singleton.1 hk).symm (hne k r)⟩
    rw [List.mem_singleton.1 he', he] at hk
    cases hk

/-- A connection, or a request, ends. -/
theorem says_end {s s' : Ctl} {b : Calls} {x : Act} {st h why : Nat} {c : Syn} {out : List (Nat × Pkt)} {ev : List Ev} (hi : Inv s) (hb : Called s b)
    (hr : x ≠ .cmd .reset) (hm : (h, c) ∈ s.sco) (h1 : s'.sco = erase s.sco h) (h2 : s'.mask = s.mask) (ho : Still' out) (hd : Hush ev)
    (W : Prop) (hw1 : c.state ≠ .opened → W) (hw2 : W → ∀ e ∈ erase s.sco h, e.2.addr = c.addr → e.2.state = .opened)
    (hw : ∀ now a, withdrawn b ⟨now, x, st, out, .disconnComplete h why :: ev⟩ a = true ↔ (a = c.addr ∧ W)) :
    Says b x (.ok st s' out (.disconnComplete h why :: ev)) := by
  refine ⟨fun now => ?_, ?_⟩
  · refine ⟨fun k y => ?_, fun y => ?_, ?_, ?_, by rw [h2]; exact hb.connHeard, by rw [h2]; exact hb.discHeard⟩
    · rw [note_known hr]
      show ev.foldl hearCall (fun k => if k = h then none else b.known k) k = some y ↔ _
      rw [hd.hear (fun j hj => by
        show (if j = h then none else b.known j) = none
        rw [known_acl hi hb hj]; split <;> rfl), h1]
      simp only [mem_erase']
      by_cases hk : k = h
      · rw [if_pos hk]
        constructor
        · intro hx; cases hx
        · rintro ⟨g, hg, -⟩
          exact absurd hk hg.2
      · rw [if_neg hk, hb.known]
        constructor
        · rintro ⟨g, hg, h3⟩
          exact ⟨g, ⟨hg, hk⟩, h3⟩
        · rintro ⟨g, hg, h3⟩
          exact ⟨g, hg.1, h3⟩
    · rw [note_asked hr]
      show (out.any _ || (false || ev.any _) || (b.asked y && !((false || ev.any _) || withdrawn _ _ y))) = true ↔ _
      rw [still_any ho y, (hd.any y).1, (hd.any y).2, h1]
      simp only [Bool.or_false, Bool.false_or, Bool.and_eq_true, Bool.not_eq_true', ← Bool.not_eq_true]
      rw [hw now y, hb.asked y]
      constructor
      · rintro ⟨⟨g, hg, h3, h4⟩, hy⟩
        refine ⟨g, mem_erase'.2 ⟨hg, fun h5 => ?_⟩, h3, h4⟩
        have : g.2 = c := unique hi.ssound.nodup (h := h) (by rw [← h5]; exact hg) hm
        rw [this] at h3 h4
        exact hy ⟨h3.symm, hw1 h4⟩
      · rintro ⟨g, hg, h3, h4⟩
        exact ⟨⟨g, (mem_erase'.1 hg).1, h3, h4⟩, fun hy => h4 (hw2 hy.2 g hg (h3.trans hy.1))⟩
    · rw [h1]; exact front_erase hb.front h
    · rw [h1]
      exact fun g hg => hb.live g (mem_erase'.1 hg).1
  · refine ⟨fun e' he' k y hk => ?_, fun k r hk => ?_⟩
    · rcases List.mem_cons.1 he' with rfl | h3
      · cases hk
      · rw [(hd e' h3).1] at hk; cases hk
    · rcases List.mem_cons.1 hk with h3 | h3
      · cases h3
        rw [known_of hi hb hm]
        by_cases ho : c.state = .opened
        · rw [if_pos ho]; exact .inr (.inl nofun)
        · exact .inr (.inr ⟨c.addr, (hb.asked _).2 ⟨_, hm, rfl, ho⟩⟩)
      · exact .inl ((hd _ h3).2.2.2 k r rfl)

/-! ## The actions -/

theorem endAcl_sco {s s' : Ctl} {h a : Nat} (he : endAcl s h a = some s') : s'.sco = s.sco ∧ s'.mask = s.mask ∧ scoOf s.sco a = none := by
  unfold endAcl at he
  split at he
  · cases he
  · rename_i hn
    rw [Option.map_eq_some_iff] at he
    obtain ⟨lm, _, rfl⟩ := he
    exact ⟨rfl, rfl, by simpa using hn⟩

theorem scoOf_none {t : Table Syn} {a : Nat} (h : scoOf t a = none) : ∀ e ∈ t, e.2.addr ≠ a := by
  rw [scoOf_find?, List.find?_eq_none] at h
  intro e he hx
  exact h e he (by simpa using hx)

theorem any_one (a b : Nat) : ((some b : Option Nat) == some a) = decide (a = b) := by
  rw [Bool.eq_iff_iff]
  simp only [beq_iff_eq, Option.some.injEq, decide_eq_true_eq]
  exact eq_comm

/-- Disconnect, on behalf of the host or of the supervision timeout. `w` says whether a packet about the end of a synchronous
connection withdraws a request. -/
theorem says_disconnect {s : Ctl} {b : Calls} (hi : Inv s) (hb : Called s b) (x : Act) (h r1 r2 : Nat) (hr : x ≠ .cmd .reset) (w : Bool)
    (hw : ∀ now st out ev a, withdrawn b ⟨now, x, st, out, ev⟩ a = (w && out.any (fun o => ends o == some a)))
    (hw1 : ∀ c, (h, c) ∈ s.sco → (w = true ↔ c.state ≠ .opened)) (hw2 : h ∈ keys s.acl → w = true) : Says b x (disconnect s h r1 r2) := by
  unfold disconnect
  split
  · rename_i c hf
    have hm := Conn.find_mem _ _ _ hf
    rw [tell_disc hb.discHeard]
    refine says_end hi hb hr hm rfl rfl (still_one rfl) hush_nil (c.state ≠ .opened) id (fun hc e he ha => ?_) (fun now a => ?_)
    · obtain ⟨h1, h2⟩ := mem_erase'.1 he
      have h3 := front_first hb.front hm hc
      exact front_rest hb.front hi.ssound.nodup h3 h1 ha h2
    · rw [hw]
      show (w && ((some c.addr : Option Nat) == some a || false)) = true ↔ _
      rw [any_one, Bool.or_false, Bool.and_eq_true, decide_eq_true_eq, hw1 c hm]
      exact and_comm
  split
  · exact says_refuse hi hb hr
  rename_i c hf
  have hacl := mem_keys (Conn.find_mem _ _ _ hf)
  have hlow : h ≤ 255 := (hi.sound.range h hacl).2
  split
  · rename_i k d hk
    split
    · trivial
    · rename_i s' he
      obtain ⟨h1, h2, h3⟩ := endAcl_sco he
      obtain ⟨hm, ha⟩ := scoOf_some hk
      rw [tell_disc hb.discHeard, tell_disc hb.discHeard]
      refine says_end (ev := [.disconnComplete h r2]) hi hb hr hm h1 h2 ?_ (hush_one (decide_eq_true hlow)) True (fun _ => trivial) (fun _ e he hx => ?_) (fun now a => ?_)
      · intro o ho
        rcases List.mem_cons.1 ho with rfl | ho
        · rfl
        · rw [List.mem_singleton.1 ho]; rfl
      · exact absurd (hx.trans ha) (scoOf_none h3 e he)
      · rw [hw, hw2 hacl]
        show (true && ((some c.addr : Option Nat) == some a || ((none : Option Nat) == some a || false))) = true ↔ _
        rw [any_one, ha]
        have e1 : ((none : Option Nat) == some a) = false := rfl
        rw [e1]
        simp
  · split
    · trivial
    · rename_i s' he
      obtain ⟨h1, h2, h3⟩ := endAcl_sco he
      rw [tell_disc hb.discHeard]
      refine says_calm hi hb hr h1 h2 (hush_one (decide_eq_true hlow)) (still_one rfl) (fun now a => ?_)
      rw [hw]
      show (w && ((none : Option Nat) == some a || false)) = false
      have e1 : ((none : Option Nat) == some a) = false := rfl
      rw [e1]
      simp

theorem says_tick {s : Ctl} {b : Calls} (hi : Inv s) (hb : Called s b) (now : Nat) : Says b .tick (tick s now) := by
  rw [tick_eq]
  obtain ⟨page, h1, -⟩ := paging_same { s with later := [] } now
  obtain ⟨inq, h2⟩ := inquiring_same (paging { s with later := [] } now).1 now
  refine says_calm hi hb nofun (by rw [h2, h1]) (by rw [h2, h1]) ?_ ?_ (fun _ _ => rfl)
  · refine (Hush.append ?_ ?_).append ?_
    · intro e he
      obtain ⟨x, hx, hm⟩ := List.mem_flatMap.1 he
      exact hush_tell rfl e hm
    · unfold paging
      split
      · exact hush_nil
      split
      · exact hush_one rfl
      split <;> exact hush_nil
    · unfold inquiring
      split
      · exact hush_nil
      split
      · exact hush_tell rfl
      split <;> exact hush_nil
  · intro o ho
    rcases List.mem_append.1 ho with ho | ho
    · rcases List.mem_append.1 ho with ho | ho
      · obtain ⟨x, -, rfl⟩ := List.mem_map.1 ho
        rfl
      · revert ho
        unfold paging
        split
        · exact nofun
        split
        · exact nofun
        split
        · intro ho
          rw [List.mem_singleton.1 ho]; rfl
        · exact nofun
    · revert ho
      unfold inquiring
      split
      · exact nofun
      split
      · exact nofun
      split
      · intro ho
        rw [List.mem_singleton.1 ho]; rfl
      · exact nofun

theorem says_check {s : Ctl} {b : Calls} (hi : Inv s) (hb : Called s b) (now h : Nat) : Says b (.check h) (checkExpiring s now h) := by
  have e1 : ∀ a, ((none : Option Nat) == some a) = false := fun _ => rfl
  unfold checkExpiring
  split
  · exact says_calm hi hb nofun rfl rfl hush_nil still_nil (fun _ _ => rfl)
  rename_i c hf
  have hacl := mem_keys (Conn.find_mem _ _ _ hf)
  split
  · refine says_disconnect hi hb _ h _ _ nofun true (fun _ _ _ _ _ => rfl) (fun d hd => ?_) (fun _ => rfl)
    have := (hi.ssound.range h (mem_keys hd)).1
    have := (hi.sound.range h hacl).2
    omega
  split
  · exact says_calm hi hb nofun rfl rfl hush_nil (still_one rfl) (fun _ a => by
      show ((none : Option Nat) == some a || false) = false
      rw [e1]; rfl)
  · exact says_calm hi hb nofun rfl rfl hush_nil still_nil (fun _ _ => rfl)

/-- The end of a negotiation. -/
theorem accept_cases {s : Ctl} {b : Calls} (hi : Inv s) (hb : Called s b) {a : Nat} (hp : scoPending s a = true) (q : Option ConnParams) (bad : Status)
    (hbad : bad ≠ 0) {t : Table Syn} {st k : Nat} {l : LinkParams} (h : acceptSyn s a q bad = some (t, st, k, l)) :
    ∃ j c, scoOf s.sco a = some (j, c) ∧ c.state ≠ .opened ∧
      ((st = 0 ∧ k = j ∧ ∃ d, d.addr = c.addr ∧ d.state = .opened ∧ t = update s.sco j d) ∨ (st ≠ 0 ∧ t = erase s.sco j)) := by
  obtain ⟨j, c, hf, hc⟩ := pending_some hp
  refine ⟨j, c, hf, hc, ?_⟩
  unfold acceptSyn at h
  rw [hf] at h
  simp only [] at h
  split at h
  · rw [Option.map_eq_some_iff] at h
    obtain ⟨t', ht, he⟩ := h
    cases he
    unfold openSyn at ht
    split at ht
    · cases ht
    · cases ht
      exact .inl ⟨rfl, rfl, { c with link := l, state := .opened, stream := c.spoofed }, rfl, rfl, rfl⟩
  · rw [Option.map_eq_some_iff] at h
    obtain ⟨t', ht, he⟩ := h
    cases he
    right
    refine ⟨hbad, ?_⟩
    obtain ⟨hm, haddr⟩ := scoOf_some hf
    have h1 : scoOf (update s.sco j { c with state := .closed }) a = some (j, { c with state := .closed }) := by
      rw [scoOf_find?, find?_update (c := { c with state := .closed }) (c0 := c) (h := j) hi.ssound.nodup hm (fun x => decide (x.addr = a)) rfl]
      rw [scoOf_find?] at hf
      rw [hf]
      simp
    unfold cancelSyn at ht
    rw [h1] at ht
    simp only [] at ht
    split at ht
    · cases ht
    · cases ht
      exact erase_update _ _ _

theorem cancel_first {t u : Table Syn} {a k : Nat} {c : Syn} (hf : scoOf t a = some (k, c)) (h : cancelSyn t a = some u) : u = erase t k := by
  unfold cancelSyn at h
  rw [hf] at h
  simp only [] at h
  split at h
  · cases h
  · cases h; rfl

theorem syncEvent_begun (st h a : Nat) (l : LinkParams) : begun (syncEvent st h a l) = (if st = 0 then some (h, a) else none) ∧
    settles (syncEvent st h a l) = some a ∧ askedBy (syncEvent st h a l) = none ∧ ∀ k r, syncEvent st h a l ≠ .disconnComplete k r := by
  unfold syncEvent
  split <;> exact ⟨rfl, rfl, rfl, nofun⟩

theorem says_accept {s : Ctl} {b : Calls} (hi : Inv s) (hb : Called s b) (now a : Nat) (t : Bool) :
    Says b (.cmd (.accept a t)) (acceptConnection s now a t) := by
  unfold acceptConnection
  split
  · rename_i p hp
    unfold acceptPage
    split
    · exact says_calm hi hb nofun rfl rfl hush_nil still_nil (fun _ _ => rfl)
    split
    · trivial
    · trivial
    rename_i k s1 hc
    have hs1 : s1.sco = s.sco ∧ s1.mask = s.mask := by
      unfold connect at hc
      split at hc
      · cases hc
      split at hc
      · cases hc
      · cases hc; exact ⟨rfl, rfl⟩
    refine says_calm hi hb nofun hs1.1 hs1.2 (Hush.append ?_ (hush_tell rfl)) (still_one rfl) (fun _ _ => rfl)
    split
    · exact hush_tell rfl
    · exact hush_nil
  · split
    · rename_i hp
      split
      · trivial
      · rename_i u st k l ha
        obtain ⟨j, c, hf, hc, ⟨rfl, rfl, d, hd, hd', rfl⟩ | ⟨hst, rfl⟩⟩ := accept_cases hi hb hp none _ (by decide) ha
        · rw [tell_conn hb.connHeard]
          exact says_open (e := .connComplete 0 k a .sco) hi hb nofun hf rfl rfl hd hd' rfl (still_one rfl) rfl rfl nofun (fun _ _ => rfl)
        · rw [tell_conn hb.connHeard]
          exact says_fail (e := .connComplete st k a .sco) hi hb nofun hf hc rfl rfl (if_neg hst) (still_one rfl) rfl rfl nofun (fun _ _ => rfl)
    · exact says_refuse hi hb nofun

theorem says_create {s s' : Ctl} {b : Calls} {x : Act} {st a : Nat} {out : List (Nat × Pkt)} {ev : List Ev} (hi : Inv s) (hb : Called s b)
    (hr : x ≠ .cmd .reset) {p : ConnParams} {q : ScoState} {sp lg : Bool} (hs : createSyn s a p q sp lg = some s')
    (hc : q ≠ .opened) (hc' : q ≠ .closed) (hp : ¬ scoPending s a = true) (hg : ev.foldl hearCall b.known = b.known)
    (ha : ∀ y, (out.any (fun o => asksFor o == some y) || ev.any (fun e => askedBy e == some y)) = decide (y = a))
    (hset : ∀ y, ev.any (fun e => settles e == some y) = false) (hn : CallNews b ev)
    (hw : ∀ now a, withdrawn b ⟨now, x, st, out, ev⟩ a = false) : Says b x (.ok st s' out ev) := by
  rcases createSyn_cases hi a p q sp lg with ⟨-, h1⟩ | ⟨-, h, last, h1, h2, -⟩
  · rw [h1] at hs; cases hs
  · rw [h1] at hs
    cases hs
    exact says_ask hb hr (h := h) (c := ⟨a, p, noLink, q, sp, lg, false⟩) rfl rfl h2 hc hc' (by simpa using hp) hg ha hset hn hw

theorem says_setup {s : Ctl} {b : Calls} (hi : Inv s) (hb : Called s b) (x : Act) (hr : x ≠ .cmd .reset)
    (hw : ∀ now st out ev a, withdrawn b ⟨now, x, st, out, ev⟩ a = false) (h : Nat) (p : ConnParams) (sp lg : Bool) :
    Says b x (setupSync s h p sp lg) := by
  unfold setupSync
  split
  · exact says_refuse hi hb hr
  rename_i c _
  split
  · exact says_refuse hi hb hr
  rename_i hp
  split
  · trivial
  · rename_i s' hs
    refine says_create hi hb hr hs nofun nofun hp rfl (fun y => ?_) (fun _ => rfl) (hush_nil.news b) (fun now a => hw now _ _ _ a)
    show (((some c.addr : Option Nat) == some y || false) || false) = _
    rw [any_one]
    simp

theorem says_ask' {s : Ctl} {b : Calls} (hi : Inv s) (hb : Called s b) (x : Act) (hr : x ≠ .cmd .reset)
    (hw : ∀ now st out ev a, withdrawn b ⟨now, x, st, out, ev⟩ a = false) (h : Nat) (q : Pkt) (hq : ∀ a, asksFor (a, q) = none) :
    Says b x (ask s h q) := by
  unfold ask
  split
  · exact says_refuse hi hb hr
  · exact says_calm hi hb hr rfl rfl hush_nil (still_one (hq _)) (fun now a => hw now _ _ _ a)

theorem says_mask {s : Ctl} {b : Calls} {x : Act} {st m : Nat} (hi : Inv s) (hb : Called s b) (hr : x ≠ .cmd .reset)
    (hw : ∀ now a, withdrawn b ⟨now, x, st, [], []⟩ a = false) (h2 : m.testBit 2 = true) (h4 : m.testBit 4 = true) :
    Says b x (.ok st { s with mask := m } [] []) := by
  have h := says_calm (s' := s) (st := st) (out := []) (ev := []) hi hb hr rfl rfl hush_nil still_nil hw
  exact ⟨fun now => ⟨(h.1 now).known, (h.1 now).asked, hb.front, hb.live, h2, h4⟩, h.2⟩

theorem says_command {s : Ctl} {b : Calls} (hi : Inv s) (hb : Called s b) (now : Nat) (c : Cmd) (hf : Attentive (.cmd c)) (hr : c ≠ .reset) :
    Says b (.cmd c) (command s now c) := by
  cases c with
  | reset => exact absurd rfl hr
  | accept a t => exact says_accept hi hb now a t
  | disconnect h r =>
    refine says_disconnect hi hb _ h _ _ nofun (b.known h).isNone (fun _ _ _ _ _ => rfl) (fun c hc => ?_) (fun hk => ?_)
    · rw [known_of hi hb hc]
      by_cases ho : c.state = .opened <;> simp [ho]
    · rw [known_acl hi hb (hi.sound.range h hk).2]; rfl
  | setupSync h p sp => exact says_setup hi hb (.cmd (.setupSync h p sp)) nofun (fun _ _ _ _ _ => rfl) _ _ _ _
  | addSco h t => exact says_setup hi hb (.cmd (.addSco h t)) nofun (fun _ _ _ _ _ => rfl) _ _ _ _
  | features h => exact says_ask' hi hb (.cmd (.features h)) nofun (fun _ _ _ _ _ => rfl) _ .featuresReq (fun _ => rfl)
  | ext h p => exact says_ask' hi hb (.cmd (.ext h p)) nofun (fun _ _ _ _ _ => rfl) _ (.extReq p) (fun _ => rfl)
  | version h => exact says_ask' hi hb (.cmd (.version h)) nofun (fun _ _ _ _ _ => rfl) _ .versionReq (fun _ => rfl)
  | inquiry l n r =>
    show Says b _ (startInquiry s now l n r)
    unfold startInquiry
    repeat' split
    all_goals first | exact says_refuse hi hb nofun | exact says_calm hi hb nofun rfl rfl hush_nil still_nil (fun _ _ => rfl)
  | inquiryCancel =>
    show Says b _ (cancelInquiry s)
    unfold cancelInquiry
    split
    · exact says_refuse hi hb nofun
    · exact says_calm hi hb nofun rfl rfl hush_nil still_nil (fun _ _ => rfl)
  | create a w =>
    show Says b _ (createConnection s now a w)
    unfold createConnection
    repeat' split
    all_goals first | exact says_refuse hi hb nofun | exact says_calm hi hb nofun rfl rfl hush_nil still_nil (fun _ _ => rfl)
  | cancel a =>
    show Says b _ (cancelConnection s a)
    unfold cancelConnection
    repeat' split
    all_goals first | exact says_refuse hi hb nofun | exact says_calm hi hb nofun rfl rfl (hush_tell rfl) still_nil (fun _ _ => rfl)
  | reject a r =>
    show Says b _ (rejectConnection s a r)
    unfold rejectConnection
    split
    · exact says_calm hi hb nofun rfl rfl hush_nil still_nil (fun _ _ => rfl)
    · exact says_refuse hi hb nofun
  | switchRole a r =>
    show Says b _ (switchRole s a r)
    unfold switchRole
    repeat' split
    all_goals first
      | exact says_refuse hi hb nofun
      | exact says_calm hi hb nofun rfl rfl hush_nil (still_one rfl) (fun _ _ => rfl)
      | exact says_calm hi hb nofun rfl rfl (hush_tell rfl) still_nil (fun _ _ => rfl)
  | writePolicy h p =>
    show Says b _ (writePolicy s h p)
    unfold writePolicy
    repeat' split
    all_goals first | exact says_refuse hi hb nofun | exact says_calm hi hb nofun rfl rfl hush_nil still_nil (fun _ _ => rfl)
  | writeDefaultPolicy p =>
    show Says b _ (writeDefaultPolicy s p)
    unfold writeDefaultPolicy
    split
    · exact says_refuse hi hb nofun
    · exact says_calm hi hb nofun rfl rfl hush_nil still_nil (fun _ _ => rfl)
  | acceptSync a p =>
    show Says b _ (acceptSync s a p)
    unfold acceptSync
    split
    · rename_i hp
      split
      · trivial
      · rename_i u st k l ha
        obtain ⟨e1, e2, e3, e4⟩ := syncEvent_begun st k a l
        obtain ⟨j, c, hf, hc, ⟨rfl, rfl, d, hd, hd', rfl⟩ | ⟨hst, rfl⟩⟩ := accept_cases hi hb hp (some p) _ (by decide) ha
        · exact says_open hi hb nofun hf rfl rfl hd hd' e1 (still_one rfl) e2 e3 e4 (fun _ _ => rfl)
        · exact says_fail hi hb nofun hf hc rfl rfl (e1.trans (if_neg hst)) (still_one rfl) e2 e3 e4 (fun _ _ => rfl)
    · exact says_refuse hi hb nofun
  | rejectSync a r =>
    show Says b _ (rejectSync s a r)
    unfold rejectSync
    split
    · rename_i hp
      obtain ⟨j, c, hf, hc⟩ := pending_some hp
      split
      · trivial
      · rename_i u hu
        have := cancel_first hf hu
        subst this
        have hne : rejectReason r ≠ 0 := by
          unfold rejectReason
          split
          · decide
          · assumption
        exact says_fail (e := .syncComplete (rejectReason r) 0 a .esco 0 0 0 0 transparent) hi hb nofun hf hc rfl rfl (if_neg hne) (still_one rfl) rfl rfl nofun (fun _ _ => rfl)
    · exact says_refuse hi hb nofun
  | setMask m => exact says_mask hi hb nofun (fun _ _ => rfl) hf.1 hf.2
  | extLocal p =>
    show Says b _ (match lmpFeatures s.info p with | none => .wild | some _ => .ok Status.success s [] [])
    split
    · trivial
    · exact says_calm hi hb nofun rfl rfl hush_nil still_nil (fun _ _ => rfl)
  | acl h pb bc d =>
    show Says b _ (sendAcl s h pb bc d)
    unfold sendAcl
    split
    · trivial
    split
    · exact says_calm hi hb nofun rfl rfl (hush_one rfl) still_nil (fun _ _ => rfl)
    · exact says_calm hi hb nofun rfl rfl (hush_one rfl) (still_one rfl) (fun _ _ => rfl)
  | sco h d =>
    show Says b _ (sendSco s h d)
    unfold sendSco
    split
    · exact says_refuse hi hb nofun
    · exact says_calm hi hb nofun rfl rfl hush_nil (still_one rfl) (fun _ _ => rfl)
  | writeScanEnable i p => exact says_calm hi hb nofun rfl rfl hush_nil still_nil (fun _ _ => rfl)
  | writePageTimeout t => exact says_calm hi hb nofun rfl rfl hush_nil still_nil (fun _ _ => rfl)
  | writeIac l => exact says_calm hi hb nofun rfl rfl hush_nil still_nil (fun _ _ => rfl)
  | writeInquiryMode m => exact says_calm hi hb nofun rfl rfl hush_nil still_nil (fun _ _ => rfl)
  | setInfo i => exact says_calm hi hb nofun rfl rfl hush_nil still_nil (fun _ _ => rfl)
  | name a =>
    refine says_calm hi hb nofun rfl rfl hush_nil (fun o ho => ?_) (fun _ _ => rfl)
    rcases List.mem_cons.1 ho with rfl | ho
    · rfl
    · rw [List.mem_singleton.1 ho]; rfl

theorem says_report {s : Ctl} {b : Calls} (hi : Inv s) (hb : Called s b) {x : Act} (hr : x ≠ .cmd .reset)
    (hw : ∀ now st out ev a, withdrawn b ⟨now, x, st, out, ev⟩ a = false) (src code : Nat) (e : Nat → Ev) (he : ∀ h, (e h).quiet = true) :
    Says b x (report s src code e) := by
  unfold report
  split
  · exact says_calm hi hb hr rfl rfl hush_nil still_nil (fun now a => hw now _ _ _ a)
  · exact says_calm hi hb hr rfl rfl (hush_tell (he _)) still_nil (fun now a => hw now _ _ _ a)

theorem says_dispatch {s : Ctl} {b : Calls} (hi : Inv s) (hb : Called s b) (now src dst rssi : Nat) (p : Pkt)
    (hf : FairStep b (.packet src dst rssi p)) : Says b (.packet src dst rssi p) (dispatch s now src rssi p) := by
  cases p with
  | page cod w =>
    show Says b _ (onPage s src cod w)
    unfold onPage
    repeat' split
    all_goals first
      | exact says_calm hi hb nofun rfl rfl hush_nil still_nil (fun _ _ => rfl)
      | exact says_calm hi hb nofun rfl rfl hush_nil (still_one rfl) (fun _ _ => rfl)
      | exact says_calm hi hb nofun rfl rfl (hush_one rfl) still_nil (fun _ _ => rfl)
  | pageRsp t =>
    show Says b _ (onPageRsp s now src t)
    unfold onPageRsp
    split
    · exact says_calm hi hb nofun rfl rfl hush_nil still_nil (fun _ _ => rfl)
    split
    · exact says_calm hi hb nofun rfl rfl hush_nil still_nil (fun _ _ => rfl)
    split
    · trivial
    · trivial
    rename_i k s1 hc
    have hs1 : s1.sco = s.sco ∧ s1.mask = s.mask := by
      unfold connect at hc
      split at hc
      · cases hc
      split at hc
      · cases hc
      · cases hc; exact ⟨rfl, rfl⟩
    refine says_calm hi hb nofun hs1.1 hs1.2 (Hush.append ?_ (hush_tell rfl)) still_nil (fun _ _ => rfl)
    split
    · exact hush_tell rfl
    · exact hush_nil
  | pageReject r =>
    show Says b _ (onPageReject s src r)
    unfold onPageReject
    repeat' split
    all_goals first
      | exact says_calm hi hb nofun rfl rfl hush_nil still_nil (fun _ _ => rfl)
      | exact says_calm hi hb nofun rfl rfl (hush_tell rfl) still_nil (fun _ _ => rfl)
  | disconnect r =>
    show Says b _ (onDisconnect s src r)
    unfold onDisconnect
    split
    · exact says_calm hi hb nofun rfl rfl hush_nil still_nil (fun _ _ => rfl)
    rename_i h c hc
    split
    · trivial
    · rename_i s' he
      obtain ⟨h1, h2, -⟩ := endAcl_sco he
      exact says_calm hi hb nofun h1 h2 (hush_tell (decide_eq_true (hi.sound.range h (mem_keys (aclOf_some hc).1)).2)) still_nil (fun _ _ => rfl)
  | roleReq =>
    show Says b _ (onRoleReq s src)
    unfold onRoleReq
    split
    · exact says_calm hi hb nofun rfl rfl hush_nil still_nil (fun _ _ => rfl)
    split
    · exact says_calm hi hb nofun rfl rfl hush_nil (still_one rfl) (fun _ _ => rfl)
    · exact says_calm hi hb nofun rfl rfl (hush_tell rfl) (still_one rfl) (fun _ _ => rfl)
  | roleRsp st =>
    show Says b _ (onRoleRsp s src st)
    unfold onRoleRsp
    split
    · exact says_calm hi hb nofun rfl rfl hush_nil still_nil (fun _ _ => rfl)
    split <;> exact says_calm hi hb nofun rfl rfl (hush_tell rfl) still_nil (fun _ _ => rfl)
  | scoReq p cod =>
    show Says b _ (onScoReq s src p cod)
    unfold onScoReq
    split
    · exact says_calm hi hb nofun rfl rfl hush_nil (still_one rfl) (fun _ _ => rfl)
    rename_i hp
    split
    · trivial
    · rename_i s' hs
      have he : ∀ e, e = (.connRequest src cod (if Sco.isExtended p then .esco else .sco) : Ev) →
          begun e = none ∧ askedBy e = some src ∧ settles e = none ∧ ∀ k r, e ≠ .disconnComplete k r := by
        rintro _ rfl
        split <;> exact ⟨rfl, rfl, rfl, nofun⟩
      obtain ⟨e1, e2, e3, e4⟩ := he _ rfl
      refine says_create hi hb nofun hs (by split <;> exact nofun) (by split <;> exact nofun) hp rfl (fun y => ?_) (fun y => ?_) ?_ (fun _ _ => rfl)
      · show (false || (askedBy _ == some y || false)) = _
        rw [e2, any_one]
        simp
      · show (settles _ == some y || false) = false
        rw [e3]; rfl
      · refine ⟨fun e he k a hk => ?_, fun k r he => absurd (List.mem_singleton.1 he).symm (e4 k r)⟩
        rw [List.mem_singleton.1 he, e1] at hk
        cases hk
  | scoRsp st l =>
    show Says b _ (onScoRsp s src st l)
    unfold onScoRsp
    split
    · exact says_calm hi hb nofun rfl rfl hush_nil still_nil (fun _ _ => rfl)
    rename_i h c hc
    split
    · split
      · trivial
      · rename_i u hu
        unfold openSyn at hu
        split at hu
        · cases hu
        cases hu
        obtain ⟨e1, e2, e3, e4⟩ := syncEvent_begun Status.success h src l
        split
        · exact says_open (e := .connComplete 0 h src .sco) hi hb nofun hc rfl rfl rfl rfl rfl still_nil rfl rfl nofun (fun _ _ => rfl)
        · exact says_open hi hb nofun hc rfl rfl rfl rfl e1 still_nil e2 e3 e4 (fun _ _ => rfl)
    · rename_i hst
      split
      · trivial
      · rename_i u hu
        have := cancel_first hc hu
        subst this
        have ho : c.state ≠ .opened := by
          have hp := hf hst
          rw [← pending_iff hb] at hp
          obtain ⟨j, d, hd, hd'⟩ := pending_some hp
          rw [hc] at hd
          cases hd
          exact hd'
        split
        · exact says_fail (e := .connComplete st 0 src .sco) hi hb nofun hc ho rfl rfl (if_neg hst) still_nil rfl rfl nofun (fun _ _ => rfl)
        · exact says_fail (e := .syncComplete st 0 src _ 0 0 0 0 transparent) hi hb nofun hc ho rfl rfl (if_neg hst) still_nil rfl rfl nofun (fun _ _ => rfl)
  | scoDisc r =>
    show Says b _ (onScoDisc s src r)
    unfold onScoDisc
    split
    · exact says_calm hi hb nofun rfl rfl hush_nil still_nil (fun _ _ => by simp [withdrawn])
    · rename_i h c hc
      obtain ⟨hm, ha⟩ := scoOf_some hc
      rw [tell_disc hb.discHeard]
      refine says_end hi hb nofun hm rfl rfl still_nil hush_nil True (fun _ => trivial) (fun _ e he hx => ?_) (fun _ a => ?_)
      · obtain ⟨h1, h2⟩ := mem_erase'.1 he
        exact front_rest hb.front hi.ssound.nodup hc h1 (hx.trans ha) h2
      · simp only [withdrawn, ha]
        simp
        exact eq_comm
  | lmp ok =>
    show Says b _ (if ok then .ok 0 s [] [] else .abort)
    split
    · exact says_calm hi hb nofun rfl rfl hush_nil still_nil (fun _ _ => rfl)
    · trivial
  | inquiry t lap =>
    show Says b _ (onInquiry s src t lap rssi)
    unfold onInquiry
    repeat' split
    all_goals first
      | exact says_calm hi hb nofun rfl rfl hush_nil still_nil (fun _ _ => rfl)
      | exact says_calm hi hb nofun rfl rfl hush_nil (still_one rfl) (fun _ _ => rfl)
  | inqRsp t cod r eir =>
    show Says b _ (onInqRsp s src t cod r eir)
    unfold onInqRsp
    repeat' split
    all_goals first
      | exact says_calm hi hb nofun rfl rfl hush_nil still_nil (fun _ _ => rfl)
      | exact says_calm hi hb nofun rfl rfl (hush_one rfl) still_nil (fun _ _ => rfl)
      | exact says_calm hi hb nofun rfl rfl (hush_tell rfl) still_nil (fun _ _ => rfl)
  | acl pb bc d =>
    show Says b _ (onAcl s src pb bc d)
    unfold onAcl
    split
    · exact says_calm hi hb nofun rfl rfl hush_nil still_nil (fun _ _ => rfl)
    · exact says_calm hi hb nofun rfl rfl (hush_one rfl) still_nil (fun _ _ => rfl)
  | sco d =>
    show Says b _ (onSco s src d)
    unfold onSco
    split
    · exact says_calm hi hb nofun rfl rfl hush_nil still_nil (fun _ _ => rfl)
    · exact says_calm hi hb nofun rfl rfl (hush_one rfl) still_nil (fun _ _ => rfl)
  | featuresRsp f => exact says_report (x := .packet src dst rssi (.featuresRsp f)) hi hb nofun (fun _ _ _ _ _ => rfl) _ _ (fun h => _) (fun _ => rfl)
  | extRsp st p m f => exact says_report (x := .packet src dst rssi (.extRsp st p m f)) hi hb nofun (fun _ _ _ _ _ => rfl) _ _ (fun h => _) (fun _ => rfl)
  | versionRsp v sub c => exact says_report (x := .packet src dst rssi (.versionRsp v sub c)) hi hb nofun (fun _ _ _ _ _ => rfl) _ _ (fun h => _) (fun _ => rfl)
  | extReq p =>
    show Says b _ (onExtReq s src p)
    unfold onExtReq
    split
    · trivial
    · exact says_calm hi hb nofun rfl rfl hush_nil (still_one rfl) (fun _ _ => rfl)
  | nameRsp n => exact says_calm hi hb nofun rfl rfl (hush_tell rfl) still_nil (fun _ _ => rfl)
  | hostFeaturesRsp f => exact says_calm hi hb nofun rfl rfl (hush_tell rfl) still_nil (fun _ _ => rfl)
  | ping => exact says_calm hi hb nofun rfl rfl hush_nil (still_one rfl) (fun _ _ => rfl)
  | pong => exact says_calm hi hb nofun rfl rfl hush_nil still_nil (fun _ _ => rfl)
  | nameReq => exact says_calm hi hb nofun rfl rfl hush_nil (still_one rfl) (fun _ _ => rfl)
  | hostFeaturesReq => exact says_calm hi hb nofun rfl rfl hush_nil (still_one rfl) (fun _ _ => rfl)
  | featuresReq => exact says_calm hi hb nofun rfl rfl hush_nil (still_one rfl) (fun _ _ => rfl)
  | versionReq => exact says_calm hi hb nofun rfl rfl hush_nil (still_one rfl) (fun _ _ => rfl)

/-! ## Histories -/

theorem called_touch {s : Ctl} {b : Calls} (hb : Called s b) (now src : Nat) : Called (touch s now src) b := by
  have h := touch_eq s now src
  rw [h]
  exact ⟨hb.known, hb.asked, hb.front, hb.live, hb.connHeard, hb.discHeard⟩

theorem called_fresh (addr : Nat) (i : Info) (n : Nat) : Called (Ctl.fresh addr i n) .empty :=
  ⟨fun _ _ => ⟨nofun, fun ⟨_, h, _⟩ => nomatch h⟩, fun _ => ⟨nofun, fun ⟨_, h, _⟩ => nomatch h⟩, List.Pairwise.nil, nofun, mask0.1, mask0.2.1⟩

theorem called_step {s s' : Ctl} {b : Calls} {now : Nat} {x : Act} {st : Nat} {out : List (Nat × Pkt)} {ev : List Ev} (hi : Inv s)
    (hb : Called s b) (hf : Attentive x) (hg : FairStep b x) (h : step s now x = .ok st s' out ev) :
    Called s' (b.note ⟨now, x, st, out, ev⟩) ∧ CallNews b ev := by
  by_cases hr : x = .cmd .reset
  · subst hr
    cases h
    refine ⟨?_, hush_nil.news b⟩
    rw [show ∀ st out ev, b.note ⟨now, .cmd .reset, st, out, ev⟩ = .empty from fun _ _ _ => if_pos rfl]
    exact ⟨fun _ _ => ⟨nofun, fun ⟨_, h, _⟩ => nomatch h⟩, fun _ => ⟨nofun, fun ⟨_, h, _⟩ => nomatch h⟩, List.Pairwise.nil, nofun, mask0.1, mask0.2.1⟩
  · have hk : Says b x (step s now x) := by
      cases x with
      | cmd c => exact says_command hi hb now c hf (fun hc => hr (by rw [hc]))
      | tick => exact says_tick hi hb now
      | check h' => exact says_check hi hb now h'
      | packet src dst rssi p =>
        show Says b _ (incoming s now src dst rssi p)
        unfold incoming
        split
        · exact says_calm hi hb nofun rfl rfl hush_nil still_nil (fun _ a => by
            cases p <;> simp [withdrawn])
        · exact says_dispatch (touch_inv hi now src).1 (called_touch hb now src) now src dst rssi p hg
    rw [h] at hk
    exact ⟨hk.1 now, hk.2⟩

theorem called_run {s : Ctl} {l0 : List Seen} (hi : Inv s) (hb : Called s (callsOf l0)) (as : List (Nat × Act)) (hx : ∀ x ∈ as, Named x.2 ∧ Attentive x.2)
    (s' : Ctl) (l : List Seen) (hg : Fair (l0 ++ l)) (h : run s as = some (s', l)) : Inv s' ∧ Called s' (callsOf (l0 ++ l)) := by
  induction as generalizing s l0 l with
  | nil => cases h; rw [List.append_nil]; exact ⟨hi, hb⟩
  | cons x as ih =>
    obtain ⟨now, a⟩ := x
    simp only [run] at h
    have hfit := fits hi now a (hx _ (.head _)).1
    split at h
    · rename_i st s1 out ev hs
      rw [hs] at hfit
      rw [Option.map_eq_some_iff] at h
      obtain ⟨⟨s2, l2⟩, h2, h3⟩ := h
      cases h3
      have h4 := (called_step hi hb (hx _ (.head _)).2 (hg l0 _ l2 rfl) hs).1
      have h5 : (callsOf l0).note ⟨now, a, st, out, ev⟩ = callsOf (l0 ++ [⟨now, a, st, out, ev⟩]) := by
        unfold callsOf
        rw [List.foldl_append]
        rfl
      rw [h5] at h4
      have h6 : l0 ++ ⟨now, a, st, out, ev⟩ :: l2 = (l0 ++ [⟨now, a, st, out, ev⟩]) ++ l2 := List.append_cons ..
      have := ih hfit.1 h4 (fun y hy => hx y (.tail _ hy)) l2 (by rw [← h6]; exact hg) h2
      rw [h6]
      exact this
    · cases h

end Verif.Br
