import Verif.Iso.SpecPair
import Verif.Iso.NotesLemmas
/-! # Lemmas for C116 -/
namespace Verif.Iso
open Verif.Le

/-! ### The protocol without the tables -/

abbrev Id := Nat × Nat

/-- What a PDU means. -/
inductive Msg where
  | req (y : Id) | ind | term (y : Id) | rsp | rej | junk
  deriving DecidableEq

def Pdu.msg : Pdu → Msg
  | .cisReq r => .req (r.cigId, r.cisId)
  | .cisRsp => .rsp
  | .cisInd _ _ => .ind
  | .rejectExtInd _ _ => .rej
  | .terminateInd i j _ => .term (i, j)
  | .other => .junk
  | .malformed => .junk

/-- The streams of the peripheral. -/
abbrev Map := Id → Option CisState

/-- What a PDU does to them. -/
def recv (m : Map) (x : Msg) : Map := fun z =>
  match x with
  | .req y => if z = y then some .pendingAccept else m z
  | .ind => if m z = some .pendingInd then some .connected else m z
  | .term y => if z = y then none else m z
  | _ => m z

/-- What all the PDUs on the way do. -/
def star (m : Map) (l : List Msg) : Map := l.foldl recv m

theorem star_cons (m : Map) (x : Msg) (l : List Msg) : star m (x :: l) = star (recv m x) l := rfl

theorem star_append (m : Map) (l k : List Msg) : star m (l ++ k) = star (star m l) k := List.foldl_append ..

/-- The other streams do not matter. -/
theorem star_point {m m' : Map} {z : Id} (h : m z = m' z) (l : List Msg) : star m l z = star m' l z := by
  induction l generalizing m m' with
  | nil => exact h
  | cons x l ih =>
    rw [star_cons, star_cons]
    apply ih
    cases x <;> simp only [recv, h]

theorem star_terms {m : Map} {l : List Msg} {z : Id} (h : ∀ x ∈ l, ∃ y, x = .term y ∧ y ≠ z) : star m l z = m z := by
  induction l generalizing m with
  | nil => rfl
  | cons x l ih =>
    rw [star_cons, ih (fun y hy => h y (.tail _ hy))]
    obtain ⟨y, rfl, hy⟩ := h x (.head _)
    simp [recv, Ne.symm hy]

theorem star_none {m : Map} {l : List Msg} {z : Id} (hm : m z = none) (h : .req z ∉ l) : star m l z = none := by
  induction l generalizing m with
  | nil => exact hm
  | cons x l ih =>
    rw [star_cons]
    refine ih ?_ (fun hx => h (.tail _ hx))
    cases x with
    | req y =>
      have : z ≠ y := fun e => h (by rw [e]; exact .head _)
      simp [recv, this, hm]
    | _ => simp [recv, hm]

theorem star_conn {m : Map} {l : List Msg} {z : Id} (hm : m z = some .connected) (h1 : .req z ∉ l) (h2 : .term z ∉ l) :
    star m l z = some .connected := by
  induction l generalizing m with
  | nil => exact hm
  | cons x l ih =>
    rw [star_cons]
    refine ih ?_ (fun hx => h1 (.tail _ hx)) (fun hx => h2 (.tail _ hx))
    cases x with
    | req y =>
      have : z ≠ y := fun e => h1 (by rw [e]; exact .head _)
      simp [recv, this, hm]
    | term y =>
      have : z ≠ y := fun e => h2 (by rw [e]; exact .head _)
      simp [recv, this, hm]
    | _ => simp [recv, hm]

theorem star_some {m : Map} {l : List Msg} {z : Id} (hm : m z ≠ none) (h : .term z ∉ l) : star m l z ≠ none := by
  induction l generalizing m with
  | nil => exact hm
  | cons x l ih =>
    rw [star_cons]
    refine ih ?_ (fun hx => h (.tail _ hx))
    cases x with
    | req y =>
      by_cases e : z = y
      · simp [recv, e]
      · simp [recv, e, hm]
    | term y =>
      have : z ≠ y := fun e => h (by rw [e]; exact .head _)
      simp [recv, this, hm]
    | ind =>
      simp only [recv]
      split
      · nofun
      · exact hm
    | _ => simp [recv, hm]

/-- Where the negotiation is. `wait`: the streams for which the central waits for an answer; `w`: the peripheral when all PDUs on the
way to it have arrived; `ans`: the answers on the way to the central. -/
inductive Stage (wait : Id → Prop) (w : Map) (ans : List Msg) : Prop where
  | idle (h1 : ∀ y, ¬ wait y) (h2 : ans = []) (h3 : ∀ y, w y ≠ none → w y = some .connected)
  | offered (x : Id) (h1 : ∀ y, wait y ↔ y = x) (h2 : ans = []) (h3 : w x = some .pendingAccept)
      (h4 : ∀ y, y ≠ x → w y ≠ none → w y = some .connected)
  | accepted (x : Id) (h1 : ∀ y, wait y ↔ y = x) (h2 : ans = [.rsp]) (h3 : w x = some .pendingInd)
      (h4 : ∀ y, y ≠ x → w y ≠ none → w y = some .connected)
  | rejected (x : Id) (h1 : ∀ y, wait y ↔ y = x) (h2 : ans = [.rej]) (h3 : w x = none)
      (h4 : ∀ y, y ≠ x → w y ≠ none → w y = some .connected)

def Msg.isAnswer : Msg → Bool
  | .rsp | .rej => true
  | _ => false

/-- The invariant of the protocol. -/
structure Proto (wait conn : Id → Prop) (m : Map) (ab ba : List Msg) : Prop where
  down : ∀ x ∈ ab, (∃ y, x = .req y) ∨ x = .ind ∨ ∃ y, x = .term y
  up : ∀ x ∈ ba, x = .rsp ∨ x = .rej ∨ ∃ y, x = .term y
  stage : Stage wait (star m ab) (ba.filter Msg.isAnswer)
  both : ∀ y, conn y ↔ (star m ab y = some .connected ∨ .term y ∈ ba)
  gone : ∀ y, .term y ∈ ba → star m ab y = none
  once : ∀ y, ba.countP (fun x => x = .term y) ≤ 1
  asked : ∀ x, m x = some .pendingAccept → ∀ z ∈ ab, ∃ y, z = .term y ∧ y ≠ x
  fresh : ∀ l k x, ab = l ++ .req x :: k → (∀ z ∈ k, ∃ y, z = .term y ∧ y ≠ x) ∧ star m l x = none
  single : ∀ y z, m y = some .pendingInd → m z = some .pendingInd → y = z
  due : ∀ z, m z = some .pendingInd → .ind ∉ ab → star m ab z = some .pendingInd

section
variable {wait conn : Id → Prop} {m : Map} {ab ba : List Msg}

theorem Proto.pending (h : Proto wait conn m ab ba) {x : Id} (hx : m x = some .pendingAccept ∨ .req x ∈ ab) :
    star m ab x = some .pendingAccept := by
  rcases hx with hx | hx
  · rw [star_terms (h.asked x hx), hx]
  · obtain ⟨l, k, hl⟩ := List.append_of_mem hx
    have := (h.fresh l k x hl).1
    rw [hl, star_append, star_cons, star_terms this]
    simp [recv]

theorem Proto.congr {wait' conn' : Id → Prop} (h : Proto wait conn m ab ba) (hw : ∀ y, wait' y ↔ wait y) (hc : ∀ y, conn' y ↔ conn y) :
    Proto wait' conn' m ab ba := by
  have e1 : wait' = wait := funext fun y => propext (hw y)
  have e2 : conn' = conn := funext fun y => propext (hc y)
  rw [e1, e2]
  exact h

/-- The central asks for a stream. -/
theorem Proto.ask {wait' : Id → Prop} (h : Proto wait conn m ab ba) (hw : ∀ y, ¬ wait y) {x : Id} (hc : ¬ conn x)
    (hw' : ∀ y, wait' y ↔ y = x) : Proto wait' conn m (ab ++ [.req x]) ba := by
  have hst : ba.filter Msg.isAnswer = [] ∧ ∀ y, star m ab y ≠ none → star m ab y = some .connected := by
    cases h.stage with
    | idle h1 h2 h3 => exact ⟨h2, h3⟩
    | offered x h1 => exact absurd ((h1 x).2 rfl) (hw x)
    | accepted x h1 => exact absurd ((h1 x).2 rfl) (hw x)
    | rejected x h1 => exact absurd ((h1 x).2 rfl) (hw x)
  obtain ⟨hans, hall⟩ := hst
  have hnone : star m ab x = none := by
    cases hx : star m ab x with
    | none => rfl
    | some st =>
      have := hall x (by rw [hx]; exact nofun)
      exact absurd ((h.both x).2 (.inl this)) hc
  have hnp : ∀ y, star m ab y ≠ some .pendingAccept := by
    intro y hy
    have := hall y (by rw [hy]; exact nofun)
    rw [hy] at this
    cases this
  have hs : ∀ z, star m (ab ++ [.req x]) z = if z = x then some .pendingAccept else star m ab z := by
    intro z
    rw [star_append]
    rfl
  constructor
  · intro z hz
    rcases List.mem_append.1 hz with hz | hz
    · exact h.down z hz
    · rw [List.mem_singleton.1 hz]; exact .inl ⟨x, rfl⟩
  · exact h.up
  · refine .offered x hw' hans (by rw [hs, if_pos rfl]) (fun y hy => ?_)
    rw [hs, if_neg hy]
    exact hall y
  · intro y
    rw [hs, h.both y]
    by_cases hy : y = x
    · rw [if_pos hy, hy, hnone]; simp
    · rw [if_neg hy]
  · intro y hy
    rw [hs]
    have hne : y ≠ x := by
      intro e
      exact hc ((h.both x).2 (.inr (e ▸ hy)))
    rw [if_neg hne]
    exact h.gone y hy
  · exact h.once
  · intro z hz
    exact absurd (h.pending (.inl hz)) (hnp z)
  · intro l k z he
    rcases List.append_eq_append_iff.1 he with ⟨t, h1, h2⟩ | ⟨t, h1, h2⟩
    · cases t with
      | nil =>
        simp only [List.nil_append, List.cons.injEq, Msg.req.injEq] at h2
        obtain ⟨rfl, rfl⟩ := h2
        rw [List.append_nil] at h1
        rw [h1]
        exact ⟨nofun, hnone⟩
      | cons t ts => simp at h2
    · cases t with
      | nil =>
        simp only [List.nil_append, List.cons.injEq, Msg.req.injEq] at h2
        obtain ⟨rfl, rfl⟩ := h2
        rw [List.append_nil] at h1
        rw [← h1]
        exact ⟨nofun, hnone⟩
      | cons t ts =>
        simp only [List.cons_append, List.cons.injEq] at h2
        obtain ⟨rfl, -⟩ := h2
        exact absurd (h.pending (.inr (by rw [h1]; simp))) (hnp z)
  · exact h.single
  · intro z hz hi
    have hi' : .ind ∉ ab := fun hx => hi (List.mem_append.2 (.inl hx))
    have := hall z (by rw [h.due z hz hi']; exact nofun)
    rw [h.due z hz hi'] at this
    cases this

/-- The central ends a stream. -/
theorem Proto.finish {conn' : Id → Prop} (h : Proto wait conn m ab ba) {y : Id} (hc : conn y) (hb : ∀ z, .term z ∉ ba)
    (hc' : ∀ z, conn' z ↔ (conn z ∧ z ≠ y)) : Proto wait conn' m (ab ++ [.term y]) ba := by
  have hw : star m ab y = some .connected := ((h.both y).1 hc).resolve_right (hb y)
  have hs : ∀ z, star m (ab ++ [.term y]) z = if z = y then none else star m ab z := by
    intro z
    rw [star_append]
    rfl
  constructor
  · intro z hz
    rcases List.mem_append.1 hz with hz | hz
    · exact h.down z hz
    · rw [List.mem_singleton.1 hz]; exact .inr (.inr ⟨y, rfl⟩)
  · exact h.up
  · cases h.stage with
    | idle h1 h2 h3 =>
      refine .idle h1 h2 (fun z => ?_)
      rw [hs]
      split
      · exact fun h => absurd rfl h
      · exact h3 z
    | offered x h1 h2 h3 h4 =>
      have hx : x ≠ y := by rintro rfl; rw [hw] at h3; cases h3
      refine .offered x h1 h2 (by rw [hs, if_neg hx, h3]) (fun z hz => ?_)
      rw [hs]
      split
      · exact fun h => absurd rfl h
      · exact h4 z hz
    | accepted x h1 h2 h3 h4 =>
      have hx : x ≠ y := by rintro rfl; rw [hw] at h3; cases h3
      refine .accepted x h1 h2 (by rw [hs, if_neg hx, h3]) (fun z hz => ?_)
      rw [hs]
      split
      · exact fun h => absurd rfl h
      · exact h4 z hz
    | rejected x h1 h2 h3 h4 =>
      refine .rejected x h1 h2 (by rw [hs, h3]; simp) (fun z hz => ?_)
      rw [hs]
      split
      · exact fun h => absurd rfl h
      · exact h4 z hz
  · intro z
    rw [hc', hs, h.both z]
    by_cases hz : z = y
    · simp [hz, hb]
    · simp [hz]
  · exact fun z hz => absurd hz (hb z)
  · exact h.once
  · intro x hx z hz
    rcases List.mem_append.1 hz with hz | hz
    · exact h.asked x hx z hz
    · refine ⟨y, List.mem_singleton.1 hz, ?_⟩
      rintro rfl
      have := h.pending (.inl hx)
      rw [hw] at this
      cases this
  · intro l k x he
    rcases List.append_eq_append_iff.1 he with ⟨t, h1, h2⟩ | ⟨t, h1, h2⟩
    · cases t with
      | nil => simp at h2
      | cons t ts => simp at h2
    · cases t with
      | nil => simp at h2
      | cons t ts =>
        simp only [List.cons_append, List.cons.injEq] at h2
        obtain ⟨rfl, rfl⟩ := h2
        obtain ⟨g1, g2⟩ := h.fresh l ts x h1
        refine ⟨fun z hz => ?_, g2⟩
        rcases List.mem_append.1 hz with hz | hz
        · exact g1 z hz
        · refine ⟨y, List.mem_singleton.1 hz, ?_⟩
          rintro rfl
          have := h.pending (x := y) (.inr (by rw [h1]; simp))
          rw [hw] at this
          cases this
  · exact h.single
  · intro z hz hi
    have hi' : .ind ∉ ab := fun hx => hi (List.mem_append.2 (.inl hx))
    have := h.due z hz hi'
    rw [hs, if_neg]
    · exact this
    · rintro rfl
      rw [hw] at this
      cases this

/-- The central hears that the peripheral accepts. -/
theorem Proto.accepted {conn' wait' : Id → Prop} {rest : List Msg} (h : Proto wait conn m ab (.rsp :: rest)) :
    ∃ x, (∀ y, wait y ↔ y = x) ∧ ((∀ y, ¬ wait' y) → (∀ y, conn' y ↔ (conn y ∨ y = x)) → Proto wait' conn' m (ab ++ [.ind]) rest) := by
  have hans : (Msg.rsp :: rest).filter Msg.isAnswer = .rsp :: rest.filter Msg.isAnswer := rfl
  have hst := h.stage
  rw [hans] at hst
  cases hst with
  | idle h1 h2 h3 => cases h2
  | offered x h1 h2 h3 h4 => cases h2
  | rejected x h1 h2 h3 h4 => cases h2
  | accepted x h1 h2 h3 h4 =>
    have hrest : rest.filter Msg.isAnswer = [] := by simpa using h2
    refine ⟨x, h1, fun hw' hc' => ?_⟩
    have hs : ∀ z, star m (ab ++ [.ind]) z = if star m ab z = some .pendingInd then some .connected else star m ab z := by
      intro z
      rw [star_append]
      rfl
    have hnp : ∀ y, star m ab y ≠ some .pendingAccept := by
      intro y hy
      by_cases e : y = x
      · rw [e, h3] at hy; cases hy
      · have := h4 y e (by rw [hy]; exact nofun)
        rw [hy] at this; cases this
    have hall : ∀ z, star m (ab ++ [.ind]) z ≠ none → star m (ab ++ [.ind]) z = some .connected := by
      intro z
      rw [hs]
      split
      · exact fun _ => rfl
      · rename_i hz
        intro hne
        refine h4 z ?_ hne
        rintro rfl
        exact hz h3
    have hmem : ∀ y, Msg.term y ∈ Msg.rsp :: rest ↔ Msg.term y ∈ rest := by intro y; simp
    constructor
    · intro z hz
      rcases List.mem_append.1 hz with hz | hz
      · exact h.down z hz
      · rw [List.mem_singleton.1 hz]; exact .inr (.inl rfl)
    · exact fun z hz => h.up z (.tail _ hz)
    · exact .idle hw' hrest hall
    · intro y
      rw [hc', h.both y, hmem, hs]
      by_cases e : y = x
      · rw [e, h3]; simp
      · have : star m ab y ≠ some .pendingInd := by
          intro hy
          have := h4 y e (by rw [hy]; exact nofun)
          rw [hy] at this; cases this
        rw [if_neg this]
        simp [e]
    · intro y hy
      have := h.gone y ((hmem y).2 hy)
      rw [hs, this]
      simp
    · intro y
      have := h.once y
      rw [List.countP_cons] at this
      omega
    · exact fun z hz => absurd (h.pending (.inl hz)) (hnp z)
    · intro l k z he
      have : Msg.req z ∈ ab := by
        have : Msg.req z ∈ ab ++ [.ind] := by rw [he]; simp
        simpa using this
      exact absurd (h.pending (.inr this)) (hnp z)
    · exact h.single
    · intro z hz hi
      exact absurd (List.mem_append.2 (.inr (List.mem_singleton.2 rfl))) hi

/-- The central hears that the peripheral rejects. -/
theorem Proto.rejected {wait' : Id → Prop} {rest : List Msg} (h : Proto wait conn m ab (.rej :: rest)) :
    ∃ x, (∀ y, wait y ↔ y = x) ∧ ((∀ y, ¬ wait' y) → Proto wait' conn m ab rest) := by
  have hans : (Msg.rej :: rest).filter Msg.isAnswer = .rej :: rest.filter Msg.isAnswer := rfl
  have hst := h.stage
  rw [hans] at hst
  cases hst with
  | idle h1 h2 h3 => cases h2
  | offered x h1 h2 h3 h4 => cases h2
  | accepted x h1 h2 h3 h4 => cases h2
  | rejected x h1 h2 h3 h4 =>
    have hrest : rest.filter Msg.isAnswer = [] := by simpa using h2
    refine ⟨x, h1, fun hw' => ?_⟩
    have hmem : ∀ y, Msg.term y ∈ Msg.rej :: rest ↔ Msg.term y ∈ rest := by intro y; simp
    refine ⟨h.down, fun z hz => h.up z (.tail _ hz), .idle hw' hrest ?_, ?_, ?_, ?_, h.asked, h.fresh, h.single, h.due⟩
    · intro y hy
      refine h4 y ?_ hy
      rintro rfl
      exact hy h3
    · intro y; rw [h.both y, hmem]
    · exact fun y hy => h.gone y ((hmem y).2 hy)
    · intro y
      have := h.once y
      rw [List.countP_cons] at this
      omega

/-- The central hears that the peripheral ends a stream. -/
theorem Proto.ended {conn' : Id → Prop} {rest : List Msg} {y : Id} (h : Proto wait conn m ab (.term y :: rest))
    (hc' : ∀ z, conn' z ↔ (conn z ∧ z ≠ y)) : conn y ∧ Proto wait conn' m ab rest := by
  have hy : Msg.term y ∉ rest := by
    intro hx
    have h1 := h.once y
    rw [List.countP_cons] at h1
    have h2 : 0 < rest.countP (fun x => x = .term y) := List.countP_pos_iff.2 ⟨_, hx, by simp⟩
    simp only [decide_true, if_true] at h1
    omega
  have hg := h.gone y (.head _)
  refine ⟨(h.both y).2 (.inr (.head _)), h.down, fun z hz => h.up z (.tail _ hz), h.stage, ?_, ?_, ?_, h.asked, h.fresh, h.single, h.due⟩
  · intro z
    rw [hc', h.both z]
    by_cases e : z = y
    · rw [e, hg]; simp [hy]
    · simp [e]
  · exact fun z hz => h.gone z (.tail _ hz)
  · intro z
    have := h.once z
    rw [List.countP_cons] at this
    omega

/-- A PDU arrives at the peripheral. -/
theorem Proto.arrive {x : Msg} {rest : List Msg} (h : Proto wait conn m (x :: rest) ba) : Proto wait conn (recv m x) rest ba := by
  refine ⟨fun z hz => h.down z (.tail _ hz), h.up, h.stage, h.both, h.gone, h.once, ?_, ?_, ?_, ?_⟩
  · intro z hz
    by_cases hx : x = .req z
    · subst hx
      exact (h.fresh [] rest z rfl).1
    · have : m z = some .pendingAccept := by
        cases x with
        | req y =>
          have : z ≠ y := fun e => hx (by rw [e])
          simpa [recv, this] using hz
        | term y =>
          simp only [recv] at hz
          split at hz
          · cases hz
          · exact hz
        | ind =>
          simp only [recv] at hz
          split at hz
          · cases hz
          · exact hz
        | _ => exact hz
      exact fun w hw => h.asked z this w (.tail _ hw)
  · intro l k z he
    obtain ⟨h1, h2⟩ := h.fresh (x :: l) k z (by rw [he]; rfl)
    exact ⟨h1, h2⟩
  · intro y z hy hz
    have back : ∀ y, recv m x y = some .pendingInd → m y = some .pendingInd := by
      intro y hy
      cases x <;> simp only [recv] at hy <;> (try split at hy) <;> first | exact hy | cases hy
    exact h.single y z (back y hy) (back z hz)
  · intro z hz hi
    by_cases hx : x = .ind
    · subst hx
      simp only [recv] at hz
      split at hz
      · cases hz
      · rename_i hne; exact absurd hz hne
    · have back : m z = some .pendingInd := by
        cases x <;> simp only [recv] at hz <;> (try split at hz) <;> first | exact hz | cases hz
      exact h.due z back (fun hy => by
        rcases List.mem_cons.1 hy with hy | hy
        · exact hx hy.symm
        · exact hi hy)

/-- The peripheral's host accepts. -/
theorem Proto.accept {x : Id} (h : Proto wait conn m ab ba) (hx : m x = some .pendingAccept) :
    Proto wait conn (fun z => if z = x then some .pendingInd else m z) ab (ba ++ [.rsp]) := by
  have hab := h.asked x hx
  have hs : ∀ z, star (fun z => if z = x then some .pendingInd else m z) ab z = if z = x then some .pendingInd else star m ab z := by
    intro z
    by_cases hz : z = x
    · subst hz
      rw [star_terms hab, if_pos rfl, if_pos rfl]
    · rw [if_neg hz]
      exact star_point (by simp [hz]) ab
  have hnoreq : ∀ y, Msg.req y ∉ ab := fun y hy => by obtain ⟨z, hz, -⟩ := hab _ hy; cases hz
  have hnoind : Msg.ind ∉ ab := fun hy => by obtain ⟨z, hz, -⟩ := hab _ hy; cases hz
  have hp := h.pending (.inl hx)
  have hst : (∀ y, wait y ↔ y = x) ∧ ba.filter Msg.isAnswer = [] ∧ ∀ y, y ≠ x → star m ab y ≠ none → star m ab y = some .connected := by
    cases h.stage with
    | idle h1 h2 h3 => have := h3 x (by rw [hp]; exact nofun); rw [hp] at this; cases this
    | offered z h1 h2 h3 h4 =>
      have : x = z := by
        apply Classical.byContradiction
        intro e
        have := h4 x e (by rw [hp]; exact nofun)
        rw [hp] at this; cases this
      subst this
      exact ⟨h1, h2, h4⟩
    | accepted z h1 h2 h3 h4 =>
      by_cases e : x = z
      · rw [← e, hp] at h3; cases h3
      · have := h4 x e (by rw [hp]; exact nofun)
        rw [hp] at this; cases this
    | rejected z h1 h2 h3 h4 =>
      by_cases e : x = z
      · rw [← e, hp] at h3; cases h3
      · have := h4 x e (by rw [hp]; exact nofun)
        rw [hp] at this; cases this
  obtain ⟨h1, h2, h4⟩ := hst
  have hmem : ∀ y, Msg.term y ∈ ba ++ [.rsp] ↔ Msg.term y ∈ ba := by intro y; simp
  constructor
  · exact h.down
  · intro z hz
    rcases List.mem_append.1 hz with hz | hz
    · exact h.up z hz
    · exact .inl (List.mem_singleton.1 hz)
  · rw [List.filter_append, h2]
    refine .accepted x h1 rfl (by rw [hs, if_pos rfl]) (fun y hy => ?_)
    rw [hs, if_neg hy]
    exact h4 y hy
  · intro y
    rw [hmem, hs, h.both y]
    by_cases e : y = x
    · rw [if_pos e, e, hp]; simp
    · rw [if_neg e]
  · intro y hy
    have := h.gone y ((hmem y).1 hy)
    rw [hs, if_neg]
    · exact this
    · rintro rfl; rw [hp] at this; cases this
  · intro y
    rw [List.countP_append]
    have := h.once y
    simpa using this
  · intro z hz
    split at hz
    · cases hz
    · rename_i hne
      have := h4 z hne (by rw [h.pending (.inl hz)]; exact nofun)
      rw [h.pending (.inl hz)] at this
      cases this
  · intro l k z he
    exact absurd (by rw [he]; simp) (hnoreq z)
  · have only : ∀ z, (if z = x then some CisState.pendingInd else m z) = some .pendingInd → z = x := by
      intro z hz
      split at hz
      · assumption
      · rename_i hne
        have h5 := h.due z hz hnoind
        have := h4 z hne (by rw [h5]; exact nofun)
        rw [h5] at this
        cases this
    intro y z hy hz
    rw [only y hy, only z hz]
  · intro z hz _
    rw [hs]
    split
    · rfl
    · rename_i hne
      simp only [hne, if_false] at hz
      exact h.due z hz hnoind

/-- The peripheral's host rejects. -/
theorem Proto.reject {x : Id} (h : Proto wait conn m ab ba) (hx : m x = some .pendingAccept) :
    Proto wait conn (fun z => if z = x then none else m z) ab (ba ++ [.rej]) := by
  have hab := h.asked x hx
  have hs : ∀ z, star (fun z => if z = x then none else m z) ab z = if z = x then none else star m ab z := by
    intro z
    by_cases hz : z = x
    · subst hz
      rw [star_terms hab, if_pos rfl, if_pos rfl]
    · rw [if_neg hz]
      exact star_point (by simp [hz]) ab
  have hnoreq : ∀ y, Msg.req y ∉ ab := fun y hy => by obtain ⟨z, hz, -⟩ := hab _ hy; cases hz
  have hp := h.pending (.inl hx)
  have hst : (∀ y, wait y ↔ y = x) ∧ ba.filter Msg.isAnswer = [] ∧ ∀ y, y ≠ x → star m ab y ≠ none → star m ab y = some .connected := by
    cases h.stage with
    | idle h1 h2 h3 => have := h3 x (by rw [hp]; exact nofun); rw [hp] at this; cases this
    | offered z h1 h2 h3 h4 =>
      have : x = z := by
        apply Classical.byContradiction
        intro e
        have := h4 x e (by rw [hp]; exact nofun)
        rw [hp] at this; cases this
      subst this
      exact ⟨h1, h2, h4⟩
    | accepted z h1 h2 h3 h4 =>
      by_cases e : x = z
      · rw [← e, hp] at h3; cases h3
      · have := h4 x e (by rw [hp]; exact nofun)
        rw [hp] at this; cases this
    | rejected z h1 h2 h3 h4 =>
      by_cases e : x = z
      · rw [← e, hp] at h3; cases h3
      · have := h4 x e (by rw [hp]; exact nofun)
        rw [hp] at this; cases this
  obtain ⟨h1, h2, h4⟩ := hst
  have hmem : ∀ y, Msg.term y ∈ ba ++ [.rej] ↔ Msg.term y ∈ ba := by intro y; simp
  have keep : ∀ {z st}, (if z = x then none else m z) = some st → m z = some st ∧ z ≠ x := by
    intro z st hz
    split at hz
    · cases hz
    · exact ⟨hz, by assumption⟩
  constructor
  · exact h.down
  · intro z hz
    rcases List.mem_append.1 hz with hz | hz
    · exact h.up z hz
    · exact .inr (.inl (List.mem_singleton.1 hz))
  · rw [List.filter_append, h2]
    refine .rejected x h1 rfl (by rw [hs, if_pos rfl]) (fun y hy => ?_)
    rw [hs, if_neg hy]
    exact h4 y hy
  · intro y
    rw [hmem, hs, h.both y]
    by_cases e : y = x
    · rw [if_pos e, e, hp]; simp
    · rw [if_neg e]
  · intro y hy
    have := h.gone y ((hmem y).1 hy)
    rw [hs]
    split
    · rfl
    · exact this
  · intro y
    rw [List.countP_append]
    have := h.once y
    simpa using this
  · exact fun z hz => h.asked z (keep hz).1
  · intro l k z he
    exact absurd (by rw [he]; simp) (hnoreq z)
  · exact fun y z hy hz => h.single y z (keep hy).1 (keep hz).1
  · intro z hz hi
    rw [hs, if_neg (keep hz).2]
    exact h.due z (keep hz).1 hi

/-- The peripheral's host ends a stream. -/
theorem Proto.leave {y : Id} (h : Proto wait conn m ab ba) (hy : m y = some .connected) (hab : ∀ z, .term z ∉ ab) :
    Proto wait conn (fun z => if z = y then none else m z) ab (ba ++ [.term y]) := by
  have hnoreq : Msg.req y ∉ ab := by
    intro hx
    obtain ⟨l, k, hl⟩ := List.append_of_mem hx
    refine star_some (by rw [hy]; exact nofun) ?_ (h.fresh l k y hl).2
    intro ht
    exact hab y (by rw [hl]; exact List.mem_append.2 (.inl ht))
  have hw : star m ab y = some .connected := star_conn hy hnoreq (hab y)
  have hpt : ∀ l, ∀ z, z ≠ y → star (fun z => if z = y then none else m z) l z = star m l z := fun l z hz =>
    star_point (by simp [hz]) l
  have hs : ∀ z, star (fun z => if z = y then none else m z) ab z = if z = y then none else star m ab z := by
    intro z
    by_cases hz : z = y
    · subst hz
      rw [if_pos rfl]
      exact star_none (by simp) hnoreq
    · rw [if_neg hz]
      exact hpt ab z hz
  have hnot : Msg.term y ∉ ba := fun hx => by
    have := h.gone y hx
    rw [hw] at this
    cases this
  have keep : ∀ {z st}, (if z = y then none else m z) = some st → m z = some st ∧ z ≠ y := by
    intro z st hz
    split at hz
    · cases hz
    · exact ⟨hz, by assumption⟩
  have less : ∀ (z : Id), (if z = y then none else star m ab z) ≠ none → (if z = y then none else star m ab z) = star m ab z ∧ z ≠ y := by
    intro z hz
    split at hz
    · exact absurd rfl hz
    · rename_i hne; exact ⟨by rw [if_neg hne], hne⟩
  constructor
  · exact h.down
  · intro z hz
    rcases List.mem_append.1 hz with hz | hz
    · exact h.up z hz
    · exact .inr (.inr ⟨y, List.mem_singleton.1 hz⟩)
  · have hf : (ba ++ [Msg.term y]).filter Msg.isAnswer = ba.filter Msg.isAnswer := by
      rw [List.filter_append]
      show _ ++ [] = _
      rw [List.append_nil]
    rw [hf]
    have sub : ∀ z, star (fun z => if z = y then none else m z) ab z ≠ none →
        star (fun z => if z = y then none else m z) ab z = star m ab z := by
      intro z
      rw [hs]
      exact fun hz => (less z hz).1
    cases h.stage with
    | idle h1 h2 h3 =>
      refine .idle h1 h2 (fun z hz => ?_)
      have e := sub z hz
      rw [e] at hz ⊢
      exact h3 z hz
    | offered x h1 h2 h3 h4 =>
      have hx : x ≠ y := by rintro rfl; rw [hw] at h3; cases h3
      refine .offered x h1 h2 (by rw [hs, if_neg hx, h3]) (fun z hz hne => ?_)
      have e := sub z hne
      rw [e] at hne ⊢
      exact h4 z hz hne
    | accepted x h1 h2 h3 h4 =>
      have hx : x ≠ y := by rintro rfl; rw [hw] at h3; cases h3
      refine .accepted x h1 h2 (by rw [hs, if_neg hx, h3]) (fun z hz hne => ?_)
      have e := sub z hne
      rw [e] at hne ⊢
      exact h4 z hz hne
    | rejected x h1 h2 h3 h4 =>
      refine .rejected x h1 h2 (by rw [hs, h3]; simp) (fun z hz hne => ?_)
      have e := sub z hne
      rw [e] at hne ⊢
      exact h4 z hz hne
  · intro z
    rw [hs, h.both z]
    by_cases e : z = y
    · subst e; simp [hw]
    · simp [e]
  · intro z hz
    rw [hs]
    rcases List.mem_append.1 hz with hz | hz
    · split
      · rfl
      · exact h.gone z hz
    · simp only [List.mem_singleton, Msg.term.injEq] at hz
      rw [if_pos hz]
  · intro z
    rw [List.countP_append]
    by_cases e : z = y
    · subst e
      have : ba.countP (fun x => x = .term z) = 0 := by
        rw [List.countP_eq_zero]
        intro x hx he
        exact hnot (by simpa using (of_decide_eq_true he) ▸ hx)
      rw [this]
      simp
    · have : ([Msg.term y] : List Msg).countP (fun x => x = .term z) = 0 := by
        rw [List.countP_eq_zero]
        intro x hx he
        rw [List.mem_singleton.1 hx] at he
        exact e (by simpa using (Eq.symm (by simpa using he : y = z)))
      rw [this]
      exact h.once z
  · exact fun z hz => h.asked z (keep hz).1
  · intro l k x he
    have hxy : x ≠ y := fun e => hnoreq (by rw [← e, he]; simp)
    obtain ⟨g1, g2⟩ := h.fresh l k x he
    exact ⟨g1, by rw [hpt l x hxy]; exact g2⟩
  · exact fun a z ha hz => h.single a z (keep ha).1 (keep hz).1
  · intro z hz hi
    rw [hs, if_neg (keep hz).2]
    exact h.due z (keep hz).1 hi

end

end Verif.Iso
