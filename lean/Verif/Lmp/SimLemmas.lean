import Verif.Lmp.Micro

/-! # Every schedule of two devices is a path of the exploration -/

namespace Verif.Lmp

theorem allB_mem {α : Type} {f : α → Bool} : ∀ {l : List α}, allB f l = true → ∀ x ∈ l, f x = true
  | [], _, x, hx => by simp at hx
  | [y], h, x, hx => by
    simp only [List.mem_singleton] at hx
    subst hx
    simpa [allB] using h
  | y :: z :: l, h, x, hx => by
    simp only [allB, Bool.and_eq_true] at h
    rcases List.mem_cons.1 hx with rfl | hx
    · exact h.1
    · exact allB_mem h.2 x hx

theorem allB_of {α : Type} {f : α → Bool} : ∀ {l : List α}, (∀ x ∈ l, f x = true) → allB f l = true
  | [], _ => rfl
  | [y], h => h y (by simp)
  | y :: z :: l, h => by
    simp only [allB, Bool.and_eq_true]
    exact ⟨h y (by simp), allB_of (fun x hx => h x (by exact List.mem_cons_of_mem _ hx))⟩

/-! ## What a future takes -/

theorem takes_offer (p : Prog Unit) (c : Option Cmd) (q : List Lmp) : takes p c q = (offer p c q).isSome := by
  cases p with
  | recvHci acc k =>
    cases c with
    | none => simp [takes, takesLmp, takesHci, offer]
    | some c => simp only [takes, takesLmp, takesHci, offer, Bool.false_or]; split <;> simp_all
  | recvLmp acc k =>
    cases q with
    | nil => simp [takes, takesLmp, takesHci, offer]
    | cons l q => simp only [takes, takesLmp, takesHci, offer, Bool.or_false]; split <;> simp_all
  | wait op k =>
    cases q with
    | nil => simp [takes, takesLmp, takesHci, offer]
    | cons l q =>
      cases l <;> simp only [takes, takesLmp, takesHci, offer, Bool.or_false] <;> (repeat' split) <;> simp_all
  | passkey k =>
    cases c with
    | none => simp [takes, takesLmp, takesHci, offer]
    | some c =>
      simp only [takes, takesLmp, takesHci, offer, Bool.false_or]
      (repeat' split) <;> simp_all
  | _ => simp [takes, takesLmp, takesHci, offer]

theorem not_takes_of_offer {p : Prog Unit} {c : Option Cmd} {q : List Lmp} (h : offer p c q = none) :
    takesLmp p q = false ∧ takesHci p c = false := by
  have := takes_offer p c q
  rw [h] at this
  simpa [takes] using this

theorem takesLmp_append {p : Prog Unit} {q w : List Lmp} (h : q ≠ []) : takesLmp p (q ++ w) = takesLmp p q := by
  cases q with
  | nil => exact absurd rfl h
  | cons l q => cases p <;> try rfl
                all_goals (cases l <;> rfl)

theorem mismatch_append {p : Prog Unit} {q w : List Lmp} (h : q ≠ []) : mismatch p (q ++ w) = mismatch p q := by
  cases q with
  | nil => exact absurd rfl h
  | cons l q => cases p <;> try rfl
                all_goals (cases l <;> rfl)

theorem offer_not_yield {p : Prog Unit} {c : Option Cmd} {q : List Lmp} {t : Take} (hm : mismatch p q = false)
    (h : offer p c q = some t) : t.yield = false := by
  cases p with
  | recvHci acc k =>
    cases c with
    | none => simp [offer] at h
    | some c =>
      simp only [offer] at h
      split at h <;> simp_all
      rw [← h]
  | recvLmp acc k =>
    cases q with
    | nil => simp [offer] at h
    | cons l q =>
      simp only [offer] at h
      split at h <;> simp_all
      rw [← h]
  | wait op k =>
    cases q with
    | nil => simp [offer] at h
    | cons l q =>
      cases l <;> simp only [offer] at h <;> try (simp at h; done)
      all_goals
        simp only [mismatch, decide_eq_false_iff_not, Decidable.not_not, ne_eq] at hm
        rw [if_pos hm] at h
        rw [← Option.some.inj h]
  | passkey k =>
    cases c with
    | none => simp [offer] at h
    | some c =>
      simp only [offer] at h
      (repeat' split at h) <;> simp_all <;> rw [← h]
  | _ => simp [offer] at h

/-- A future that is ready takes a command (and then leaves the slot empty) or a packet. -/
theorem offer_lift {p : Prog Unit} {c : Option Cmd} {q : List Lmp} {t : Take} {host : List Cmd} {w : List Lmp}
    (hm : mismatch p (q ++ w) = false) (h : offer p c q = some t) :
    ∃ sl, offer p (c.toList ++ host).head? (q ++ w) = some ⟨t.next, sl, t.queue ++ w, false⟩ ∧
      inboxAfter sl (c.toList ++ host) = t.slot.toList ++ host ∧
      (wantsHci p = true → c ≠ none) ∧ (wantsHci p = false → q ≠ []) := by
  cases p with
  | recvHci acc k =>
    cases c with
    | none => simp [offer] at h
    | some c =>
      simp only [offer] at h
      split at h
      · rename_i ha
        have := Option.some.inj h
        subst this
        refine ⟨none, ?_, ?_, by simp, by simp [wantsHci]⟩
        · simp [offer, ha]
        · simp [inboxAfter]
      · simp at h
  | recvLmp acc k =>
    cases q with
    | nil => simp [offer] at h
    | cons l q =>
      simp only [offer] at h
      split at h
      · rename_i ha
        have := Option.some.inj h
        subst this
        refine ⟨(c.toList ++ host).head?, ?_, ?_, by simp [wantsHci], by simp⟩
        · simp [offer, ha]
        · cases c with
          | none => cases host <;> simp [inboxAfter]
          | some c => simp [inboxAfter]
      · simp at h
  | wait op k =>
    cases q with
    | nil => simp [offer] at h
    | cons l q =>
      have key : ∀ sl : Option Cmd, sl = (c.toList ++ host).head? → inboxAfter sl (c.toList ++ host) = c.toList ++ host := by
        intro sl hs
        subst hs
        cases c with
        | none => cases host <;> simp [inboxAfter]
        | some c => simp [inboxAfter]
      cases l <;> simp only [offer] at h <;> try (simp at h; done)
      all_goals
        simp only [List.cons_append, mismatch, decide_eq_false_iff_not, Decidable.not_not, ne_eq] at hm
        rw [if_pos hm] at h
        have := Option.some.inj h
        subst this
        exact ⟨_, by simp only [List.cons_append, offer]; rw [if_pos hm], key _ rfl, by simp [wantsHci], by simp⟩
  | passkey k =>
    cases c with
    | none => simp [offer] at h
    | some c =>
      simp only [offer] at h
      by_cases h1 : c.kind = .passkeyReply
      · rw [if_pos h1] at h
        have := Option.some.inj h
        subst this
        exact ⟨none, by simp [offer, h1], by simp [inboxAfter], by simp, by simp [wantsHci]⟩
      · rw [if_neg h1] at h
        by_cases h2 : c.kind = .passkeyNeg
        · rw [if_pos h2] at h
          have := Option.some.inj h
          subst this
          exact ⟨none, by simp [offer, h2], by simp [inboxAfter], by simp, by simp [wantsHci]⟩
        · rw [if_neg h2] at h
          by_cases h3 : c.kind = .keypress
          · rw [if_pos h3] at h
            have := Option.some.inj h
            subst this
            exact ⟨none, by simp [offer, h3], by simp [inboxAfter], by simp, by simp [wantsHci]⟩
          · rw [if_neg h3] at h
            simp at h
  | _ => simp [offer] at h

/-- What is left to consume. -/
def cost (c : Option Cmd) (q : List Lmp) : Nat := c.toList.length + q.length

theorem offer_cost {p : Prog Unit} {c : Option Cmd} {q : List Lmp} {t : Take} (h : offer p c q = some t)
    (hm : mismatch p q = false) : cost t.slot t.queue < cost c q := by
  cases p with
  | recvHci acc k =>
    cases c with
    | none => simp [offer] at h
    | some c =>
      simp only [offer] at h
      split at h
      · have := Option.some.inj h
        subst this
        simp [cost]
      · simp at h
  | recvLmp acc k =>
    cases q with
    | nil => simp [offer] at h
    | cons l q =>
      simp only [offer] at h
      split at h
      · have := Option.some.inj h
        subst this
        simp only [cost, List.length_cons]
        omega
      · simp at h
  | wait op k =>
    cases q with
    | nil => simp [offer] at h
    | cons l q =>
      cases l <;> simp only [offer] at h <;> try (simp at h; done)
      all_goals
        simp only [mismatch, decide_eq_false_iff_not, Decidable.not_not, ne_eq] at hm
        rw [if_pos hm] at h
        have := Option.some.inj h
        subst this
        simp only [cost, List.length_cons]
        omega
  | passkey k =>
    cases c with
    | none => simp [offer] at h
    | some c =>
      simp only [offer] at h
      (repeat' split at h)
      all_goals first
        | (simp at h; done)
        | (have := Option.some.inj h
           subst this
           simp [cost])
  | _ => simp [offer] at h

/-! ## Hosts -/

/-- A host that gives the answers of its user. -/
def User.al (u : User) (e : Ev) : Ans :=
  match u.answer e with
  | some c => .oneOf [c]
  | none => .quiet

theorem answers_al (u : User) : ∀ es : List Ev, answers u.al es = some [es.filterMap u.answer]
  | [] => rfl
  | e :: es => by
    simp only [answers, answers_al u es, User.al, List.filterMap_cons]
    cases h : u.answer e <;> simp

/-- The hosts of the two devices. -/
def hosts (ua ub : User) : Bool → Ev → Ans
  | false => ua.al
  | true => ub.al

def pickUser (ua ub : User) : Bool → User
  | false => ua
  | true => ub

theorem answers_hosts (ua ub : User) (sd : Bool) (es : List Ev) :
    answers (hosts ua ub sd) es = some [es.filterMap (pickUser ua ub sd).answer] := by
  cases sd <;> exact answers_al _ _

abbrev evs (o : List Out) : List Ev := o.filterMap Out.ev?

theorem get_put_same (s : MSys) (sd : Bool) (x : MSide) : (s.put sd x).get sd = x := by cases sd <;> rfl
theorem get_put_other (s : MSys) (sd : Bool) (x : MSide) : (s.put (!sd) x).get sd = s.get sd := by cases sd <;> rfl
theorem get_put_other' (s : MSys) (sd : Bool) (x : MSide) : (s.put (!sd) x).get (!sd) = x := by cases sd <;> rfl

theorem receive_receive (m : MSide) (o o' : List Out) : (m.receive o).receive o' = m.receive (o ++ o') := by
  simp [MSide.receive]

/-- In the middle of a `Tick` of side `sd`: `d` is the device before it, `y` the other side before it, `ps`
and `l` are the procedures and what they have consumed and sent so far. -/
structure Mid (sd : Bool) (u : User) (d : Dev) (y : MSide) (ps : List Proc) (l : Local) (s : MSys) : Prop where
  procs : (s.get sd).procs = ps
  inbox : (s.get sd).inbox = l.slot.toList ++ (d.host ++ (evs l.outs).filterMap u.answer)
  queue : (s.get sd).queue = l.queue ++ d.wire
  log : (s.get sd).log = (d.log ++ evs l.outs).filter Ev.verdict
  other : s.get (!sd) = y.receive l.outs

/-- The procedures before the one that is polled are pending, or at least those since the last that
moved. -/
def Quiet (pre : List Proc) (last : Nat) (l : Local) : Prop :=
  (∀ r ∈ pre, offer r.cur l.slot l.queue = none) ∨
    (last ≤ pre.length ∧ ∀ r ∈ pre.drop last, offer r.cur l.slot l.queue = none)

theorem uncontested_of {p : Prog Unit} {l : Local} {host : List Cmd} {w : List Lmp} {rs : List Proc}
    (h1 : wantsHci p = true → l.slot ≠ none) (h2 : wantsHci p = false → l.queue ≠ [])
    (hr : ∀ r ∈ rs, offer r.cur l.slot l.queue = none) :
    uncontested p (l.slot.toList ++ host).head? (l.queue ++ w) rs = true := by
  unfold uncontested
  cases hw : wantsHci p
  · rw [if_neg (by simp), List.all_eq_true]
    intro r hr'
    rw [takesLmp_append (h2 hw), (not_takes_of_offer (hr r hr')).1]
    rfl
  · rw [if_pos rfl, List.all_eq_true]
    intro r hr'
    have : (l.slot.toList ++ host).head? = l.slot := by
      cases hs : l.slot with
      | none => exact absurd hs (h1 hw)
      | some c => simp
    rw [this, (not_takes_of_offer (hr r hr')).2]
    rfl

theorem mem_moves {s : MSys} {sd : Bool} {i : Nat} (hi : i < 5) (h : (s.get sd).can i = true) :
    (sd, i) ∈ s.moves := by
  have h5 : i ∈ [0, 1, 2, 3, 4] := by
    simp only [List.mem_cons, List.not_mem_nil, or_false]
    omega
  unfold MSys.moves
  cases sd
  · exact List.mem_append_left _ (List.mem_map.2 ⟨i, List.mem_filter.2 ⟨h5, h⟩, rfl⟩)
  · exact List.mem_append_right _ (List.mem_map.2 ⟨i, List.mem_filter.2 ⟨h5, h⟩, rfl⟩)

/-- What the exploration checks when a procedure can move. -/
theorem explore_move {al : Bool → Ev → Ans} {good : MSys → Bool} {k : Nat} {s : MSys} {sd : Bool} {i : Nat}
    (h : explore al good k s = true) (hi : i < 5) (hc : (s.get sd).can i = true) :
    ∃ k' x o, k = k' + 1 ∧ (s.get sd).fire i = some (x, o) ∧
      ∃ css, answers (al sd) (evs o) = some css ∧ ∀ cs ∈ css,
        explore al good k' ((s.put sd (x.withAnswers cs)).put (!sd) ((s.get (!sd)).receive o)) = true := by
  cases k with
  | zero => simp [explore] at h
  | succ k =>
    have hm := mem_moves hi hc
    simp only [explore] at h
    split at h
    · rename_i he
      rw [he] at hm
      simp at hm
    · have := allB_mem h _ hm
      simp only at this
      split at this
      · simp at this
      · rename_i x o hf
        split at this
        · simp at this
        · rename_i css hcs
          exact ⟨k, x, o, rfl, hf, css, hcs, fun cs h => allB_mem this cs h⟩

theorem explore_stuck {al : Bool → Ev → Ans} {good : MSys → Bool} {k : Nat} {s : MSys}
    (h : explore al good k s = true) (hm : s.moves = []) : good s = true := by
  cases k with
  | zero => simp [explore] at h
  | succ k =>
    simp only [explore] at h
    rw [hm] at h
    exact h

/-- One step of one procedure. -/
theorem micro_step {sd : Bool} {ua ub : User} {good : MSys → Bool} {d : Dev} {y : MSide}
    {pre suf : List Proc} {p : Proc} {l : Local} {s : MSys} {k : Nat} {t : Take}
    (hmid : Mid sd (pickUser ua ub sd) d y (pre ++ p :: suf) l s) (h5 : pre.length < 5)
    (hx : explore (hosts ua ub) good k s = true) (hq : Quiet pre (s.get sd).last l)
    (ho : offer p.cur l.slot l.queue = some t) :
    ∃ k' o p' s', k = k' + 1 ∧ mismatch p.cur l.queue = false ∧
      ((∃ c, flush t.next = (o, .await c) ∧ p' = ⟨p.top, c, true⟩) ∨
        (flush t.next = (o, .done) ∧ p' = ⟨p.top, p.top, false⟩)) ∧
      explore (hosts ua ub) good k' s' = true ∧
      Mid sd (pickUser ua ub sd) d y (pre ++ p' :: suf) ⟨t.slot, t.queue, l.outs ++ o⟩ s' ∧
      (s'.get sd).last = pre.length := by
  have hget : (s.get sd).procs[pre.length]? = some p := by rw [hmid.procs]; simp
  have htake : (s.get sd).procs.take pre.length = pre := by rw [hmid.procs]; simp
  have hw : (wantsHci p.cur = true → l.slot ≠ none) ∧ (wantsHci p.cur = false → l.queue ≠ []) := by
    cases hp : p.cur with
    | recvHci acc k =>
      refine ⟨fun _ hs => ?_, fun h => by simp [wantsHci] at h⟩
      rw [hp, hs] at ho
      simp [offer] at ho
    | passkey k =>
      refine ⟨fun _ hs => ?_, fun h => by simp [wantsHci] at h⟩
      rw [hp, hs] at ho
      simp [offer] at ho
    | recvLmp acc k =>
      refine ⟨fun h => by simp [wantsHci] at h, fun _ hs => ?_⟩
      rw [hp, hs] at ho
      simp [offer] at ho
    | wait op k =>
      refine ⟨fun h => by simp [wantsHci] at h, fun _ hs => ?_⟩
      rw [hp, hs] at ho
      simp [offer] at ho
    | _ => rw [hp] at ho; simp [offer] at ho
  have htk : takes p.cur (s.get sd).inbox.head? (s.get sd).queue = true := by
    have h1 : takes p.cur l.slot l.queue = true := by rw [takes_offer, ho]; rfl
    simp only [takes, Bool.or_eq_true] at h1 ⊢
    rcases h1 with h1 | h1
    · left
      rw [hmid.queue, takesLmp_append]
      · exact h1
      · intro he
        rw [he] at h1
        cases hp : p.cur <;> rw [hp] at h1 <;> simp [takesLmp] at h1
    · right
      rw [hmid.inbox]
      cases hs : l.slot with
      | none =>
        rw [hs] at h1
        cases hp : p.cur <;> rw [hp] at h1 <;> simp [takesHci] at h1
      | some c =>
        rw [hs] at h1
        simpa using h1
  have hcan : (s.get sd).can pre.length = true := by
    unfold MSide.can
    rw [hget]
    simp only
    rw [htk, htake, Bool.true_and, hmid.inbox, hmid.queue, Bool.or_eq_true, Bool.and_eq_true, decide_eq_true_eq]
    rcases hq with hq | ⟨hl, hq⟩
    · exact Or.inl (uncontested_of hw.1 hw.2 hq)
    · exact Or.inr ⟨hl, uncontested_of hw.1 hw.2 hq⟩
  obtain ⟨k', x, o, rfl, hf, css, hcs, hall⟩ := explore_move hx h5 hcan
  rw [answers_hosts] at hcs
  have hcs' := Option.some.inj hcs
  subst hcs'
  have hall := hall _ (List.mem_singleton.2 rfl)
  unfold MSide.fire at hf
  rw [hget] at hf
  simp only at hf
  split at hf
  · simp at hf
  rename_i hmm
  rw [hmid.queue] at hmm
  have hmm' : mismatch p.cur (l.queue ++ d.wire) = false := by simpa using hmm
  obtain ⟨sl, hol, hia, -, -⟩ := offer_lift (host := d.host ++ (evs l.outs).filterMap (pickUser ua ub sd).answer) hmm' ho
  rw [hmid.inbox, hmid.queue, hol] at hf
  simp only at hf
  have hmm2 : mismatch p.cur l.queue = false := by
    by_cases hqe : l.queue = []
    · rw [hqe]
      cases p.cur <;> rfl
    · rwa [mismatch_append hqe] at hmm'
  split at hf
  · simp at hf
  · rename_i o' c hfl
    have hf := Option.some.inj hf
    simp only [Prod.mk.injEq] at hf
    obtain ⟨rfl, rfl⟩ := hf
    refine ⟨k', o', ⟨p.top, c, true⟩, _, rfl, hmm2, Or.inl ⟨c, hfl, rfl⟩, hall, ⟨?_, ?_, ?_, ?_, ?_⟩, ?_⟩
    · simp [get_put_other, get_put_same, MSide.withAnswers, hmid.procs]
    · simp only [get_put_other, get_put_same, MSide.withAnswers, hia]
      simp
    · simp [get_put_other, get_put_same, MSide.withAnswers]
    · simp only [get_put_other, get_put_same, MSide.withAnswers, hmid.log]
      simp
    · rw [get_put_other', hmid.other, receive_receive]
    · simp [get_put_other, get_put_same, MSide.withAnswers]
  · rename_i o' hfl
    have hf := Option.some.inj hf
    simp only [Prod.mk.injEq] at hf
    obtain ⟨rfl, rfl⟩ := hf
    refine ⟨k', o', ⟨p.top, p.top, false⟩, _, rfl, hmm2, Or.inr ⟨hfl, rfl⟩, hall, ⟨?_, ?_, ?_, ?_, ?_⟩, ?_⟩
    · simp [get_put_other, get_put_same, MSide.withAnswers, hmid.procs]
    · simp only [get_put_other, get_put_same, MSide.withAnswers, hia]
      simp
    · simp [get_put_other, get_put_same, MSide.withAnswers]
    · simp only [get_put_other, get_put_same, MSide.withAnswers, hmid.log]
      simp
    · rw [get_put_other', hmid.other, receive_receive]
    · simp [get_put_other, get_put_same, MSide.withAnswers]

/-- Polling one procedure. -/
theorem pollProc_sim {sd : Bool} {ua ub : User} {good : MSys → Bool} {d : Dev} {y : MSide} {pre suf : List Proc}
    (h5 : pre.length < 5) : ∀ (n : Nat) (p : Proc) (l : Local) (s : MSys) (k : Nat),
    Mid sd (pickUser ua ub sd) d y (pre ++ p :: suf) l s → explore (hosts ua ub) good k s = true →
    Quiet pre (s.get sd).last l →
    ∃ p' l' k' s', pollProc n p l = some (p', l') ∧ explore (hosts ua ub) good k' s' = true ∧
      Mid sd (pickUser ua ub sd) d y (pre ++ p' :: suf) l' s' ∧
      ((k' = k ∧ p' = p ∧ l' = l ∧ s' = s) ∨ (k' < k ∧ (s'.get sd).last = pre.length)) ∧
      (cost l.slot l.queue < n → offer p'.cur l'.slot l'.queue = none) := by
  intro n
  induction n with
  | zero =>
    intro p l s k hmid hx hq
    exact ⟨p, l, k, s, rfl, hx, hmid, Or.inl ⟨rfl, rfl, rfl, rfl⟩, fun h => absurd h (Nat.not_lt_zero _)⟩
  | succ n ih =>
    intro p l s k hmid hx hq
    cases ho : offer p.cur l.slot l.queue with
    | none =>
      refine ⟨p, l, k, s, ?_, hx, hmid, Or.inl ⟨rfl, rfl, rfl, rfl⟩, fun _ => ho⟩
      simp only [pollProc, ho]
    | some t =>
      obtain ⟨k1, o, p1, s1, rfl, hmm, hfl, hx1, hmid1, hlast⟩ := micro_step hmid h5 hx hq ho
      have hy := offer_not_yield hmm ho
      have hc := offer_cost ho hmm
      obtain ⟨p', l', k', s', hp, hx', hmid', hk, hn⟩ := ih p1 ⟨t.slot, t.queue, l.outs ++ o⟩ s1 k1 hmid1 hx1
        (Or.inr ⟨by omega, by rw [hlast]; simp⟩)
      refine ⟨p', l', k', s', ?_, hx', hmid', Or.inr ?_, fun hlt => hn (by simp only; omega)⟩
      · simp only [pollProc, ho, hy]
        rcases hfl with ⟨c, hf, rfl⟩ | ⟨hf, rfl⟩
        · rw [hf]
          exact hp
        · rw [hf]
          exact hp
      · rcases hk with ⟨rfl, rfl, rfl, rfl⟩ | ⟨hk, hl⟩
        · exact ⟨by omega, hlast⟩
        · exact ⟨by omega, hl⟩

theorem pollAll_sim {sd : Bool} {ua ub : User} {good : MSys → Bool} {d : Dev} {y : MSide} :
    ∀ (suf pre : List Proc) (l : Local) (s : MSys) (k : Nat), pre.length + suf.length = 5 →
    Mid sd (pickUser ua ub sd) d y (pre ++ suf) l s → explore (hosts ua ub) good k s = true →
    Quiet pre (s.get sd).last l →
    ∃ suf' l' k' s', pollAll suf l = some (suf', l') ∧ suf'.length = suf.length ∧
      explore (hosts ua ub) good k' s' = true ∧
      Mid sd (pickUser ua ub sd) d y (pre ++ suf') l' s' ∧
      ((k' = k ∧ suf' = suf ∧ l' = l ∧ s' = s ∧ ∀ r ∈ suf, offer r.cur l.slot l.queue = none) ∨ k' < k) := by
  intro suf
  induction suf with
  | nil =>
    intro pre l s k h5 hmid hx hq
    exact ⟨[], l, k, s, rfl, rfl, hx, hmid, Or.inl ⟨rfl, rfl, rfl, rfl, by simp⟩⟩
  | cons p suf ih =>
    intro pre l s k h5 hmid hx hq
    simp only [List.length_cons] at h5
    obtain ⟨p1, l1, k1, s1, hp, hx1, hmid1, hk1, hn⟩ := pollProc_sim (by omega) (pollFuel l) p l s k hmid hx hq
    have hoff : offer p1.cur l1.slot l1.queue = none := by
      apply hn
      unfold cost pollFuel
      cases l.slot <;> simp <;> omega
    have hq1 : Quiet (pre ++ [p1]) (s1.get sd).last l1 := by
      rcases hk1 with ⟨rfl, rfl, rfl, rfl⟩ | ⟨-, hl⟩
      · rcases hq with hq | ⟨hle, hq⟩
        · left
          intro r hr
          rcases List.mem_append.1 hr with hr | hr
          · exact hq r hr
          · rw [List.mem_singleton.1 hr]
            exact hoff
        · right
          refine ⟨by simp only [List.length_append]; omega, ?_⟩
          intro r hr
          rw [List.drop_append_of_le_length hle] at hr
          rcases List.mem_append.1 hr with hr | hr
          · exact hq r hr
          · rw [List.mem_singleton.1 hr]
            exact hoff
      · right
        rw [hl]
        refine ⟨by simp, ?_⟩
        intro r hr
        rw [List.drop_left] at hr
        rw [List.mem_singleton.1 hr]
        exact hoff
    have hmid1' : Mid sd (pickUser ua ub sd) d y ((pre ++ [p1]) ++ suf) l1 s1 := by
      rw [List.append_assoc]
      exact hmid1
    obtain ⟨suf', l', k', s', hpa, hlen, hx', hmid', hk'⟩ := ih (pre ++ [p1]) l1 s1 k1 (by simp; omega) hmid1' hx1 hq1
    refine ⟨p1 :: suf', l', k', s', ?_, by simp [hlen], hx', by rw [List.append_assoc] at hmid'; exact hmid', ?_⟩
    · simp only [pollAll, hp, hpa]
    · rcases hk1 with ⟨rfl, rfl, rfl, rfl⟩ | ⟨hlt, -⟩
      · rcases hk' with ⟨rfl, rfl, rfl, rfl, hr⟩ | hlt
        · left
          refine ⟨rfl, rfl, rfl, rfl, ?_⟩
          intro r hr'
          rcases List.mem_cons.1 hr' with rfl | hr'
          · exact hoff
          · exact hr r hr'
        · exact Or.inr hlt
      · right
        rcases hk' with ⟨rfl, -⟩ | hlt'
        · exact hlt
        · omega

end Verif.Lmp
