import Verif.Sub.Lemmas
/-! Invariants of a link of two controllers. -/
namespace Verif.Sub

/-- What the peripheral may have sent: requests that passed its own check, and parameter procedures. -/
def fromPeripheral : Pdu → Prop
  | .subrateReq a b c _ _ => a ≤ b ∧ b * (c + 1) ≤ 500
  | .subrateInd .. => False
  | .paramReq .. => True
  | .paramUpdate _ i .. => i < 65536

/-- What the central may have sent. -/
def fromCentral : Pdu → Prop
  | .subrateReq .. => False
  | .paramUpdate _ i .. => i < 65536
  | _ => True

structure Sane (l : Link) : Prop where
  roleC : l.central.role = .central
  roleP : l.peripheral.role = .peripheral
  intC : l.central.timing.interval < 65536
  intP : l.peripheral.timing.interval < 65536
  toC : ∀ p ∈ l.toCentral, fromPeripheral p
  toP : ∀ p ∈ l.toPeripheral, fromCentral p

theorem command_sane {e : End} {c : Cmd} (hi : e.timing.interval < 65536) (hc : c.wf) :
    ∃ s e' p v, command e c = .ok s e' p v ∧ e'.role = e.role ∧ e'.timing.interval < 65536 ∧
      (∀ x ∈ p, e.role = .central → fromCentral x) ∧ (∀ x ∈ p, e.role = .peripheral → fromPeripheral x) := by
  cases c with
  | subrateRequest a b c d t =>
    rcases subrateRequest_cases e a b c d t hi with ⟨s, h, _⟩ | ⟨e', p, v, h⟩
    · exact ⟨_, _, _, _, h, rfl, hi, by simp, by simp⟩
    · obtain ⟨h1, h2, h3, h4, h5⟩ := subrateRequest_success h
      refine ⟨_, _, _, _, h, ?_⟩
      rcases h5 with ⟨hr, rfl, rfl, rfl⟩ | ⟨hr, rfl, rfl, rfl⟩
      · refine ⟨rfl, hi, ?_, ?_⟩
        · simp [fromCentral]
        · simp [hr]
      · refine ⟨rfl, hi, ?_, ?_⟩
        · simp [hr]
        · intro x hx _
          simp only [List.mem_singleton] at hx
          subst hx
          exact ⟨h1.2.1, h2⟩
  | connectionUpdate a b c t =>
    simp only [command, connectionUpdate]
    cases hr : e.role
    · refine ⟨_, _, _, _, rfl, hr, hi, ?_, by simp⟩
      simp only [List.mem_singleton]
      rintro x rfl _
      exact hc.2.1
    · refine ⟨_, _, _, _, rfl, hr, hi, by simp, ?_⟩
      simp [fromPeripheral]
  | paramReply a b c t x y =>
    simp only [command]
    rcases paramReply_cases e a b c t x y with h | ⟨⟨_, h2, _⟩, h⟩
    · exact ⟨_, _, _, _, h, rfl, hi, by simp, by simp⟩
    · refine ⟨_, _, _, _, h, rfl, by simp; omega, ?_, ?_⟩ <;>
        (simp only [List.mem_singleton]; rintro x rfl _; simp only [fromCentral, fromPeripheral]; omega)
  | paramRefuse r =>
    simp only [command, paramRefuse]
    refine ⟨_, _, _, _, rfl, rfl, hi, ?_, ?_⟩ <;>
      (simp only [List.mem_singleton]; rintro x rfl _; simp [fromCentral, fromPeripheral])

theorem incoming_saneC {e : End} {x : Pdu} (hr : e.role = .central) (hi : e.timing.interval < 65536)
    (hx : fromPeripheral x) :
    ∃ s e' p v, incoming e x = .ok s e' p v ∧ e'.role = .central ∧ e'.timing.interval < 65536 ∧ ∀ y ∈ p, fromCentral y := by
  cases x with
  | subrateReq a b c d t =>
    obtain ⟨hab, hb⟩ := hx
    have ho : e.timing.interval * a * (c + 1) * 2 ≤ intMax := by
      have h1 : e.timing.interval * a * (c + 1) ≤ 65535 * 500 :=
        mul_bound (Nat.le_trans (Nat.mul_le_mul_right _ hab) hb) hi
      unfold intMax
      omega
    simp only [incoming]
    rcases incomingSubrateReq_cases (b := b) (d := d) (t := t) hr ho with h | ⟨_, f, k, _, _, h⟩
    · exact ⟨_, _, _, _, h, hr, hi, by simp [fromCentral]⟩
    · exact ⟨_, _, _, _, h, hr, hi, by simp [fromCentral]⟩
  | subrateInd => exact hx.elim
  | paramReq a b c t =>
    simp only [incoming, incomingParamReq]
    split
    · exact ⟨_, _, _, _, rfl, hr, hi, by simp⟩
    · exact ⟨_, _, _, _, rfl, hr, hi, by simp [fromCentral]⟩
  | paramUpdate s i l t =>
    simp only [incoming, incomingParamUpdate]
    split
    · exact ⟨_, _, _, _, rfl, hr, hx, by simp⟩
    · exact ⟨_, _, _, _, rfl, hr, hi, by simp⟩

theorem incoming_saneP {e : End} {x : Pdu} (hr : e.role = .peripheral) (hi : e.timing.interval < 65536)
    (hx : fromCentral x) :
    ∃ s e' p v, incoming e x = .ok s e' p v ∧ e'.role = .peripheral ∧ e'.timing.interval < 65536 ∧
      ∀ y ∈ p, fromPeripheral y := by
  cases x with
  | subrateReq => exact hx.elim
  | subrateInd s f l c t =>
    simp only [incoming, incomingSubrateInd]
    rw [if_neg (by simp [hr])]
    split
    · exact ⟨_, _, _, _, rfl, hr, hi, by simp⟩
    · exact ⟨_, _, _, _, rfl, hr, hi, by simp⟩
  | paramReq a b c t =>
    simp only [incoming, incomingParamReq]
    split
    · exact ⟨_, _, _, _, rfl, hr, hi, by simp⟩
    · exact ⟨_, _, _, _, rfl, hr, hi, by simp [fromPeripheral]⟩
  | paramUpdate s i l t =>
    simp only [incoming, incomingParamUpdate]
    split
    · exact ⟨_, _, _, _, rfl, hr, hx, by simp⟩
    · exact ⟨_, _, _, _, rfl, hr, hi, by simp⟩

theorem step_sane {l : Link} (h : Sane l) {a : Act} (ha : a.wf) : ∃ l' s v w, step l a = .ok l' s v w ∧ Sane l' := by
  cases a with
  | hostC c =>
    obtain ⟨s, e', p, v, he, h1, h2, h3, _⟩ := command_sane h.intC ha
    simp only [step, he]
    refine ⟨_, _, _, _, rfl, h1.trans h.roleC, h.roleP, h2, h.intP, h.toC, ?_⟩
    intro x hx
    rcases List.mem_append.mp hx with hx | hx
    · exact h.toP x hx
    · exact h3 x hx h.roleC
  | hostP c =>
    obtain ⟨s, e', p, v, he, h1, h2, _, h3⟩ := command_sane h.intP ha
    simp only [step, he]
    refine ⟨_, _, _, _, rfl, h.roleC, h1.trans h.roleP, h.intC, h2, ?_, h.toP⟩
    intro x hx
    rcases List.mem_append.mp hx with hx | hx
    · exact h.toC x hx
    · exact h3 x hx h.roleP
  | arriveP =>
    cases hq : l.toPeripheral with
    | nil => simp only [step, hq]; exact ⟨_, _, _, _, rfl, h⟩
    | cons x q =>
      have hx := h.toP x (by simp [hq])
      obtain ⟨s, e', p, v, he, h1, h2, h3⟩ := incoming_saneP h.roleP h.intP hx
      simp only [step, hq, he]
      refine ⟨_, _, _, _, rfl, h.roleC, h1, h.intC, h2, ?_, fun y hy => h.toP y (by simp [hq, hy])⟩
      intro y hy
      rcases List.mem_append.mp hy with hy | hy
      · exact h.toC y hy
      · exact h3 y hy
  | arriveC =>
    cases hq : l.toCentral with
    | nil => simp only [step, hq]; exact ⟨_, _, _, _, rfl, h⟩
    | cons x q =>
      have hx := h.toC x (by simp [hq])
      obtain ⟨s, e', p, v, he, h1, h2, h3⟩ := incoming_saneC h.roleC h.intC hx
      simp only [step, hq, he]
      refine ⟨_, _, _, _, rfl, h1, h.roleP, h2, h.intP, fun y hy => h.toC y (by simp [hq, hy]), ?_⟩
      intro y hy
      rcases List.mem_append.mp hy with hy | hy
      · exact h.toP y hy
      · exact h3 y hy

theorem run_sane {l : Link} (h : Sane l) {as : List Act} (ha : ∀ a ∈ as, a.wf) : ∃ l', run l as = some l' ∧ Sane l' := by
  induction as generalizing l with
  | nil => exact ⟨_, rfl, h⟩
  | cons a as ih =>
    obtain ⟨l', s, v, w, he, h'⟩ := step_sane h (ha a (by simp))
    simp only [run, he]
    exact ih h' (fun x hx => ha x (by simp [hx]))

theorem start_sane {i l t : Nat} {x y : Accept} {a b : Bool} (hi : i < 65536) : Sane (.start i l t x y a b) :=
  ⟨rfl, rfl, hi, hi, by simp [Link.start], by simp [Link.start]⟩

/-! ## Agreement of the two ends -/

/-- What a PDU of the central makes of the timing of the peripheral. -/
def follow (t : Timing) : Pdu → Timing
  | .subrateInd .success f l c o => ⟨t.interval, f, c, l, o⟩
  | .paramUpdate .success i l o => ⟨i, 1, 0, l, o⟩
  | _ => t

/-- The two ends agree, up to what is on its way; nothing on its way to the central changes it. -/
structure Agrees (l : Link) : Prop where
  same : l.toPeripheral.foldl follow l.peripheral.timing = l.central.timing
  quiet : ∀ p ∈ l.toCentral, ∀ i a b, p ≠ .paramUpdate .success i a b

theorem foldl_interval_ind (q : List Pdu) (t : Timing) (p : List Pdu) :
    (q ++ p).foldl follow t = p.foldl follow (q.foldl follow t) := List.foldl_append

theorem command_central {e : End} {c : Cmd} (hr : e.role = .central) (hc : (Act.hostC c).cautious) {s : Status} {e' : End}
    {p : List Pdu} {v : List Ev} (h : command e c = .ok s e' p v) : p.foldl follow e.timing = e'.timing := by
  cases c with
  | subrateRequest a b c d t =>
    simp only [command] at h
    by_cases hs : s = .success
    · subst hs
      obtain ⟨_, _, _, _, h5⟩ := subrateRequest_success h
      rcases h5 with ⟨_, rfl, rfl, rfl⟩ | ⟨hr', _⟩
      · rfl
      · simp [hr] at hr'
    · simp only [subrateRequest] at h
      iterate 6 (rcases ite_split h with ⟨_, h⟩ | ⟨_, h⟩; · cases h; rfl)
      rcases ite_split h with ⟨_, h⟩ | ⟨_, h⟩; · cases h
      rcases ite_split h with ⟨_, h⟩ | ⟨_, h⟩; · cases h; rfl
      rcases ite_split h with ⟨_, h⟩ | ⟨_, h⟩; · cases h
      iterate 2 (rcases ite_split h with ⟨_, h⟩ | ⟨_, h⟩; · cases h; rfl)
      simp only [hr] at h
      cases h
      exact absurd rfl hs
  | connectionUpdate => exact hc.elim
  | paramReply a b c t x y =>
    simp only [command] at h
    rcases paramReply_cases e a b c t x y with h' | ⟨_, h'⟩ <;> (rw [h'] at h; cases h; rfl)
  | paramRefuse r =>
    simp only [command, paramRefuse] at h
    cases h
    cases r <;> first | rfl | exact absurd rfl hc

theorem command_peripheral {e : End} {c : Cmd} (hr : e.role = .peripheral) (hc : (Act.hostP c).cautious) {s : Status}
    {e' : End} {p : List Pdu} {v : List Ev} (h : command e c = .ok s e' p v) :
    e' = e ∧ ∀ x ∈ p, ∀ i a b, x ≠ .paramUpdate .success i a b := by
  cases c with
  | subrateRequest a b c d t =>
    simp only [command, subrateRequest] at h
    iterate 6 (rcases ite_split h with ⟨_, h⟩ | ⟨_, h⟩; · cases h; exact ⟨rfl, by simp⟩)
    rcases ite_split h with ⟨_, h⟩ | ⟨_, h⟩; · cases h
    rcases ite_split h with ⟨_, h⟩ | ⟨_, h⟩; · cases h; exact ⟨rfl, by simp⟩
    rcases ite_split h with ⟨_, h⟩ | ⟨_, h⟩; · cases h
    iterate 2 (rcases ite_split h with ⟨_, h⟩ | ⟨_, h⟩; · cases h; exact ⟨rfl, by simp⟩)
    simp only [hr] at h
    cases h
    exact ⟨rfl, by simp⟩
  | connectionUpdate a b c t =>
    simp only [command, connectionUpdate, hr] at h
    cases h
    exact ⟨rfl, by simp⟩
  | paramReply => exact hc.elim
  | paramRefuse r =>
    simp only [command, paramRefuse] at h
    cases h
    refine ⟨rfl, ?_⟩
    intro x hx i a b he
    simp only [List.mem_singleton] at hx
    subst hx
    injection he with h1
    exact hc h1

theorem incoming_peripheral {e : End} {x : Pdu} {s : Status} {e' : End} {p : List Pdu} {v : List Ev}
    (h : incoming e x = .ok s e' p v) (hx : fromCentral x) :
    e'.timing = follow e.timing x ∧ ∀ y ∈ p, ∀ i a b, y ≠ .paramUpdate .success i a b := by
  cases x with
  | subrateReq => exact hx.elim
  | subrateInd s f l c t =>
    simp only [incoming, incomingSubrateInd] at h
    rcases ite_split h with ⟨_, h⟩ | ⟨_, h⟩; · cases h
    cases s <;> simp only at h <;> cases h <;> exact ⟨rfl, by simp⟩
  | paramReq a b c t =>
    simp only [incoming, incomingParamReq] at h
    rcases ite_split h with ⟨_, h⟩ | ⟨_, h⟩ <;> cases h <;> exact ⟨rfl, by simp⟩
  | paramUpdate s i l t =>
    simp only [incoming, incomingParamUpdate] at h
    cases s <;> simp only at h <;> cases h <;> exact ⟨rfl, by simp⟩

theorem incoming_central {e : End} {x : Pdu} {s : Status} {e' : End} {p : List Pdu} {v : List Ev}
    (h : incoming e x = .ok s e' p v) (hr : e.role = .central) (hx : ∀ i a b, x ≠ .paramUpdate .success i a b) :
    p.foldl follow e.timing = e'.timing := by
  cases x with
  | subrateReq a b c d t =>
    simp only [incoming] at h
    by_cases ho : e.timing.interval * a * (c + 1) * 2 ≤ intMax
    · rcases incomingSubrateReq_cases (b := b) (d := d) (t := t) hr ho with h' | ⟨_, f, k, _, _, h'⟩ <;>
        (rw [h'] at h; cases h; rfl)
    · rw [incomingSubrateReq, if_neg (by simp [hr]), if_pos (by omega)] at h
      cases h
  | subrateInd s f l c t =>
    simp only [incoming, incomingSubrateInd] at h
    rw [if_pos (by simp [hr])] at h
    cases h
  | paramReq a b c t =>
    simp only [incoming, incomingParamReq] at h
    rcases ite_split h with ⟨_, h⟩ | ⟨_, h⟩ <;> cases h <;> rfl
  | paramUpdate s i l t =>
    simp only [incoming, incomingParamUpdate] at h
    cases s <;> simp only at h <;> first | exact absurd rfl (hx i l t) | (cases h; rfl)

theorem step_agrees {l l' : Link} (hs : Sane l) (h : Agrees l) {a : Act} (hc : a.cautious) {s : Status} {v w : List Ev}
    (he : step l a = .ok l' s v w) : Agrees l' := by
  cases a with
  | hostC c =>
    simp only [step] at he
    split at he
    · rename_i s' e p ev hcmd
      cases he
      refine ⟨?_, h.quiet⟩
      show (l.toPeripheral ++ p).foldl follow l.peripheral.timing = e.timing
      rw [List.foldl_append, h.same]
      exact command_central hs.roleC hc hcmd
    · cases he
  | hostP c =>
    simp only [step] at he
    split at he
    · rename_i s' e p ev hcmd
      cases he
      obtain ⟨h1, h2⟩ := command_peripheral hs.roleP hc hcmd
      subst h1
      refine ⟨h.same, ?_⟩
      intro y hy
      rcases List.mem_append.mp hy with hy | hy
      · exact h.quiet y hy
      · exact h2 y hy
    · cases he
  | arriveP =>
    cases hq : l.toPeripheral with
    | nil => simp only [step, hq] at he; cases he; exact h
    | cons x q =>
      simp only [step, hq] at he
      split at he
      · rename_i s' e p ev hcmd
        cases he
        obtain ⟨h1, h2⟩ := incoming_peripheral hcmd (hs.toP x (by simp [hq]))
        refine ⟨?_, ?_⟩
        · have := h.same
          rw [hq, List.foldl_cons] at this
          show q.foldl follow e.timing = _
          rw [h1, this]
        · intro y hy
          rcases List.mem_append.mp hy with hy | hy
          · exact h.quiet y hy
          · exact h2 y hy
      · cases he
  | arriveC =>
    cases hq : l.toCentral with
    | nil => simp only [step, hq] at he; cases he; exact h
    | cons x q =>
      simp only [step, hq] at he
      split at he
      · rename_i s' e p ev hcmd
        cases he
        have hx := h.quiet x (by simp [hq])
        refine ⟨?_, fun y hy => h.quiet y (by simp [hq, hy])⟩
        show (l.toPeripheral ++ p).foldl follow l.peripheral.timing = e.timing
        rw [List.foldl_append, h.same]
        exact incoming_central hcmd hs.roleC hx
      · cases he

theorem run_agrees {l l' : Link} (hs : Sane l) (h : Agrees l) {as : List Act} (hw : ∀ a ∈ as, a.wf)
    (hc : ∀ a ∈ as, a.cautious) (he : run l as = some l') : Agrees l' := by
  induction as generalizing l with
  | nil => cases he; exact h
  | cons a as ih =>
    obtain ⟨l1, s, v, w, h1, h2⟩ := step_sane hs (hw a (by simp))
    simp only [run, h1] at he
    exact ih h2 (step_agrees hs h (hc a (by simp)) h1) (fun x hx => hw x (by simp [hx])) (fun x hx => hc x (by simp [hx])) he

/-! ## Legal timing -/

/-- The central's timing is legal, and no request for subrating is on its way. -/
structure Fit (l : Link) : Prop where
  legal : Legal l.central.timing
  none : ∀ p ∈ l.toCentral, ∀ a b c d t, p ≠ .subrateReq a b c d t

theorem subrateRequest_legal {e : End} {a b c d t : Nat} {e' : End} {p : List Pdu} {v : List Ev}
    (h : subrateRequest e a b c d t = .ok .success e' p v) : Legal ⟨e.timing.interval, b, d, c, t⟩ := by
  obtain ⟨h1, h2, h3, h4, _⟩ := subrateRequest_success h
  obtain ⟨r1, r2, r3, r4, r5, r6, r7⟩ := h1
  refine ⟨by simp; omega, r3, h4, h2, ?_⟩
  show 2 * (125 * e.timing.interval * b * (c + 1)) < 1000 * t
  have : 125 * e.timing.interval * b * (c + 1) = 125 * (e.timing.interval * b * (c + 1)) := by
    simp [Nat.mul_assoc]
  rw [this]
  generalize e.timing.interval * b * (c + 1) = u at *
  omega

theorem step_fit {l l' : Link} (hs : Sane l) (hg : Agrees l) (h : Fit l) {a : Act} (hc : a.cautious) (hn : a.noRequest)
    {s : Status} {v w : List Ev} (he : step l a = .ok l' s v w) : Fit l' := by
  cases a with
  | hostC c =>
    simp only [step] at he
    split at he
    · rename_i s' e p ev hcmd
      cases he
      refine ⟨?_, h.none⟩
      show Legal e.timing
      cases c with
      | subrateRequest a b c d t =>
        rcases subrateRequest_cases l.central a b c d t hs.intC with ⟨s2, h2, _⟩ | ⟨e2, p2, v2, h2⟩
        · simp only [command, h2] at hcmd
          cases hcmd
          exact h.legal
        · have hl := subrateRequest_legal h2
          obtain ⟨_, _, _, _, h5⟩ := subrateRequest_success h2
          simp only [command, h2] at hcmd
          cases hcmd
          rcases h5 with ⟨_, rfl, _⟩ | ⟨hr, _⟩
          · exact hl
          · simp [hs.roleC] at hr
      | connectionUpdate => exact hc.elim
      | paramReply a b c t x y =>
        simp only [command] at hcmd
        rcases paramReply_cases l.central a b c t x y with h' | ⟨⟨_, _, hl⟩, h'⟩
        · rw [h'] at hcmd; cases hcmd; exact h.legal
        · rw [h'] at hcmd; cases hcmd; exact hl
      | paramRefuse r =>
        simp only [command, paramRefuse] at hcmd
        cases hcmd
        exact h.legal
    · cases he
  | hostP c =>
    simp only [step] at he
    split at he
    · rename_i s' e p ev hcmd
      cases he
      refine ⟨h.legal, ?_⟩
      intro y hy
      rcases List.mem_append.mp hy with hm | hm
      · exact h.none y hm
      · cases c with
        | subrateRequest => exact hn.elim
        | connectionUpdate a b c t =>
          simp only [command, connectionUpdate, hs.roleP] at hcmd
          cases hcmd
          simp only [List.mem_singleton] at hm
          subst hm
          nofun
        | paramReply => exact hc.elim
        | paramRefuse r =>
          simp only [command, paramRefuse] at hcmd
          cases hcmd
          simp only [List.mem_singleton] at hm
          subst hm
          nofun
    · cases he
  | arriveP =>
    cases hq : l.toPeripheral with
    | nil => simp only [step, hq] at he; cases he; exact h
    | cons x q =>
      simp only [step, hq] at he
      split at he
      · rename_i s' e p ev hcmd
        cases he
        refine ⟨h.legal, ?_⟩
        intro y hy
        rcases List.mem_append.mp hy with hm | hm
        · exact h.none y hm
        · intro a b c d t hy'
          subst hy'
          have hx := hs.toP x (by simp [hq])
          cases x with
          | subrateReq => exact hx.elim
          | subrateInd s f l c t =>
            simp only [incoming, incomingSubrateInd] at hcmd
            rcases ite_split hcmd with ⟨_, hcmd⟩ | ⟨_, hcmd⟩; · cases hcmd
            cases s <;> simp only at hcmd <;> cases hcmd <;> simp at hm
          | paramReq a b c t =>
            simp only [incoming, incomingParamReq] at hcmd
            rcases ite_split hcmd with ⟨_, hcmd⟩ | ⟨_, hcmd⟩ <;> cases hcmd <;> simp at hm
          | paramUpdate s i l t =>
            simp only [incoming, incomingParamUpdate] at hcmd
            cases s <;> simp only at hcmd <;> cases hcmd <;> simp at hm
      · cases he
  | arriveC =>
    cases hq : l.toCentral with
    | nil => simp only [step, hq] at he; cases he; exact h
    | cons x q =>
      simp only [step, hq] at he
      split at he
      · rename_i s' e p ev hcmd
        cases he
        refine ⟨?_, fun y hy => h.none y (by simp [hq, hy])⟩
        have hx := h.none x (by simp [hq])
        have hx' := hg.quiet x (by simp [hq])
        have hx'' := hs.toC x (by simp [hq])
        show Legal e.timing
        cases x with
        | subrateReq a b c d t => exact absurd rfl (hx a b c d t)
        | subrateInd => exact hx''.elim
        | paramReq a b c t =>
          simp only [incoming, incomingParamReq] at hcmd
          rcases ite_split hcmd with ⟨_, hcmd⟩ | ⟨_, hcmd⟩ <;> cases hcmd <;> exact h.legal
        | paramUpdate s i a t =>
          simp only [incoming, incomingParamUpdate] at hcmd
          cases s <;> simp only at hcmd <;> first | exact absurd rfl (hx' i a t) | (cases hcmd; exact h.legal)
      · cases he

theorem run_fit {l l' : Link} (hs : Sane l) (hg : Agrees l) (h : Fit l) {as : List Act} (hw : ∀ a ∈ as, a.wf)
    (hc : ∀ a ∈ as, a.cautious) (hn : ∀ a ∈ as, a.noRequest) (he : run l as = some l') : Fit l' := by
  induction as generalizing l with
  | nil => cases he; exact h
  | cons a as ih =>
    obtain ⟨l1, s, v, w, h1, h2⟩ := step_sane hs (hw a (by simp))
    simp only [run, h1] at he
    exact ih h2 (step_agrees hs hg (hc a (by simp)) h1) (step_fit hs hg h (hc a (by simp)) (hn a (by simp)) h1)
      (fun x hx => hw x (by simp [hx])) (fun x hx => hc x (by simp [hx])) (fun x hx => hn x (by simp [hx])) he

end Verif.Sub
