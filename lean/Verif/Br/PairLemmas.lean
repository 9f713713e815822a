import Verif.Br.ViewLemmas
/-!
# Two controllers: what they know of each other
-/
namespace Verif.Br
open Verif.Conn (Table find erase firstWith getUnusedHandle ScoState keys Sound)
open Verif.Sco (ConnParams LinkParams)

/-! ## Addresses do not change -/

theorem disconnect_addr {s s' : Ctl} {h r r' : Nat} {st : Status} {out : List (Nat × Pkt)} {ev : List Ev}
    (hs : disconnect s h r r' = .ok st s' out ev) : s'.addr = s.addr := by
  unfold disconnect at hs
  split at hs
  · cases hs
    rfl
  · split at hs
    · cases hs
      rfl
    · split at hs
      · split at hs
        · cases hs
        · rename_i h3
          obtain ⟨lm, rfl⟩ := endAcl_eq h3
          cases hs
          rfl
      · split at hs
        · cases hs
        · rename_i h3
          obtain ⟨lm, rfl⟩ := endAcl_eq h3
          cases hs
          rfl

theorem setup_addr {s s' : Ctl} {h : Nat} {p : ConnParams} {sp lg : Bool} {st : Status} {out : List (Nat × Pkt)} {ev : List Ev}
    (hs : setupSync s h p sp lg = .ok st s' out ev) : s'.addr = s.addr := by
  unfold setupSync at hs
  split at hs
  · cases hs
    rfl
  · split at hs
    · cases hs
      rfl
    · split at hs
      · cases hs
      · rename_i s1 h1
        obtain ⟨sco, last, rfl⟩ := createSyn_eq h1
        cases hs
        rfl

theorem command_addr {s s' : Ctl} {now : Nat} {c : Cmd} {st : Status} {out : List (Nat × Pkt)} {ev : List Ev}
    (h : command s now c = .ok st s' out ev) : s'.addr = s.addr := by
  cases c with
  | disconnect k r => exact disconnect_addr h
  | setupSync k p sp => exact setup_addr h
  | addSco k t => exact setup_addr h
  | accept a t =>
    simp only [command, acceptConnection, acceptPage, refuse] at h
    split at h
    · split at h
      · cases h
        rfl
      · split at h
        · cases h
        · cases h
        · rename_i k s1 hcn
          obtain ⟨last, lm, rfl⟩ := connect_eq hcn
          cases h
          rfl
    · (repeat' split at h) <;> cases h <;> rfl
  | _ =>
    simp only [command, startInquiry, cancelInquiry, createConnection, cancelConnection, rejectConnection, switchRole, writePolicy,
      writeDefaultPolicy, acceptSync, rejectSync, ask, sendAcl, sendSco, reset, refuse] at h
    (repeat' split at h) <;> cases h <;> rfl

theorem dispatch_addr {s s' : Ctl} {now x rssi : Nat} {p : Pkt} {st : Status} {out : List (Nat × Pkt)} {ev : List Ev}
    (h : dispatch s now x rssi p = .ok st s' out ev) : s'.addr = s.addr := by
  cases p with
  | disconnect r =>
    simp only [dispatch, onDisconnect] at h
    split at h
    · cases h
      rfl
    · split at h
      · cases h
      · rename_i h3
        obtain ⟨lm, rfl⟩ := endAcl_eq h3
        cases h
        rfl
  | pageRsp t =>
    simp only [dispatch, onPageRsp] at h
    split at h
    · cases h
      rfl
    · split at h
      · cases h
        rfl
      · split at h
        · cases h
        · cases h
        · rename_i k s1 hcn
          obtain ⟨last, lm, rfl⟩ := connect_eq hcn
          cases h
          rfl
  | scoReq p cod =>
    simp only [dispatch, onScoReq] at h
    split at h
    · cases h
      rfl
    · split at h
      · cases h
      · rename_i s1 h1
        obtain ⟨sco, last, rfl⟩ := createSyn_eq h1
        cases h
        rfl
  | _ =>
    simp only [dispatch, onPage, onPageReject, onRoleReq, onRoleRsp, onScoRsp, onScoDisc, onInquiry, onInqRsp, onAcl, onSco, report,
      onExtReq] at h
    (repeat' split at h) <;> cases h <;> rfl

theorem step_addr {s s' : Ctl} {now : Nat} {x : Act} {st : Status} {out : List (Nat × Pkt)} {ev : List Ev}
    (h : step s now x = .ok st s' out ev) : s'.addr = s.addr := by
  cases x with
  | cmd c => exact command_addr h
  | tick =>
    simp only [step] at h
    rw [tick_eq] at h
    cases h
    obtain ⟨inq, h3⟩ := inquiring_same (paging { s with later := [] } now).1 now
    obtain ⟨page, h4, -⟩ := paging_same { s with later := [] } now
    rw [h3, h4]
  | check k =>
    simp only [step, checkExpiring] at h
    split at h
    · cases h
      rfl
    · split at h
      · exact disconnect_addr h
      · split at h <;> cases h <;> rfl
  | packet src dst r p =>
    simp only [step, incoming] at h
    split at h
    · cases h
      rfl
    · rw [dispatch_addr h, touch_eq]

/-! ## The phases of a connection -/

/-- How often an odd number of role changes is still to come. -/
def flips : List Sig → Bool
  | [] => false
  | .flip :: l => !flips l
  | _ :: l => flips l

theorem flips_append (l m : List Sig) : flips (l ++ m) = (flips l ^^ flips m) := by
  induction l with
  | nil => simp [flips]
  | cons x l ih => cases x <;> simp [flips, ih]

/-- The roles fit if an odd number of changes is to come or not. -/
def fit (ra rb : Role) (odd : Bool) : Prop := rb = if odd then ra else ra.other

instance (ra rb : Role) (odd : Bool) : Decidable (fit ra rb odd) := inferInstanceAs (Decidable (_ = _))

theorem other_other (r : Role) : r.other.other = r := by cases r <;> rfl

theorem fit_a {ra rb : Role} {o : Bool} (h : fit ra rb o) : fit ra.other rb (!o) := by
  revert h
  cases ra <;> cases rb <;> cases o <;> decide

theorem fit_b {ra rb : Role} {o : Bool} (h : fit ra rb o) : fit ra rb.other (!o) := by
  revert h
  cases ra <;> cases rb <;> cases o <;> decide

def isRsp : Sig → Bool
  | .rsp _ => true
  | _ => false

def isPage : Sig → Bool
  | .page _ => true
  | _ => false

/-- After the last disconnection: only the pages of the attempt, and no role changes. -/
def fresh (att : Option Bool) : Sig → Bool
  | .gone => false
  | .flip => false
  | .page w => att == some w
  | _ => true

/-- What the two know of each other. A is the one that pages. -/
inductive Phase : View → View → List Sig → List Sig → Prop
  | apart (att scan : Option Bool) (la u v : List Sig) : (∀ y ∈ la, isRsp y = false) → (∀ y ∈ u, isPage y = false) →
      (∀ y ∈ v, fresh att y = true) → (scan ≠ none → u = [] ∧ scan = att) →
      Phase ⟨none, att, none⟩ ⟨none, none, scan⟩ la (u ++ v)
  | half (w t : Bool) (r : Role) (la1 la2 lb : List Sig) : (∀ y ∈ la1, isRsp y = false) → (∀ y ∈ la2, isRsp y = false ∧ y ≠ .gone) →
      (∀ y ∈ lb, y ≠ .gone) → fit (pagerRole w t) r (flips la2 ^^ flips lb) →
      Phase ⟨none, some w, none⟩ ⟨some r, none, none⟩ (la1 ++ .rsp t :: la2) lb
  | joined (ra rb : Role) (la lb : List Sig) : (∀ y ∈ la, isRsp y = false ∧ y ≠ .gone) → (∀ y ∈ lb, y ≠ .gone) →
      fit ra rb (flips la ^^ flips lb) → Phase ⟨some ra, none, none⟩ ⟨some rb, none, none⟩ la lb
  | left (att : Option Bool) (rb : Role) (la u v : List Sig) : (∀ y ∈ la, isRsp y = false) → (∀ y ∈ u, y ≠ .gone) →
      (∀ y ∈ v, fresh att y = true) → Phase ⟨none, att, none⟩ ⟨some rb, none, none⟩ la (u ++ .gone :: v)
  | dropped (ra : Role) (la1 la2 lb : List Sig) : (∀ y ∈ la1, isRsp y = false ∧ y ≠ .gone) → (∀ y ∈ la2, isRsp y = false) →
      (∀ y ∈ lb, isPage y = false) → Phase ⟨some ra, none, none⟩ ⟨none, none, none⟩ (la1 ++ .gone :: la2) lb

/-- What B never sends. -/
def fromB (y : Sig) : Bool := y ≠ .no && !isPage y

/-- What the timers and the hosts may not do. -/
def quietA (s : Ctl) (now : Nat) : Act → Prop
  | .cmd (.cancel _) => False
  | .cmd .reset => s.page = none
  | .tick => ∀ p, s.page = some p → now < p.timeout
  | _ => True

theorem all_snoc {α : Type} {p : α → Prop} {l m : List α} (h : ∀ y ∈ l, p y) (h' : ∀ y ∈ m, p y) : ∀ y ∈ l ++ m, p y := by
  intro y hy
  rcases List.mem_append.1 hy with h1 | h1
  · exact h y h1
  · exact h' y h1

theorem all_single {α : Type} {p : α → Prop} {x : α} (h : p x) : ∀ y ∈ [x], p y := by
  intro y hy
  rw [List.mem_singleton] at hy
  rw [hy]
  exact h

theorem want_of {o : List Sig} (h : ∀ y ∈ o, y = .want) {p : Sig → Prop} (hp : p .want) : ∀ y ∈ o, p y := by
  intro y hy
  rw [h y hy]
  exact hp

theorem flips_want {o : List Sig} (h : ∀ y ∈ o, y = .want) : flips o = false := by
  induction o with
  | nil => rfl
  | cons x o ih =>
    rw [h x List.mem_cons_self]
    exact ih (fun y hy => h y (List.mem_cons_of_mem _ hy))

theorem fresh_le {o : List Sig} {w : Bool} (h : ∀ y ∈ o, fresh none y = true) : ∀ y ∈ o, fresh (some w) y = true := by
  intro y hy
  have := h y hy
  cases y <;> simp [fresh] at this ⊢

/-- A's host and timers. -/
theorem phase_hostA {s : Ctl} {now : Nat} {x : Act} {va va' vb : View} {la lb o : List Sig} (h : Phase va vb la lb)
    (hq : quietA s now x) (hpg : s.page = none → va.att = none) (hm : Moves s now x va va' o) : Phase va' vb la (lb ++ o) := by
  cases hm with
  | same _ _ _ hw =>
    cases h with
    | apart att scan _ u v h1 h2 h3 h4 =>
      rw [List.append_assoc]
      exact .apart _ _ _ _ _ h1 h2 (all_snoc h3 (want_of hw rfl)) h4
    | half w t r la1 la2 _ h1 h2 h3 h4 =>
      refine .half _ _ _ _ _ _ h1 h2 (all_snoc h3 (want_of hw nofun)) ?_
      rw [flips_append, flips_want hw, Bool.xor_false]
      exact h4
    | joined ra rb _ _ h1 h2 h3 =>
      refine .joined _ _ _ _ h1 (all_snoc h2 (want_of hw nofun)) ?_
      rw [flips_append, flips_want hw, Bool.xor_false]
      exact h3
    | left att rb _ u v h1 h2 h3 =>
      rw [List.append_assoc, List.cons_append]
      exact .left _ _ _ _ _ h1 h2 (all_snoc h3 (want_of hw rfl))
    | dropped ra la1 la2 _ h1 h2 h3 => exact .dropped _ _ _ _ h1 h2 (all_snoc h3 (want_of hw rfl))
  | create a w _ b hc ha =>
    rw [List.append_nil]
    cases h with
    | apart att scan _ u v h1 h2 h3 h4 =>
      cases ha
      refine .apart _ _ _ _ _ h1 h2 (fresh_le h3) ?_
      intro h5
      exact absurd (h4 h5).2 h5
    | half w t r la1 la2 _ h1 h2 h3 h4 => cases ha
    | joined ra rb _ _ h1 h2 h3 => cases hc
    | left att rb _ u v h1 h2 h3 =>
      cases ha
      exact .left _ _ _ _ _ h1 h2 (fresh_le h3)
    | dropped ra la1 la2 _ h1 h2 h3 => cases hc
  | page _ w ha hp =>
    cases h with
    | apart att scan _ u v h1 h2 h3 h4 =>
      cases ha
      rw [List.append_assoc]
      exact .apart _ _ _ _ _ h1 h2 (all_snoc h3 (all_single (by simp [fresh]))) h4
    | half w t r la1 la2 _ h1 h2 h3 h4 =>
      refine .half _ _ _ _ _ _ h1 h2 (all_snoc h3 (all_single nofun)) ?_
      rw [flips_append]
      simpa [flips] using h4
    | joined ra rb _ _ h1 h2 h3 => cases ha
    | left att rb _ u v h1 h2 h3 =>
      cases ha
      rw [List.append_assoc, List.cons_append]
      exact .left _ _ _ _ _ h1 h2 (all_snoc h3 (all_single (by simp [fresh])))
    | dropped ra la1 la2 _ h1 h2 h3 => cases ha
  | timeout _ hp =>
    obtain ⟨p, h1, h2⟩ := hp
    have := hq p h1
    omega
  | cancel a _ => exact hq.elim
  | accept a t _ w att hs hc =>
    cases h <;> cases hs
  | disconnect h' r _ hc =>
    cases h with
    | apart att scan _ u v h1 h2 h3 h4 => exact absurd rfl hc
    | half w t r la1 la2 _ h1 h2 h3 h4 => exact absurd rfl hc
    | joined ra rb _ _ h1 h2 h3 => exact .left _ _ _ _ _ (fun y hy => (h1 y hy).1) h2 nofun
    | left att rb _ u v h1 h2 h3 => exact absurd rfl hc
    | dropped ra la1 la2 _ h1 h2 h3 =>
      refine Eq.mp (congrArg (Phase _ _ _) (List.append_nil _)) (.apart none none _ (lb ++ [.gone]) [] ?_ ?_ nofun nofun)
      · exact all_snoc (fun y hy => (h1 y hy).1) (all_snoc (l := [Sig.gone]) (all_single rfl) h2)
      · exact all_snoc h3 (all_single rfl)
  | check h' _ hc =>
    cases h with
    | apart att scan _ u v h1 h2 h3 h4 => exact absurd rfl hc
    | half w t r la1 la2 _ h1 h2 h3 h4 => exact absurd rfl hc
    | joined ra rb _ _ h1 h2 h3 => exact .left _ _ _ _ _ (fun y hy => (h1 y hy).1) h2 nofun
    | left att rb _ u v h1 h2 h3 => exact absurd rfl hc
    | dropped ra la1 la2 _ h1 h2 h3 =>
      refine Eq.mp (congrArg (Phase _ _ _) (List.append_nil _)) (.apart none none _ (lb ++ [.gone]) [] ?_ ?_ nofun nofun)
      · exact all_snoc (fun y hy => (h1 y hy).1) (all_snoc (l := [Sig.gone]) (all_single rfl) h2)
      · exact all_snoc h3 (all_single rfl)
  | reset _ =>
    have ha := hpg hq
    cases h with
    | apart att scan _ u v h1 h2 h3 h4 =>
      cases ha
      rw [if_pos rfl, List.append_nil]
      exact .apart _ _ _ _ _ h1 h2 h3 h4
    | half w t r la1 la2 _ h1 h2 h3 h4 => cases ha
    | joined ra rb _ _ h1 h2 h3 => exact .left _ _ _ _ _ (fun y hy => (h1 y hy).1) h2 nofun
    | left att rb _ u v h1 h2 h3 =>
      cases ha
      rw [if_pos rfl, List.append_nil]
      exact .left _ _ _ _ _ h1 h2 h3
    | dropped ra la1 la2 _ h1 h2 h3 =>
      refine Eq.mp (congrArg (Phase _ _ _) (List.append_nil _)) (.apart none none _ (lb ++ [.gone]) [] ?_ ?_ nofun nofun)
      · exact all_snoc (fun y hy => (h1 y hy).1) (all_snoc (l := [Sig.gone]) (all_single rfl) h2)
      · exact all_snoc h3 (all_single rfl)

/-- B's host and timers may not do this. -/
def quietB (la lb : List Sig) : Act → Prop
  | .cmd (.create _ _) => False
  | .cmd (.disconnect _ _) => (∀ y ∈ lb, isPage y = false) ∧ ∀ y ∈ la, isRsp y = false
  | .cmd .reset => (∀ y ∈ lb, isPage y = false) ∧ ∀ y ∈ la, isRsp y = false
  | .check _ => (∀ y ∈ lb, isPage y = false) ∧ ∀ y ∈ la, isRsp y = false
  | _ => True

/-- The end of the connection at B. -/
theorem phase_dropB {va : View} {r : Role} {la lb : List Sig} (h : Phase va ⟨some r, none, none⟩ la lb)
    (h1 : ∀ y ∈ lb, isPage y = false) (h2 : ∀ y ∈ la, isRsp y = false) : Phase va ⟨none, none, none⟩ (la ++ [.gone]) lb := by
  cases h with
  | half w t r la1 la2 _ h3 h4 h5 h6 => exact nomatch h2 (.rsp t) (by simp)
  | joined ra rb _ _ h3 h4 h5 => exact .dropped _ _ _ _ h3 nofun h1
  | left att rb _ u v h3 h4 h5 =>
    refine Eq.mp (congrArg (Phase _ _ _) (List.append_nil _)) (.apart att none _ (u ++ .gone :: v) [] ?_ h1 nofun nofun)
    exact all_snoc h2 (all_single rfl)

theorem phase_hostB {s : Ctl} {now : Nat} {x : Act} {va vb vb' : View} {la lb o : List Sig} (h : Phase va vb la lb)
    (hq : quietB la lb x) (hm : Moves s now x vb vb' o) : Phase va vb' (la ++ o) lb ∧ ∀ y ∈ o, fromB y = true := by
  cases hm with
  | same _ _ _ hw =>
    refine ⟨?_, want_of hw rfl⟩
    cases h with
    | apart att scan _ u v h1 h2 h3 h4 => exact .apart _ _ _ _ _ (all_snoc h1 (want_of hw rfl)) h2 h3 h4
    | half w t r la1 la2 _ h1 h2 h3 h4 =>
      rw [List.append_assoc, List.cons_append]
      refine .half _ _ _ _ _ _ h1 (all_snoc h2 (want_of hw ⟨rfl, nofun⟩)) h3 ?_
      rw [flips_append, flips_want hw, Bool.xor_false]
      exact h4
    | joined ra rb _ _ h1 h2 h3 =>
      refine .joined _ _ _ _ (all_snoc h1 (want_of hw ⟨rfl, nofun⟩)) h2 ?_
      rw [flips_append, flips_want hw, Bool.xor_false]
      exact h3
    | left att rb _ u v h1 h2 h3 => exact .left _ _ _ _ _ (all_snoc h1 (want_of hw rfl)) h2 h3
    | dropped ra la1 la2 _ h1 h2 h3 =>
      rw [List.append_assoc, List.cons_append]
      exact .dropped _ _ _ _ h1 (all_snoc h2 (want_of hw rfl)) h3
  | create a w _ b hc ha => exact hq.elim
  | page _ w ha hp =>
    cases h <;> cases ha
  | timeout _ hp =>
    rw [List.append_nil]
    refine ⟨?_, nofun⟩
    cases h with
    | apart att scan _ u v h1 h2 h3 h4 => exact .apart _ _ _ _ _ h1 h2 h3 h4
    | half w t r la1 la2 _ h1 h2 h3 h4 => exact .half _ _ _ _ _ _ h1 h2 h3 h4
    | joined ra rb _ _ h1 h2 h3 => exact .joined _ _ _ _ h1 h2 h3
    | left att rb _ u v h1 h2 h3 => exact .left _ _ _ _ _ h1 h2 h3
    | dropped ra la1 la2 _ h1 h2 h3 => exact .dropped _ _ _ _ h1 h2 h3
  | cancel a _ =>
    rw [List.append_nil]
    refine ⟨?_, nofun⟩
    cases h with
    | apart att scan _ u v h1 h2 h3 h4 => exact .apart _ _ _ _ _ h1 h2 h3 h4
    | half w t r la1 la2 _ h1 h2 h3 h4 => exact .half _ _ _ _ _ _ h1 h2 h3 h4
    | joined ra rb _ _ h1 h2 h3 => exact .joined _ _ _ _ h1 h2 h3
    | left att rb _ u v h1 h2 h3 => exact .left _ _ _ _ _ h1 h2 h3
    | dropped ra la1 la2 _ h1 h2 h3 => exact .dropped _ _ _ _ h1 h2 h3
  | accept a t _ w att hs hc ha =>
    refine ⟨?_, all_single rfl⟩
    cases h with
    | apart att' scan _ u v h1 h2 h3 h4 =>
      cases hs
      obtain ⟨rfl, h5⟩ := h4 nofun
      cases ha rfl
      cases h5
      refine .half _ _ _ _ _ _ h1 nofun ?_ ?_
      · intro y hy h6
        subst h6
        exact nomatch h3 _ hy
      · have : flips v = false := by
          clear h4 h2 hq
          induction v with
          | nil => rfl
          | cons y v ih =>
            have h7 := h3 y List.mem_cons_self
            have h8 := ih (fun z hz => h3 z (List.mem_cons_of_mem _ hz))
            cases y with
            | flip => cases h7
            | _ => exact h8
        rw [List.nil_append, this]
        cases t <;> cases w <;> decide
    | half w t r la1 la2 _ h1 h2 h3 h4 => cases hc
    | joined ra rb _ _ h1 h2 h3 => cases hc
    | left att rb _ u v h1 h2 h3 => cases hc
    | dropped ra la1 la2 _ h1 h2 h3 => cases hs
  | disconnect h' r _ hc =>
    refine ⟨?_, all_single rfl⟩
    cases h with
    | apart att scan _ u v h1 h2 h3 h4 => exact absurd rfl hc
    | half w t r la1 la2 _ h1 h2 h3 h4 => exact phase_dropB (.half _ _ _ _ _ _ h1 h2 h3 h4) hq.1 hq.2
    | joined ra rb _ _ h1 h2 h3 => exact phase_dropB (.joined _ _ _ _ h1 h2 h3) hq.1 hq.2
    | left att rb _ u v h1 h2 h3 => exact phase_dropB (.left _ rb _ _ _ h1 h2 h3) hq.1 hq.2
    | dropped ra la1 la2 _ h1 h2 h3 => exact absurd rfl hc
  | check h' _ hc =>
    refine ⟨?_, all_single rfl⟩
    cases h with
    | apart att scan _ u v h1 h2 h3 h4 => exact absurd rfl hc
    | half w t r la1 la2 _ h1 h2 h3 h4 => exact phase_dropB (.half _ _ _ _ _ _ h1 h2 h3 h4) hq.1 hq.2
    | joined ra rb _ _ h1 h2 h3 => exact phase_dropB (.joined _ _ _ _ h1 h2 h3) hq.1 hq.2
    | left att rb _ u v h1 h2 h3 => exact phase_dropB (.left _ rb _ _ _ h1 h2 h3) hq.1 hq.2
    | dropped ra la1 la2 _ h1 h2 h3 => exact absurd rfl hc
  | reset _ =>
    cases h with
    | apart att scan _ u v h1 h2 h3 h4 =>
      rw [if_pos rfl, List.append_nil]
      exact ⟨.apart _ _ _ _ _ h1 h2 h3 nofun, nofun⟩
    | half w t r la1 la2 _ h1 h2 h3 h4 => exact ⟨phase_dropB (.half _ _ _ _ _ _ h1 h2 h3 h4) hq.1 hq.2, all_single rfl⟩
    | joined ra rb _ _ h1 h2 h3 => exact ⟨phase_dropB (.joined _ _ _ _ h1 h2 h3) hq.1 hq.2, all_single rfl⟩
    | left att rb _ u v h1 h2 h3 => exact ⟨phase_dropB (.left _ rb _ _ _ h1 h2 h3) hq.1 hq.2, all_single rfl⟩
    | dropped ra la1 la2 _ h1 h2 h3 =>
      rw [if_pos rfl, List.append_nil]
      exact ⟨.dropped _ _ _ _ h1 h2 h3, nofun⟩

theorem phase_arriveA {y : Sig} {va va' vb : View} {l la lb o : List Sig} (h : Phase va vb l lb) (hl : l = y :: la) (hy : fromB y = true)
    (hm : Takes (some y) va va' o) : Phase va' vb la (lb ++ o) := by
  cases h with
  | apart att scan _ u v h1 h2 h3 h4 =>
    subst hl
    have h1' := fun z hz => h1 z (List.mem_cons_of_mem _ hz)
    have h0 := h1 y List.mem_cons_self
    have ok : Phase ⟨none, att, none⟩ ⟨none, none, scan⟩ la (u ++ v) := .apart _ _ _ _ _ h1' h2 h3 h4
    cases hm with
    | page w _ => cases hy
    | request w _ => cases hy
    | rspIgnored t _ => cases h0
    | rsp t w _ => cases h0
    | no _ att => cases hy
    | want _ r hr => cases hr
    | _ =>
      rw [List.append_nil]
      exact ok
  | half w t r la1 la2 _ h1 h2 h3 h4 =>
    cases la1 with
    | nil =>
      cases hl
      rw [← List.append_nil lb] at h4
      cases hm with
      | rspIgnored t _ ha => cases ha
      | rsp t w _ ha =>
        cases ha
        exact .joined _ _ _ _ h2 (by rw [List.append_nil]; exact h3) h4
    | cons z la1 =>
      cases hl
      have h1' := fun z hz => h1 z (List.mem_cons_of_mem _ hz)
      have h0 := h1 y List.mem_cons_self
      have ok : Phase ⟨none, some w, none⟩ ⟨some r, none, none⟩ (la1 ++ .rsp t :: la2) lb := .half _ _ _ _ _ _ h1' h2 h3 h4
      cases hm with
      | page w _ => cases hy
      | request w _ => cases hy
      | rspIgnored t _ => cases h0
      | rsp t w _ => cases h0
      | no _ att => cases hy
      | want _ r hr => cases hr
      | _ =>
        rw [List.append_nil]
        exact ok
  | joined ra rb _ _ h1 h2 h3 =>
    subst hl
    have h1' := fun z hz => h1 z (List.mem_cons_of_mem _ hz)
    have h0 := h1 y List.mem_cons_self
    cases hm with
    | page w _ => cases hy
    | request w _ => cases hy
    | rspIgnored t _ => cases h0.1
    | rsp t w _ => cases h0.1
    | no _ att => cases hy
    | gone _ => exact absurd rfl h0.2
    | wantIgnored _ =>
      rw [List.append_nil]
      exact .joined _ _ _ _ h1' h2 h3
    | want _ r hr =>
      cases hr
      refine .joined _ _ _ _ h1' (all_snoc h2 (all_single nofun)) ?_
      have := fit_a h3
      simpa [flips_append, flips] using this
    | flip _ =>
      rw [List.append_nil]
      refine .joined _ _ _ _ h1' h2 ?_
      have := fit_a h3
      simpa [flips] using this
  | left att rb _ u v h1 h2 h3 =>
    subst hl
    have h1' := fun z hz => h1 z (List.mem_cons_of_mem _ hz)
    have h0 := h1 y List.mem_cons_self
    have ok : Phase ⟨none, att, none⟩ ⟨some rb, none, none⟩ la (u ++ .gone :: v) := .left _ _ _ _ _ h1' h2 h3
    cases hm with
    | page w _ => cases hy
    | request w _ => cases hy
    | rspIgnored t _ => cases h0
    | rsp t w _ => cases h0
    | no _ att => cases hy
    | want _ r hr => cases hr
    | _ =>
      rw [List.append_nil]
      exact ok
  | dropped ra la1 la2 _ h1 h2 h3 =>
    cases la1 with
    | nil =>
      cases hl
      cases hm with
      | gone _ => exact .apart none none _ lb [] h2 h3 nofun nofun
    | cons z la1 =>
      cases hl
      have h1' := fun z hz => h1 z (List.mem_cons_of_mem _ hz)
      have h0 := h1 y List.mem_cons_self
      cases hm with
      | page w _ => cases hy
      | request w _ => cases hy
      | rspIgnored t _ => cases h0.1
      | rsp t w _ => cases h0.1
      | no _ att => cases hy
      | gone _ => exact absurd rfl h0.2
      | wantIgnored _ =>
        rw [List.append_nil]
        exact .dropped _ _ _ _ h1' h2 h3
      | want _ r hr => exact .dropped _ _ _ _ h1' h2 (all_snoc h3 (all_single rfl))
      | flip _ =>
        rw [List.append_nil]
        exact .dropped _ _ _ _ h1' h2 h3

theorem phase_arriveB {y : Sig} {va vb vb' : View} {l la lb o : List Sig} (h : Phase va vb la l) (hl : l = y :: lb)
    (hm : Takes (some y) vb vb' o) : Phase va vb' (la ++ o) lb ∧ ∀ z ∈ o, fromB z = true := by
  cases h with
  | apart att scan _ u v h1 h2 h3 h4 =>
    have hko : Phase ⟨none, att, none⟩ ⟨none, none, scan⟩ la lb := by
      cases u with
      | nil =>
        rw [List.nil_append] at hl
        subst hl
        exact .apart _ _ _ [] _ h1 nofun (fun z hz => h3 z (List.mem_cons_of_mem _ hz)) (fun h => ⟨rfl, (h4 h).2⟩)
      | cons z u =>
        cases hl
        exact .apart _ _ _ _ _ h1 (fun z hz => h2 z (List.mem_cons_of_mem _ hz)) h3 (fun h => nomatch (h4 h).1)
    cases hm with
    | request w _ hc hs =>
      cases hs
      rw [List.append_nil]
      refine ⟨?_, nofun⟩
      cases u with
      | nil =>
        rw [List.nil_append] at hl
        subst hl
        have h5 := h3 _ List.mem_cons_self
        have h6 : att = some w := by simpa [fresh] using h5
        exact .apart _ _ _ [] _ h1 nofun (fun z hz => h3 z (List.mem_cons_of_mem _ hz)) (fun _ => ⟨rfl, h6.symm⟩)
      | cons z u =>
        cases hl
        exact nomatch h2 _ List.mem_cons_self
    | rsp t w _ ha => cases ha
    | no _ att ha =>
      cases ha rfl
      rw [List.append_nil]
      exact ⟨hko, nofun⟩
    | want _ r hr => cases hr
    | _ =>
      rw [List.append_nil]
      exact ⟨hko, nofun⟩
  | half w t r la1 la2 _ h1 h2 h3 h4 =>
    subst hl
    have h3' := fun z hz => h3 z (List.mem_cons_of_mem _ hz)
    have h0 := h3 y List.mem_cons_self
    have ok : y ≠ .flip → Phase ⟨none, some w, none⟩ ⟨some r, none, none⟩ (la1 ++ .rsp t :: la2) lb := by
      intro hy
      refine .half _ _ _ _ _ _ h1 h2 h3' ?_
      cases y with
      | flip => exact absurd rfl hy
      | _ => exact h4
    cases hm with
    | request w _ hc => cases hc
    | rsp t w _ ha => cases ha
    | no _ att ha =>
      cases ha rfl
      rw [List.append_nil]
      exact ⟨ok nofun, nofun⟩
    | gone _ => exact absurd rfl h0
    | want _ r hr =>
      cases hr
      refine ⟨?_, all_single rfl⟩
      rw [List.append_assoc, List.cons_append]
      refine .half _ _ _ _ _ _ h1 (all_snoc h2 (all_single ⟨rfl, nofun⟩)) h3' ?_
      have := fit_b h4
      simpa [flips_append, flips] using this
    | flip _ =>
      rw [List.append_nil]
      refine ⟨.half _ _ _ _ _ _ h1 h2 h3' ?_, nofun⟩
      have := fit_b h4
      simpa [flips] using this
    | _ =>
      rw [List.append_nil]
      exact ⟨ok nofun, nofun⟩
  | joined ra rb _ _ h1 h2 h3 =>
    subst hl
    have h2' := fun z hz => h2 z (List.mem_cons_of_mem _ hz)
    have h0 := h2 y List.mem_cons_self
    have ok : y ≠ .flip → Phase ⟨some ra, none, none⟩ ⟨some rb, none, none⟩ la lb := by
      intro hy
      refine .joined _ _ _ _ h1 h2' ?_
      cases y with
      | flip => exact absurd rfl hy
      | _ => exact h3
    cases hm with
    | request w _ hc => cases hc
    | rsp t w _ ha => cases ha
    | no _ att ha =>
      cases ha rfl
      rw [List.append_nil]
      exact ⟨ok nofun, nofun⟩
    | gone _ => exact absurd rfl h0
    | want _ r hr =>
      cases hr
      refine ⟨.joined _ _ _ _ (all_snoc h1 (all_single ⟨rfl, nofun⟩)) h2' ?_, all_single rfl⟩
      have := fit_b h3
      simpa [flips_append, flips] using this
    | flip _ =>
      rw [List.append_nil]
      refine ⟨.joined _ _ _ _ h1 h2' ?_, nofun⟩
      have := fit_b h3
      simpa [flips] using this
    | _ =>
      rw [List.append_nil]
      exact ⟨ok nofun, nofun⟩
  | left att rb _ u v h1 h2 h3 =>
    cases u with
    | nil =>
      cases hl
      cases hm with
      | gone _ =>
        rw [List.append_nil]
        exact ⟨.apart _ _ _ [] _ h1 nofun h3 nofun, nofun⟩
    | cons z u =>
      cases hl
      have h2' := fun z hz => h2 z (List.mem_cons_of_mem _ hz)
      have h0 := h2 y List.mem_cons_self
      have ok : ∀ r, Phase ⟨none, att, none⟩ ⟨some r, none, none⟩ la (u ++ .gone :: v) := fun r => .left _ _ _ _ _ h1 h2' h3
      cases hm with
      | request w _ hc => cases hc
      | rsp t w _ ha => cases ha
      | no _ att ha =>
        cases ha rfl
        rw [List.append_nil]
        exact ⟨ok _, nofun⟩
      | gone _ => exact absurd rfl h0
      | want _ r hr => exact ⟨.left _ _ _ _ _ (all_snoc h1 (all_single rfl)) h2' h3, all_single rfl⟩
      | _ =>
        rw [List.append_nil]
        exact ⟨ok _, nofun⟩
  | dropped ra la1 la2 _ h1 h2 h3 =>
    subst hl
    have h3' := fun z hz => h3 z (List.mem_cons_of_mem _ hz)
    have h0 := h3 y List.mem_cons_self
    have ok : Phase ⟨some ra, none, none⟩ ⟨none, none, none⟩ (la1 ++ .gone :: la2) lb := .dropped _ _ _ _ h1 h2 h3'
    cases hm with
    | request w _ hc => cases h0
    | rsp t w _ ha => cases ha
    | no _ att ha =>
      cases ha rfl
      rw [List.append_nil]
      exact ⟨ok, nofun⟩
    | want _ r hr => cases hr
    | _ =>
      rw [List.append_nil]
      exact ⟨ok, nofun⟩

/-- Both controllers know only each other, and what they know fits. -/
structure Agreed (a b : Nat) (n : Net) : Prop where
  addrA : n.a.addr = a
  addrB : n.b.addr = b
  onlyA : Only b n.a
  onlyB : Only a n.b
  phase : Phase (view b n.a) (view a n.b) (sigs a n.toA) (sigs b n.toB)
  fromB : ∀ y ∈ sigs a n.toA, fromB y = true

theorem page_att {s : Ctl} {x : Nat} (h : s.page = none) : (view x s).att = none := by
  simp [view, h]

theorem scanA_none {va vb : View} {la lb : List Sig} (h : Phase va vb la lb) : va.scan = none := by
  cases h <;> rfl

theorem not_isPage {n : Net} {b : Nat} (h : settled n = true) : ∀ y ∈ sigs b n.toB, isPage y = false := by
  intro y hy
  simp only [sigs, List.mem_filterMap] at hy
  obtain ⟨⟨d, p⟩, h1, h2⟩ := hy
  unfold sig at h2
  split at h2
  · cases p with
    | page c w =>
      simp only [settled, Bool.and_eq_true, List.all_eq_true] at h
      exact nomatch h.1 _ h1
    | roleRsp st =>
      simp only [kind] at h2
      split at h2 <;> cases h2
      rfl
    | _ => cases h2 <;> rfl
  · cases h2

theorem not_isRsp {n : Net} {a : Nat} (h : settled n = true) : ∀ y ∈ sigs a n.toA, isRsp y = false := by
  intro y hy
  simp only [sigs, List.mem_filterMap] at hy
  obtain ⟨⟨d, p⟩, h1, h2⟩ := hy
  unfold sig at h2
  split at h2
  · cases p with
    | pageRsp t =>
      simp only [settled, Bool.and_eq_true, List.all_eq_true] at h
      exact nomatch h.2 _ h1
    | roleRsp st =>
      simp only [kind] at h2
      split at h2 <;> cases h2
      rfl
    | _ => cases h2 <;> rfl
  · cases h2

theorem agreed_hostA {a b : Nat} {n : Net} (hn : Agreed a b n) (hb : b ≠ 0) {now : Nat} {act : Act} (hN : Named act)
    (hp : ∀ src dst r p, act ≠ .packet src dst r p) (hm : ∀ m, act = .cmd (.setMask m) → m.testBit 3 = true)
    (hq : quietA n.a now act) {r : Net × List Ev × List Ev} (h : putA n n.toA (step n.a now act) = some r) : Agreed a b r.1 := by
  cases hs : step n.a now act with
  | ok st s out ev =>
    rw [hs] at h
    injection h with h
    subst h
    have hsc : n.a.scan = none := by
      have := scanA_none hn.phase
      simpa [view] using this
    obtain ⟨h1, h2⟩ := host_moves hn.onlyA hb hN hp (fun _ _ _ => hsc) hm hs
    refine ⟨(step_addr hs).trans hn.addrA, hn.addrB, h1, hn.onlyB, ?_, hn.fromB⟩
    rw [sigs_append]
    exact phase_hostA hn.phase hq page_att h2
  | abort => rw [hs] at h; cases h
  | hang => rw [hs] at h; cases h
  | wild => rw [hs] at h; cases h

theorem agreed_hostB {a b : Nat} {n : Net} (hn : Agreed a b n) (ha : a ≠ 0) {now : Nat} {act : Act} (hN : Named act)
    (hp : ∀ src dst r p, act ≠ .packet src dst r p) (hm : ∀ m, act = .cmd (.setMask m) → m.testBit 3 = true)
    (hr : ∀ x r, act ≠ .cmd (.reject x r)) (hq : quietB (sigs a n.toA) (sigs b n.toB) act) {r : Net × List Ev × List Ev}
    (h : putB n n.toB (step n.b now act) = some r) : Agreed a b r.1 := by
  cases hs : step n.b now act with
  | ok st s out ev =>
    rw [hs] at h
    injection h with h
    subst h
    obtain ⟨h1, h2⟩ := host_moves hn.onlyB ha hN hp (fun x r h => absurd h (hr x r)) hm hs
    obtain ⟨h3, h4⟩ := phase_hostB hn.phase hq h2
    refine ⟨hn.addrA, (step_addr hs).trans hn.addrB, hn.onlyA, h1, ?_, ?_⟩
    · rw [sigs_append]
      exact h3
    · rw [sigs_append]
      exact all_snoc hn.fromB h4
  | abort => rw [hs] at h; cases h
  | hang => rw [hs] at h; cases h
  | wild => rw [hs] at h; cases h

theorem sigs_cons (me : Nat) (x : Nat × Pkt) (l : List (Nat × Pkt)) :
    sigs me (x :: l) = match sig me x with
      | none => sigs me l
      | some y => y :: sigs me l := by
  unfold sigs
  rw [List.filterMap_cons]
  cases sig me x <;> rfl

theorem agreed_arriveA {a b : Nat} {n : Net} (hn : Agreed a b n) (hb : b ≠ 0) {now d : Nat} {p : Pkt} {q : List (Nat × Pkt)}
    (hto : n.toA = (d, p) :: q) {r : Net × List Ev × List Ev} (h : putA n q (incoming n.a now n.b.addr d 0 p) = some r) : Agreed a b r.1 := by
  rw [hn.addrB] at h
  cases hs : incoming n.a now b d 0 p with
  | ok st s out ev =>
    rw [hs] at h
    injection h with h
    subst h
    obtain ⟨h1, h2⟩ := packet_takes hn.onlyA hb hs
    have ha : s.addr = n.a.addr := step_addr (x := .packet b d 0 p) hs
    have hph := hn.phase
    have hf := hn.fromB
    rw [hn.addrA] at h2
    rw [hto, sigs_cons] at hph hf
    refine ⟨ha.trans hn.addrA, hn.addrB, h1, hn.onlyB, ?_, ?_⟩
    · rw [sigs_append]
      cases hk : sig a (d, p) with
      | none =>
        rw [hk] at h2 hph hf
        generalize hva : view b n.a = va at h2 hph
        generalize hva' : view b s = va' at h2
        generalize sigs b out = o at h2
        cases h2
        rw [List.append_nil]
        subst hva'
        exact hph
      | some y =>
        rw [hk] at h2 hph hf
        exact phase_arriveA hph rfl (hf y List.mem_cons_self) h2
    · cases hk : sig a (d, p) with
      | none =>
        rw [hk] at hf
        exact hf
      | some y =>
        rw [hk] at hf
        exact fun z hz => hf z (List.mem_cons_of_mem _ hz)
  | abort => rw [hs] at h; cases h
  | hang => rw [hs] at h; cases h
  | wild => rw [hs] at h; cases h

theorem agreed_arriveB {a b : Nat} {n : Net} (hn : Agreed a b n) (ha : a ≠ 0) {now d : Nat} {p : Pkt} {q : List (Nat × Pkt)}
    (hto : n.toB = (d, p) :: q) {r : Net × List Ev × List Ev} (h : putB n q (incoming n.b now n.a.addr d 0 p) = some r) : Agreed a b r.1 := by
  rw [hn.addrA] at h
  cases hs : incoming n.b now a d 0 p with
  | ok st s out ev =>
    rw [hs] at h
    injection h with h
    subst h
    obtain ⟨h1, h2⟩ := packet_takes hn.onlyB ha hs
    have hb : s.addr = n.b.addr := step_addr (x := .packet a d 0 p) hs
    have hph := hn.phase
    rw [hn.addrB] at h2
    rw [hto, sigs_cons] at hph
    have key : Phase (view b n.a) (view a s) (sigs a n.toA ++ sigs a out) (sigs b q) ∧ ∀ z ∈ sigs a out, fromB z = true := by
      cases hk : sig b (d, p) with
      | none =>
        rw [hk] at h2 hph
        generalize hva : view a n.b = va at h2 hph
        generalize hva' : view a s = va' at h2
        generalize sigs a out = o at h2
        cases h2
        rw [List.append_nil]
        subst hva'
        exact ⟨hph, nofun⟩
      | some y =>
        rw [hk] at h2 hph
        exact phase_arriveB hph rfl h2
    refine ⟨hn.addrA, hb.trans hn.addrB, hn.onlyA, h1, ?_, ?_⟩
    · rw [sigs_append]
      exact key.1
    · rw [sigs_append]
      exact all_snoc hn.fromB key.2
  | abort => rw [hs] at h; cases h
  | hang => rw [hs] at h; cases h
  | wild => rw [hs] at h; cases h

end Verif.Br
