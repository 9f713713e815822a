import Verif.Br.AttemptLemmas
/-!
# Which steps concern paging and page scan
-/
namespace Verif.Br
open Verif.Conn (Table find erase firstWith getUnusedHandle ScoState keys Sound)
open Verif.Sco (ConnParams LinkParams)

/-- Not a page packet. -/
def noPage : Nat × Pkt → Bool
  | (_, .page _ _) => false
  | _ => true

/-- Not a request for an ACL connection. -/
def noRequest : Ev → Bool
  | .connRequest _ _ .acl => false
  | _ => true

/-- Nothing happened to paging and page scan. -/
structure Idle (s s' : Ctl) (out : List (Nat × Pkt)) (ev : List Ev) : Prop where
  page : s'.page = s.page
  scan : s'.scan = s.scan
  out : ∀ o ∈ out, noPage o = true
  ev : ∀ e ∈ ev, noRequest e = true

/-- The steps that concern paging and page scan. -/
def special : Act → Bool
  | .cmd (.create _ _) => true
  | .cmd (.cancel _) => true
  | .cmd (.accept _ _) => true
  | .cmd .reset => true
  | .tick => true
  | .packet _ _ _ (.page _ _) => true
  | .packet _ _ _ (.pageReject _) => true
  | .packet _ _ _ (.pageRsp _) => true
  | _ => false

/-- The result leaves paging and page scan alone. -/
def Leaves (s : Ctl) : Res → Prop
  | .ok _ s' out ev => Idle s s' out ev
  | _ => True

theorem tell_all {s : Ctl} {code : Nat} {e : Ev} {p : Ev → Bool} (h : p e = true) : ∀ x ∈ tell s code e, p x = true := by
  unfold tell
  split
  · intro x hx
    rw [List.mem_singleton] at hx
    rw [hx]
    exact h
  · exact nofun

theorem all_one {α : Type} {e : α} {p : α → Bool} (h : p e = true) : ∀ x ∈ [e], p x = true := by
  intro x hx
  rw [List.mem_singleton] at hx
  rw [hx]
  exact h

theorem all_nil {α : Type} {p : α → Bool} : ∀ x ∈ ([] : List α), p x = true := nofun

theorem all_two {α : Type} {e f : α} {p : α → Bool} (h : p e = true) (h' : p f = true) : ∀ x ∈ [e, f], p x = true := by
  intro x hx
  rcases List.mem_cons.1 hx with h1 | h1
  · rw [h1]
    exact h
  · exact all_one h' x h1

theorem all_append {α : Type} {l1 l2 : List α} {p : α → Bool} (h1 : ∀ x ∈ l1, p x = true) (h2 : ∀ x ∈ l2, p x = true) :
    ∀ x ∈ l1 ++ l2, p x = true := by
  intro x hx
  rcases List.mem_append.1 hx with h | h
  · exact h1 x h
  · exact h2 x h

theorem endAcl_eq {s s' : Ctl} {h a : Nat} (hs : endAcl s h a = some s') : ∃ lm, s' = { s with acl := erase s.acl h, lm := lm } := by
  unfold endAcl at hs
  split at hs
  · cases hs
  · rw [Option.map_eq_some_iff] at hs
    obtain ⟨lm, _, h2⟩ := hs
    exact ⟨lm, h2.symm⟩

theorem createSyn_eq {s s' : Ctl} {a : Nat} {p : ConnParams} {st : ScoState} {sp lg : Bool} (hs : createSyn s a p st sp lg = some s') :
    ∃ sco last, s' = { s with sco := sco, lastSco := last } := by
  unfold createSyn at hs
  split at hs
  · cases hs
  · injection hs with hs
    exact ⟨_, _, hs.symm⟩

theorem disconnect_leaves (s : Ctl) (h r r' : Nat) : Leaves s (disconnect s h r r') := by
  unfold disconnect
  split
  · exact ⟨rfl, rfl, all_one rfl, tell_all rfl⟩
  · split
    · exact ⟨rfl, rfl, all_nil, all_nil⟩
    · split
      · split
        · trivial
        · rename_i s' hs'
          obtain ⟨lm, rfl⟩ := endAcl_eq hs'
          exact ⟨rfl, rfl, all_two rfl rfl, all_append (tell_all rfl) (tell_all rfl)⟩
      · split
        · trivial
        · rename_i s' hs'
          obtain ⟨lm, rfl⟩ := endAcl_eq hs'
          exact ⟨rfl, rfl, all_one rfl, tell_all rfl⟩

theorem setup_leaves (s : Ctl) (h : Nat) (p : ConnParams) (sp lg : Bool) : Leaves s (setupSync s h p sp lg) := by
  unfold setupSync
  split
  · exact ⟨rfl, rfl, all_nil, all_nil⟩
  · split
    · exact ⟨rfl, rfl, all_nil, all_nil⟩
    · split
      · trivial
      · rename_i s' hs'
        obtain ⟨sco, last, rfl⟩ := createSyn_eq hs'
        exact ⟨rfl, rfl, all_one rfl, all_nil⟩

theorem syncEvent_noRequest (st h a : Nat) (l : LinkParams) : noRequest (syncEvent st h a l) = true := by
  unfold syncEvent
  split <;> rfl

theorem command_leaves (s : Ctl) (now : Nat) (c : Cmd) (hx : special (.cmd c) = false) : Leaves s (command s now c) := by
  cases c with
  | create a w => cases hx
  | cancel a => cases hx
  | accept a t => cases hx
  | reset => cases hx
  | disconnect h r => exact disconnect_leaves s h r 0x16
  | setupSync h p sp => exact setup_leaves s h p sp false
  | addSco h t => exact setup_leaves s h _ false true
  | acceptSync a p =>
    simp only [command, acceptSync, refuse]
    split
    · split
      · trivial
      · exact ⟨rfl, rfl, all_one rfl, all_one (syncEvent_noRequest _ _ _ _)⟩
    · exact ⟨rfl, rfl, all_nil, all_nil⟩
  | rejectSync a r =>
    simp only [command, rejectSync, refuse]
    split
    · split
      · trivial
      · exact ⟨rfl, rfl, all_one rfl, all_one rfl⟩
    · exact ⟨rfl, rfl, all_nil, all_nil⟩
  | extLocal p =>
    simp only [command]
    split
    · trivial
    · exact ⟨rfl, rfl, all_nil, all_nil⟩
  | acl h pb bc d =>
    simp only [command, sendAcl]
    split
    · trivial
    · split
      · exact ⟨rfl, rfl, all_nil, all_one rfl⟩
      · exact ⟨rfl, rfl, all_one rfl, all_one rfl⟩
  | _ =>
    simp only [command, startInquiry, cancelInquiry, rejectConnection, switchRole, writePolicy, writeDefaultPolicy, ask, sendSco, refuse]
    (repeat' split) <;> first
      | exact ⟨rfl, rfl, all_nil, all_nil⟩
      | exact ⟨rfl, rfl, all_nil, tell_all rfl⟩
      | exact ⟨rfl, rfl, all_one rfl, all_nil⟩
      | exact ⟨rfl, rfl, all_two rfl rfl, all_nil⟩

theorem dispatch_leaves (s : Ctl) (now src dst rssi : Nat) (p : Pkt) (hx : special (.packet src dst rssi p) = false) :
    Leaves s (dispatch s now src rssi p) := by
  cases p with
  | page c w => cases hx
  | pageReject r => cases hx
  | pageRsp t => cases hx
  | disconnect r =>
    simp only [dispatch, onDisconnect]
    split
    · exact ⟨rfl, rfl, all_nil, all_nil⟩
    · split
      · trivial
      · rename_i s' hs'
        obtain ⟨lm, rfl⟩ := endAcl_eq hs'
        exact ⟨rfl, rfl, all_nil, tell_all rfl⟩
  | scoReq p cod =>
    simp only [dispatch, onScoReq]
    split
    · exact ⟨rfl, rfl, all_one rfl, all_nil⟩
    · split
      · trivial
      · rename_i s' hs'
        obtain ⟨sco, last, rfl⟩ := createSyn_eq hs'
        refine ⟨rfl, rfl, all_nil, all_one ?_⟩
        split <;> rfl
  | scoRsp st l =>
    simp only [dispatch, onScoRsp]
    split
    · exact ⟨rfl, rfl, all_nil, all_nil⟩
    · split
      · split
        · trivial
        · refine ⟨rfl, rfl, all_nil, all_one ?_⟩
          split
          · rfl
          · exact syncEvent_noRequest _ _ _ _
      · split
        · trivial
        · refine ⟨rfl, rfl, all_nil, all_one ?_⟩
          split <;> rfl
  | lmp b =>
    cases b with
    | true => exact ⟨rfl, rfl, all_nil, all_nil⟩
    | false => trivial
  | extReq p =>
    simp only [dispatch, onExtReq]
    split
    · trivial
    · exact ⟨rfl, rfl, all_one rfl, all_nil⟩
  | _ =>
    simp only [dispatch, onRoleReq, onRoleRsp, onScoDisc, onInquiry, onInqRsp, onAcl, onSco, report]
    (repeat' split) <;> first
      | exact ⟨rfl, rfl, all_nil, all_nil⟩
      | exact ⟨rfl, rfl, all_nil, tell_all rfl⟩
      | exact ⟨rfl, rfl, all_nil, all_one rfl⟩
      | exact ⟨rfl, rfl, all_one rfl, all_nil⟩
      | exact ⟨rfl, rfl, all_one rfl, tell_all rfl⟩

/-- A step that does not concern paging and page scan leaves them alone. -/
theorem step_leaves (s : Ctl) (now : Nat) (x : Act) (hx : special x = false) : Leaves s (step s now x) := by
  cases x with
  | cmd c => exact command_leaves s now c hx
  | tick => cases hx
  | check h =>
    simp only [step, checkExpiring]
    split
    · exact ⟨rfl, rfl, all_nil, all_nil⟩
    · split
      · exact disconnect_leaves s _ _ _
      · split
        · exact ⟨rfl, rfl, all_one rfl, all_nil⟩
        · exact ⟨rfl, rfl, all_nil, all_nil⟩
  | packet src dst rssi p =>
    simp only [step, incoming]
    split
    · exact ⟨rfl, rfl, all_nil, all_nil⟩
    · have h3 := touch_eq s now src
      have h4 : (touch s now src).scan = s.scan := by rw [h3]
      have h5 : (touch s now src).page = s.page := by rw [h3]
      have := dispatch_leaves (touch s now src) now src dst rssi p hx
      revert this
      cases dispatch (touch s now src) now src rssi p with
      | ok st s' out ev => exact fun h => ⟨h.page.trans h5, h.scan.trans h4, h.out, h.ev⟩
      | _ => exact id

/-- What a tick does. -/
theorem tick_page (s : Ctl) (now : Nat) :
    ∃ s' out ev, tick s now = .ok 0 s' out ev ∧ s'.scan = s.scan ∧ (∀ e ∈ ev, noRequest e = true) ∧
      ((s.page = none ∧ s'.page = none ∧ ∀ o ∈ out, noPage o = true) ∨
       ∃ p, s.page = some p ∧
        ((p.timeout ≤ now ∧ s'.page = none ∧ ∀ o ∈ out, noPage o = true) ∨
         (now < p.timeout ∧ s'.page = some p ∧ ∀ o ∈ out, noPage o = true) ∨
         (now < p.timeout ∧ p.next ≤ now ∧ s'.page = some { p with next := now + 1000000000 } ∧
          (∀ o ∈ out, noPage o = true ∨ o = (p.addr, .page s.info.cod p.allow))))) := by
  rw [tick_eq]
  have h3 := inquiring_same (paging { s with later := [] } now).1 now
  have hs : ((inquiring (paging { s with later := [] } now).1 now).1).scan = s.scan := by
    obtain ⟨inq, h3⟩ := h3
    obtain ⟨page, h4, -⟩ := paging_same { s with later := [] } now
    rw [h3, h4]
  have hp : ((inquiring (paging { s with later := [] } now).1 now).1).page = (paging { s with later := [] } now).1.page := by
    obtain ⟨inq, h3⟩ := h3
    rw [h3]
  have hi : ∀ t : Ctl, (∀ o ∈ (inquiring t now).2.1, noPage o = true) ∧ (∀ e ∈ (inquiring t now).2.2, noRequest e = true) := by
    intro t
    unfold inquiring
    (repeat' split) <;> first
      | exact ⟨all_nil, all_nil⟩
      | exact ⟨nofun, tell_all rfl⟩
      | exact ⟨all_one rfl, all_nil⟩
  have hr : (∀ o ∈ (sendRejects s).1, noPage o = true) ∧ (∀ e ∈ (sendRejects s).2, noRequest e = true) := by
    constructor
    · intro o ho
      simp only [sendRejects, List.mem_map] at ho
      obtain ⟨r, _, rfl⟩ := ho
      rfl
    · intro e he
      simp only [sendRejects, List.mem_flatMap] at he
      obtain ⟨r, _, h⟩ := he
      exact tell_all rfl e h
  obtain ⟨hi1, hi2⟩ := hi (paging { s with later := [] } now).1
  refine ⟨_, _, _, rfl, hs, ?_, ?_⟩
  · refine all_append (all_append hr.2 ?_) hi2
    unfold paging
    (repeat' split) <;> first
      | exact all_nil
      | exact all_one rfl
  · rw [hp]
    have key : (s.page = none ∧ (paging { s with later := [] } now).1.page = none ∧ (paging { s with later := [] } now).2.1 = []) ∨
       ∃ p, s.page = some p ∧
        ((p.timeout ≤ now ∧ (paging { s with later := [] } now).1.page = none ∧ (paging { s with later := [] } now).2.1 = []) ∨
         (now < p.timeout ∧ (paging { s with later := [] } now).1.page = some p ∧ (paging { s with later := [] } now).2.1 = []) ∨
         (now < p.timeout ∧ p.next ≤ now ∧ (paging { s with later := [] } now).1.page = some { p with next := now + 1000000000 } ∧
          (paging { s with later := [] } now).2.1 = [(p.addr, .page s.info.cod p.allow)])) := by
      unfold paging
      cases hpg : s.page with
      | none => exact .inl ⟨rfl, rfl, rfl⟩
      | some p =>
        right
        refine ⟨p, rfl, ?_⟩
        simp only []
        by_cases h1 : now ≥ p.timeout
        · rw [if_pos h1]
          exact .inl ⟨h1, rfl, rfl⟩
        · rw [if_neg h1]
          right
          by_cases h2 : now ≥ p.next ∧ ¬(s.scan.any (fun q => q.addr = p.addr) = true)
          · rw [if_pos h2]
            exact .inr ⟨by omega, h2.1, rfl, rfl⟩
          · rw [if_neg h2]
            exact .inl ⟨by omega, rfl, rfl⟩
    rcases key with ⟨k1, k2, k3⟩ | ⟨p, k1, ⟨k2, k3, k4⟩ | ⟨k2, k3, k4⟩ | ⟨k2, k3, k4, k5⟩⟩
    · refine .inl ⟨k1, k2, ?_⟩
      rw [k3]
      exact all_append (all_append hr.1 all_nil) hi1
    · refine .inr ⟨p, k1, .inl ⟨k2, k3, ?_⟩⟩
      rw [k4]
      exact all_append (all_append hr.1 all_nil) hi1
    · refine .inr ⟨p, k1, .inr (.inl ⟨k2, k3, ?_⟩)⟩
      rw [k4]
      exact all_append (all_append hr.1 all_nil) hi1
    · refine .inr ⟨p, k1, .inr (.inr ⟨k2, k3, k4, ?_⟩)⟩
      rw [k5]
      intro o ho
      rcases List.mem_append.1 ho with h | h
      · rcases List.mem_append.1 h with h | h
        · exact .inl (hr.1 o h)
        · rw [List.mem_singleton] at h
          exact .inr h
      · exact .inl (hi1 o h)

theorem connect_page {s s' : Ctl} {now a h : Nat} {role : Role} (hc : connect s now a role = .ok h s') :
    s'.page = s.page ∧ s'.scan = s.scan := by
  unfold connect at hc
  split at hc
  · cases hc
  · split at hc
    · cases hc
    · cases hc
      exact ⟨rfl, rfl⟩

/-- The page state only goes away or changes its next time, unless the host creates a connection. -/
theorem step_page {s s' : Ctl} {now : Nat} {x : Act} {st : Status} {out : List (Nat × Pkt)} {ev : List Ev}
    (hc : ∀ a w, x ≠ .cmd (.create a w)) (h : step s now x = .ok st s' out ev) :
    s'.page = none ∨ ∃ p q, s.page = some p ∧ s'.page = some q ∧ q.addr = p.addr ∧ q.timeout = p.timeout ∧ q.allow = p.allow ∧
      p.next ≤ q.next ∧ (x = .tick → now < p.timeout) := by
  have same : s'.page = s.page → x ≠ .tick → s'.page = none ∨ ∃ p q, s.page = some p ∧ s'.page = some q ∧ q.addr = p.addr ∧ q.timeout = p.timeout ∧
      q.allow = p.allow ∧ p.next ≤ q.next ∧ (x = .tick → now < p.timeout) := by
    intro h1 h2
    cases hp : s.page with
    | none => exact .inl (h1.trans hp)
    | some p => exact .inr ⟨p, p, rfl, h1.trans hp, rfl, rfl, rfl, Nat.le_refl _, fun h => absurd h h2⟩
  cases hsp : special x with
  | false =>
    have h1 := step_leaves s now x hsp
    rw [h] at h1
    exact same h1.page (fun h2 => by rw [h2] at hsp; cases hsp)
  | true =>
    cases x with
    | tick =>
      obtain ⟨s1, out1, ev1, h1, h2, h3, h4⟩ := tick_page s now
      simp only [step] at h
      rw [h1] at h
      cases h
      rcases h4 with ⟨k1, k2, k3⟩ | ⟨p, k1, ⟨k2, k3, k4⟩ | ⟨k2, k3, k4⟩ | ⟨k2, k3, k4, k5⟩⟩
      · exact .inl k2
      · exact .inl k3
      · exact .inr ⟨p, p, k1, k3, rfl, rfl, rfl, Nat.le_refl _, fun _ => k2⟩
      · exact .inr ⟨p, _, k1, k4, rfl, rfl, rfl, by simp only []; omega, fun _ => k2⟩
    | check k => cases hsp
    | cmd c =>
      cases c with
      | create a w => exact absurd rfl (hc a w)
      | cancel a =>
        simp only [step, command, cancelConnection, refuse] at h
        split at h
        · cases h
          exact same rfl nofun
        · split at h
          · cases h
            exact same rfl nofun
          · cases h
            exact .inl rfl
      | reset =>
        simp only [step, command, reset] at h
        cases h
        exact .inl rfl
      | accept a t =>
        simp only [step, command, acceptConnection, acceptPage, refuse] at h
        split at h
        · rename_i p _
          split at h
          · cases h
            exact same rfl nofun
          · split at h
            · cases h
            · cases h
            · cases h
              by_cases hb : s.page.any (fun q => q.addr = p.addr) = true
              · exact .inl (if_pos hb)
              · exact same (if_neg hb) nofun
        · split at h
          · split at h
            · cases h
            · cases h
              exact same rfl nofun
          · cases h
            exact same rfl nofun
      | _ => cases hsp
    | packet src dst rssi p =>
      have h5 : (touch s now src).page = s.page := by rw [touch_eq s now src]
      simp only [step, incoming] at h
      split at h
      · cases h
        exact same rfl nofun
      · cases p with
        | page c w =>
          simp only [dispatch, onPage] at h
          (repeat' split at h) <;> cases h <;> exact same h5 nofun
        | pageReject r =>
          simp only [dispatch, onPageReject] at h
          split at h
          · cases h
            exact same h5 nofun
          · split at h
            · cases h
              exact same h5 nofun
            · cases h
              exact .inl rfl
        | pageRsp t =>
          simp only [dispatch, onPageRsp] at h
          split at h
          · cases h
            exact same h5 nofun
          · split at h
            · cases h
              exact same h5 nofun
            · split at h
              · cases h
              · cases h
              · cases h
                exact .inl rfl
        | _ => cases hsp

/-- Pages are only sent at ticks, between the next page time and the timeout. -/
theorem step_out {s s' : Ctl} {now : Nat} {x : Act} {st : Status} {out : List (Nat × Pkt)} {ev : List Ev}
    (h : step s now x = .ok st s' out ev) {d cod : Nat} {w : Bool} (ho : (d, .page cod w) ∈ out) :
    ∃ p, s.page = some p ∧ p.addr = d ∧ p.allow = w ∧ p.next ≤ now ∧ now < p.timeout := by
  have bad : (∀ o ∈ out, noPage o = true) → False := fun h => nomatch h _ ho
  cases hsp : special x with
  | false =>
    have h1 := step_leaves s now x hsp
    rw [h] at h1
    exact absurd h1.out bad
  | true =>
    cases x with
    | tick =>
      obtain ⟨s1, out1, ev1, h1, h2, h3, h4⟩ := tick_page s now
      simp only [step] at h
      rw [h1] at h
      cases h
      rcases h4 with ⟨k1, k2, k3⟩ | ⟨p, k1, ⟨k2, k3, k4⟩ | ⟨k2, k3, k4⟩ | ⟨k2, k3, k4, k5⟩⟩
      · exact absurd k3 bad
      · exact absurd k4 bad
      · exact absurd k4 bad
      · rcases k5 _ ho with h5 | h5
        · cases h5
        · cases h5
          exact ⟨p, k1, rfl, rfl, k3, k2⟩
    | check k => cases hsp
    | cmd c =>
      cases c with
      | create a w =>
        simp only [step, command, createConnection, refuse] at h
        (repeat' split at h) <;> cases h <;> cases ho
      | cancel a =>
        simp only [step, command, cancelConnection, refuse] at h
        (repeat' split at h) <;> cases h <;> cases ho
      | reset =>
        simp only [step, command, reset] at h
        cases h
        refine absurd ?_ bad
        refine all_append ?_ ?_ <;> intro o ho <;> rw [List.mem_map] at ho <;> obtain ⟨e, _, rfl⟩ := ho <;> rfl
      | accept a t =>
        simp only [step, command, acceptConnection, acceptPage, refuse] at h
        (repeat' split at h) <;> cases h <;> first
          | exact absurd (all_one rfl) bad
          | cases ho
      | _ => cases hsp
    | packet src dst rssi p =>
      simp only [step, incoming] at h
      split at h
      · cases h
        cases ho
      · cases p with
        | page c w =>
          simp only [dispatch, onPage] at h
          (repeat' split at h) <;> cases h <;> first
            | exact absurd (all_one rfl) bad
            | cases ho
        | pageReject r =>
          simp only [dispatch, onPageReject] at h
          (repeat' split at h) <;> cases h <;> cases ho
        | pageRsp t =>
          simp only [dispatch, onPageRsp] at h
          (repeat' split at h) <;> cases h <;> cases ho
        | _ => cases hsp

/-- The page scan state is only cleared by Reset and by accepting its request; and requests are only announced
when there is none. -/
theorem step_scan {s s' : Ctl} {now : Nat} {x : Act} {st : Status} {out : List (Nat × Pkt)} {ev : List Ev}
    (h : step s now x = .ok st s' out ev) {q : Scan} (hq : s.scan = some q) (hr : x ≠ .cmd .reset)
    (ha : ∀ t, x ≠ .cmd (.accept q.addr t)) : s'.scan = some q ∧ ∀ e ∈ ev, noRequest e = true := by
  cases hsp : special x with
  | false =>
    have h1 := step_leaves s now x hsp
    rw [h] at h1
    exact ⟨h1.scan.trans hq, h1.ev⟩
  | true =>
    cases x with
    | tick =>
      obtain ⟨s1, out1, ev1, h1, h2, h3, h4⟩ := tick_page s now
      simp only [step] at h
      rw [h1] at h
      cases h
      exact ⟨h2.trans hq, h3⟩
    | check k => cases hsp
    | cmd c =>
      cases c with
      | create a w =>
        simp only [step, command, createConnection, refuse] at h
        (repeat' split at h) <;> cases h <;> exact ⟨hq, all_nil⟩
      | cancel a =>
        simp only [step, command, cancelConnection, refuse] at h
        (repeat' split at h) <;> cases h <;> first
          | exact ⟨hq, all_nil⟩
          | exact ⟨hq, tell_all rfl⟩
      | reset => exact absurd rfl hr
      | accept a t =>
        have hne : q.addr ≠ a := fun h => ha t (by rw [h])
        simp only [step, command, acceptConnection, hq, Option.filter, hne, decide_false, refuse] at h
        (repeat' split at h) <;> first
          | contradiction
          | skip
        all_goals cases h
        all_goals first
          | exact ⟨hq, all_nil⟩
          | exact ⟨rfl, tell_all rfl⟩
      | _ => cases hsp
    | packet src dst rssi p =>
      have h5 : (touch s now src).scan = s.scan := by rw [touch_eq s now src]
      simp only [step, incoming] at h
      split at h
      · cases h
        exact ⟨hq, all_nil⟩
      · cases p with
        | page c w =>
          simp only [dispatch, onPage, h5, hq, Option.isSome_some, if_true] at h
          (repeat' split at h) <;> cases h <;> exact ⟨h5.trans hq, all_nil⟩
        | pageReject r =>
          simp only [dispatch, onPageReject] at h
          (repeat' split at h) <;> cases h <;> first
            | exact ⟨h5.trans hq, all_nil⟩
            | exact ⟨h5.trans hq, tell_all rfl⟩
        | pageRsp t =>
          simp only [dispatch, onPageRsp] at h
          split at h
          · cases h
            exact ⟨h5.trans hq, all_nil⟩
          · split at h
            · cases h
              exact ⟨h5.trans hq, all_nil⟩
            · split at h
              · cases h
              · cases h
              · rename_i h' s1 hc
                obtain ⟨_, h7⟩ := connect_page hc
                cases h
                refine ⟨h7.trans (h5.trans hq), all_append ?_ (tell_all rfl)⟩
                split
                · exact tell_all rfl
                · exact all_nil
        | _ => cases hsp

end Verif.Br
