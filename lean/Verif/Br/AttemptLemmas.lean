import Verif.Br.Fate
/-!
# How a host's view of its connection attempt follows the controller
-/
namespace Verif.Br
open Verif.Conn (Table find erase firstWith getUnusedHandle ScoState keys Sound)
open Verif.Sco (ConnParams LinkParams)

/-- No event tells of an ACL connection. -/
def Silent (ev : List Ev) : Prop := ∀ e ∈ ev, ∀ st h a, e = .connComplete st h a .acl → h = 0xeff

theorem answers_silent {ev : List Ev} (h : Silent ev) (o : Option Nat) (acc : Bool) : answers o acc ev = some o := by
  induction ev with
  | nil => rfl
  | cons e ev ih =>
    have h1 : answer o acc e = some o := by
      unfold answer
      split
      · rename_i st k a
        rw [if_pos (h _ List.mem_cons_self st k a rfl)]
      · rfl
    simp only [answers, h1, Option.bind_some]
    exact ih (fun e he => h e (List.mem_cons_of_mem _ he))

theorem answers_append (o : Option Nat) (acc : Bool) (l1 l2 : List Ev) :
    answers o acc (l1 ++ l2) = (answers o acc l1).bind (fun o => answers o acc l2) := by
  induction l1 generalizing o with
  | nil => rfl
  | cons e l1 ih =>
    simp only [List.cons_append, answers]
    cases answer o acc e with
    | none => rfl
    | some o => simp only [Option.bind_some, ih]

theorem silent_nil : Silent [] := nofun

theorem silent_one {e : Ev} (h : ∀ st k a, e ≠ .connComplete st k a .acl) : Silent [e] := by
  intro e' he st k a h1
  rw [List.mem_singleton] at he
  subst he
  exact absurd h1 (h st k a)

theorem silent_tell {s : Ctl} {code : Nat} {e : Ev} (h : ∀ st k a, e ≠ .connComplete st k a .acl) : Silent (tell s code e) := by
  unfold tell
  split
  · exact silent_one h
  · exact silent_nil

theorem silent_append {l1 l2 : List Ev} (h1 : Silent l1) (h2 : Silent l2) : Silent (l1 ++ l2) := by
  intro e he
  rcases List.mem_append.1 he with h | h
  · exact h1 e h
  · exact h2 e h

/-- A step the host follows. -/
def Follows (s : Ctl) (now : Nat) (x : Act) : Res → Prop
  | .ok st s' out ev =>
    (started (s.page.map Page.addr) ⟨now, x, st, out, ev⟩).bind (fun o => answers o (accepting x) ev) = some (s'.page.map Page.addr) ∧
      s'.mask.testBit 2 = true
  | _ => True

/-- Most steps do not concern the attempt. -/
theorem follows_silent {s s' : Ctl} {now : Nat} {x : Act} {st : Status} {out : List (Nat × Pkt)} {ev : List Ev}
    (hm : s.mask.testBit 2 = true) (h1 : Silent ev) (h2 : s'.page = s.page) (h3 : s'.mask = s.mask)
    (hs : started (s.page.map Page.addr) ⟨now, x, st, out, ev⟩ = some (s.page.map Page.addr)) : Follows s now x (.ok st s' out ev) := by
  refine ⟨?_, by rw [h3]; exact hm⟩
  rw [hs, h2]
  exact answers_silent h1 _ _

theorem unmasked_cc {s : Ctl} (hm : s.mask.testBit 2 = true) (e : Ev) : tell s 0x03 e = [e] := by
  unfold tell unmasked
  rw [if_pos hm]

theorem sendRejects_silent (s : Ctl) : Silent (sendRejects s).2 := by
  intro e he st h a h1
  simp only [sendRejects, List.mem_flatMap] at he
  obtain ⟨r, _, h2⟩ := he
  unfold tell at h2
  split at h2
  · rw [List.mem_singleton] at h2
    rw [h2] at h1
    injection h1 with _ h1
    exact h1.symm
  · cases h2

theorem tick_follows {s : Ctl} (hm : s.mask.testBit 2 = true) (now : Nat) : Follows s now .tick (tick s now) := by
  rw [tick_eq]
  have hi3 : ∀ t : Ctl, Silent (inquiring t now).2.2 := by
    intro t
    unfold inquiring
    (repeat' split) <;> first
      | exact silent_nil
      | exact silent_tell nofun
  obtain ⟨inq, h3⟩ := inquiring_same (paging { s with later := [] } now).1 now
  obtain ⟨page, h4, -⟩ := paging_same { s with later := [] } now
  have hpage : ((inquiring (paging { s with later := [] } now).1 now).1).page = (paging { s with later := [] } now).1.page := by
    rw [h3]
  refine ⟨?_, by rw [h3, h4]; exact hm⟩
  rw [hpage]
  simp only [started, Option.bind_some, accepting]
  rw [answers_append, answers_append, answers_silent (sendRejects_silent s), Option.bind_some]
  have h5 : answers (s.page.map Page.addr) false (paging { s with later := [] } now).2.2 =
      some ((paging { s with later := [] } now).1.page.map Page.addr) := by
    unfold paging
    cases hp : s.page with
    | none =>
      simp only [hp]
      rfl
    | some p =>
      simp only []
      split
      · simp [answers, answer]
      · split
        · rfl
        · simp only [hp]
          rfl
  rw [h5, Option.bind_some]
  exact answers_silent (hi3 _) _ _

theorem accept_follows {s : Ctl} (hi : Inv s) (hm : s.mask.testBit 2 = true) (now a : Nat) (t : Bool) :
    Follows s now (.cmd (.accept a t)) (acceptConnection s now a t) := by
  unfold acceptConnection
  split
  · rename_i p hp
    rw [Option.filter_eq_some_iff] at hp
    have h0 := hi.scan p hp.1
    simp only [acceptPage]
    by_cases hc : (aclOf s p.addr).isSome = true
    · rw [if_pos hc]
      exact follows_silent hm silent_nil rfl rfl rfl
    · rw [if_neg hc]
      rcases connect_ok hi (now := now) (role := acceptorRole t p.allow) (fun h => hc (aclOf_isSome.2 h)) h0 with
        ⟨h, last, h1, h2, h3, h4, h5⟩ | ⟨h1, h2⟩
      · rw [h1]
        refine ⟨?_, hm⟩
        have hne : h ≠ 0xeff := by omega
        simp only [started, Option.bind_some, accepting]
        rw [answers_append]
        have hr : Silent (if acceptorRole t p.allow = .central then tell s 0x12 (.roleChange Status.success p.addr .central) else []) := by
          split
          · exact silent_tell nofun
          · exact silent_nil
        rw [answers_silent hr, Option.bind_some, unmasked_cc hm]
        simp only [answers, answer, if_neg hne]
        cases hpg : s.page with
        | none => simp [Status.success]
        | some q =>
          by_cases hq : q.addr = p.addr
          · simp [hq]
          · simp [hq, Status.success]
      · rw [h1]
        trivial
  · split
    · split
      · trivial
      · exact follows_silent hm (silent_tell nofun) rfl rfl rfl
    · exact follows_silent hm silent_nil rfl rfl rfl

theorem disconnect_follows {s : Ctl} (hi : Inv s) (hm : s.mask.testBit 2 = true) (now h r r' : Nat) (x : Act)
    (hs : ∀ st out ev, started (s.page.map Page.addr) ⟨now, x, st, out, ev⟩ = some (s.page.map Page.addr)) :
    Follows s now x (disconnect s h r r') := by
  rcases disconnect_cases hi h r r' with ⟨h1, _⟩ | ⟨st, s', out, ev, h1, h2, h3, h4, h5, h6, h7⟩
  · rw [h1]
    trivial
  · rw [h1]
    refine follows_silent hm ?_ h3 h5 (hs _ _ _)
    intro e he st h a h8
    obtain ⟨k, h9⟩ := h6 e he
    rw [h9] at h8
    cases h8

theorem command_follows {s : Ctl} (hi : Inv s) (hm : s.mask.testBit 2 = true) (now : Nat) (c : Cmd) (hh : hears (.cmd c) = true) :
    Follows s now (.cmd c) (command s now c) := by
  cases c with
  | accept a t => exact accept_follows hi hm now a t
  | disconnect h r => exact disconnect_follows hi hm now h r 0x16 _ (fun _ _ _ => rfl)
  | create a w =>
    have hbad : ∀ st : Nat, st ≠ 0 → Follows s now (.cmd (.create a w)) (refuse s st) := by
      intro st hst
      refine follows_silent hm silent_nil rfl rfl ?_
      simp [started, hst]
    simp only [command, createConnection]
    split
    · exact hbad _ (by decide)
    · rename_i hp
      split
      · exact hbad _ (by decide)
      · split
        · exact hbad _ (by decide)
        · have : s.page = none := by
            cases h : s.page with
            | none => rfl
            | some p =>
              rw [h] at hp
              exact absurd rfl hp
          refine ⟨?_, hm⟩
          rw [this]
          simp [started, answers, Status.success]
  | cancel a =>
    simp only [command, cancelConnection]
    split
    · exact follows_silent hm silent_nil rfl rfl rfl
    · rename_i p hp
      split
      · exact follows_silent hm silent_nil rfl rfl rfl
      · rename_i ha
        have ha : p.addr = a := Decidable.of_not_not ha
        refine ⟨?_, hm⟩
        rw [unmasked_cc hm, hp]
        simp [started, answers, answer, ha]
  | reset =>
    simp only [command, reset]
    exact ⟨rfl, show Nat.testBit 0x00001fffffffffff 2 = true from by decide⟩
  | setMask m =>
    simp only [command]
    exact ⟨rfl, hh⟩
  | setupSync h p sp =>
    simp only [command, setupSync, refuse]
    split
    · exact follows_silent hm silent_nil rfl rfl rfl
    · split
      · exact follows_silent hm silent_nil rfl rfl rfl
      · split
        · trivial
        · rename_i s' hs'
          unfold createSyn at hs'
          split at hs'
          · cases hs'
          · cases hs'
            exact follows_silent hm silent_nil rfl rfl rfl
  | addSco h t =>
    simp only [command, setupSync, refuse]
    split
    · exact follows_silent hm silent_nil rfl rfl rfl
    · split
      · exact follows_silent hm silent_nil rfl rfl rfl
      · split
        · trivial
        · rename_i s' hs'
          unfold createSyn at hs'
          split at hs'
          · cases hs'
          · cases hs'
            exact follows_silent hm silent_nil rfl rfl rfl
  | acceptSync a p =>
    simp only [command, acceptSync, refuse]
    split
    · split
      · trivial
      · refine follows_silent hm (silent_one ?_) rfl rfl rfl
        intro st k a
        unfold syncEvent
        split <;> exact nofun
    · exact follows_silent hm silent_nil rfl rfl rfl
  | rejectSync a r =>
    simp only [command, rejectSync, refuse]
    split
    · split
      · trivial
      · exact follows_silent hm (silent_one nofun) rfl rfl rfl
    · exact follows_silent hm silent_nil rfl rfl rfl
  | extLocal p =>
    simp only [command]
    split
    · trivial
    · exact follows_silent hm silent_nil rfl rfl rfl
  | acl h pb bc d =>
    simp only [command, sendAcl]
    split
    · trivial
    · split <;> exact follows_silent hm (silent_one nofun) rfl rfl rfl
  | _ =>
    simp only [command, startInquiry, cancelInquiry, rejectConnection, switchRole, writePolicy, writeDefaultPolicy, ask, sendSco, refuse]
    (repeat' split) <;> first
      | exact follows_silent hm silent_nil rfl rfl rfl
      | exact follows_silent hm (silent_tell nofun) rfl rfl rfl

theorem dispatch_follows {s : Ctl} (hi : Inv s) (hm : s.mask.testBit 2 = true) (now src dst rssi : Nat) (p : Pkt) (h0 : src ≠ 0) :
    Follows s now (.packet src dst rssi p) (dispatch s now src rssi p) := by
  cases p with
  | pageReject r =>
    simp only [dispatch, onPageReject]
    split
    · exact follows_silent hm silent_nil rfl rfl rfl
    · rename_i p hp
      split
      · exact follows_silent hm silent_nil rfl rfl rfl
      · rename_i ha
        have ha : p.addr = src := Decidable.of_not_not ha
        refine ⟨?_, hm⟩
        rw [unmasked_cc hm, hp]
        simp [started, answers, answer, ha]
  | pageRsp t =>
    simp only [dispatch, onPageRsp]
    split
    · exact follows_silent hm silent_nil rfl rfl rfl
    · rename_i p hp
      split
      · exact follows_silent hm silent_nil rfl rfl rfl
      · rename_i ha
        have ha : p.addr = src := Decidable.of_not_not ha
        obtain ⟨h1, h2⟩ := hi.page p hp
        rw [ha] at h1
        rcases connect_ok hi (now := now) (role := pagerRole p.allow t) h1 h0 with ⟨h, last, a1, a2, a3, a4, a5⟩ | ⟨a1, a2⟩
        · rw [a1]
          refine ⟨?_, hm⟩
          have hne : h ≠ 0xeff := by omega
          simp only [started, Option.bind_some, accepting]
          rw [answers_append]
          have hr : Silent (if pagerRole p.allow t = .peripheral then tell s 0x12 (.roleChange Status.success src .peripheral) else []) := by
            split
            · exact silent_tell nofun
            · exact silent_nil
          rw [answers_silent hr, Option.bind_some, unmasked_cc hm, hp]
          simp [answers, answer, hne, ha]
        · rw [a1]
          trivial
  | disconnect r =>
    simp only [dispatch, onDisconnect]
    split
    · exact follows_silent hm silent_nil rfl rfl rfl
    · split
      · trivial
      · rename_i s' hs'
        unfold endAcl at hs'
        split at hs'
        · cases hs'
        · rw [Option.map_eq_some_iff] at hs'
          obtain ⟨lm, _, h2⟩ := hs'
          subst h2
          exact follows_silent hm (silent_tell nofun) rfl rfl rfl
  | scoReq p cod =>
    simp only [dispatch, onScoReq]
    split
    · exact follows_silent hm silent_nil rfl rfl rfl
    · split
      · trivial
      · rename_i s' hs'
        unfold createSyn at hs'
        split at hs'
        · cases hs'
        · cases hs'
          exact follows_silent hm (silent_one nofun) rfl rfl rfl
  | scoRsp st l =>
    simp only [dispatch, onScoRsp]
    split
    · exact follows_silent hm silent_nil rfl rfl rfl
    · split
      · split
        · trivial
        · refine follows_silent hm (silent_one ?_) rfl rfl rfl
          intro st k a
          split
          · exact nofun
          · unfold syncEvent
            split <;> exact nofun
      · split
        · trivial
        · refine follows_silent hm (silent_one ?_) rfl rfl rfl
          intro st k a
          split <;> exact nofun
  | inqRsp t cod r eir =>
    simp only [dispatch, onInqRsp]
    (repeat' split) <;> first
      | exact follows_silent hm silent_nil rfl rfl rfl
      | exact follows_silent hm (silent_tell nofun) rfl rfl rfl
      | exact follows_silent hm (silent_one nofun) rfl rfl rfl
  | lmp b =>
    cases b with
    | true => exact follows_silent hm silent_nil rfl rfl rfl
    | false => trivial
  | extReq p =>
    simp only [dispatch, onExtReq]
    split
    · trivial
    · exact follows_silent hm silent_nil rfl rfl rfl
  | _ =>
    simp only [dispatch, onPage, onRoleReq, onRoleRsp, onScoDisc, onInquiry, onAcl, onSco, report]
    (repeat' split) <;> first
      | exact follows_silent hm silent_nil rfl rfl rfl
      | exact follows_silent hm (silent_tell nofun) rfl rfl rfl
      | exact follows_silent hm (silent_one nofun) rfl rfl rfl

theorem step_follows {s : Ctl} (hi : Inv s) (hm : s.mask.testBit 2 = true) (now : Nat) (x : Act) (hn : Named x) (hh : hears x = true) :
    Follows s now x (step s now x) := by
  cases x with
  | cmd c => exact command_follows hi hm now c hh
  | tick => exact tick_follows hm now
  | check h =>
    simp only [step, checkExpiring]
    split
    · exact follows_silent hm silent_nil rfl rfl rfl
    · split
      · exact disconnect_follows hi hm _ _ _ _ _ (fun _ _ _ => rfl)
      · split <;> exact follows_silent hm silent_nil rfl rfl rfl
  | packet src dst rssi p =>
    simp only [step, incoming]
    split
    · exact follows_silent hm silent_nil rfl rfl rfl
    · obtain ⟨h1, h2⟩ := touch_inv hi now src
      have h3 := touch_eq s now src
      have h4 : (touch s now src).mask = s.mask := by rw [h3]
      have h5 : (touch s now src).page = s.page := by rw [h3]
      have := dispatch_follows h1 (by rw [h4]; exact hm) now src dst rssi p hn
      revert this
      cases dispatch (touch s now src) now src rssi p with
      | ok st s' out ev =>
        unfold Follows
        rw [h5]
        exact id
      | _ => exact id

end Verif.Br
