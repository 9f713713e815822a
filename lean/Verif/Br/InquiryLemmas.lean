import Verif.Br.PropsSync
/-!
# Steps that do not concern an inquiry
-/
namespace Verif.Br
open Verif.Conn (Table find erase firstWith keys ScoState)
open Verif.Sco (ConnParams LinkParams)

/-- The inquiry of a controller. -/
def inqOf (s : Ctl) : Option Asking := s.inq.map (fun i => ⟨i.lap, i.next, i.timeout⟩)

def notInq (o : Nat × Pkt) : Bool := match o.2 with
  | .inquiry _ _ => false
  | _ => true

def notEnd (e : Ev) : Bool := match e with
  | .inqComplete => false
  | _ => true

/-- Neither the end of an inquiry nor a sent inquiry. -/
structure Mute (s s' : Ctl) (out : List (Nat × Pkt)) (ev : List Ev) : Prop where
  inq : s'.inq = s.inq
  mask : s'.mask = s.mask
  out : ∀ o ∈ out, notInq o = true
  ev : ∀ e ∈ ev, notEnd e = true

def Mutes (s : Ctl) : Res → Prop
  | .ok _ s' out ev => Mute s s' out ev
  | _ => True

/-- The steps that have to do with an inquiry or the event mask. -/
def inquisitive : Act → Bool
  | .cmd (.inquiry _ _ _) => true
  | .cmd .inquiryCancel => true
  | .cmd .reset => true
  | .cmd (.setMask _) => true
  | .tick => true
  | _ => false

theorem disconnect_mute (s : Ctl) (h r r' : Nat) : Mutes s (disconnect s h r r') := by
  unfold disconnect
  split
  · exact ⟨rfl, rfl, all_one rfl, tell_all rfl⟩
  · split
    · exact ⟨rfl, rfl, all_nil, all_nil⟩
    · split
      · split
        · trivial
        · rename_i s' hs
          unfold endAcl at hs
          split at hs
          · cases hs
          · rw [Option.map_eq_some_iff] at hs
            obtain ⟨lm, -, rfl⟩ := hs
            exact ⟨rfl, rfl, all_two rfl rfl, all_append (tell_all rfl) (tell_all rfl)⟩
      · split
        · trivial
        · rename_i s' hs
          unfold endAcl at hs
          split at hs
          · cases hs
          · rw [Option.map_eq_some_iff] at hs
            obtain ⟨lm, -, rfl⟩ := hs
            exact ⟨rfl, rfl, all_one rfl, tell_all rfl⟩

theorem setup_mute (s : Ctl) (h : Nat) (p : ConnParams) (sp lg : Bool) : Mutes s (setupSync s h p sp lg) := by
  unfold setupSync
  split
  · exact ⟨rfl, rfl, all_nil, all_nil⟩
  · split
    · exact ⟨rfl, rfl, all_nil, all_nil⟩
    · split
      · trivial
      · rename_i s' hs'
        obtain ⟨sco, last, rfl⟩ := createSyn_eq hs'
        exact ⟨rfl, rfl, all_one rfl, all_nil⟩

theorem syncEvent_notEnd (st h a : Nat) (l : LinkParams) : notEnd (syncEvent st h a l) = true := by
  unfold syncEvent
  split <;> rfl

theorem command_mute (s : Ctl) (now : Nat) (c : Cmd) (hx : inquisitive (.cmd c) = false) : Mutes s (command s now c) := by
  cases c with
  | disconnect h r => exact disconnect_mute s h _ _
  | inquiry => cases hx
  | inquiryCancel => cases hx
  | reset => cases hx
  | setMask => cases hx
  | setupSync h p sp => exact setup_mute s h p sp false
  | addSco h t => exact setup_mute s h _ false true
  | accept a t =>
    simp only [command, acceptConnection, acceptPage, refuse]
    split
    · split
      · exact ⟨rfl, rfl, all_nil, all_nil⟩
      · split
        · trivial
        · trivial
        · rename_i k s1 hcn
          obtain ⟨last, lm, rfl⟩ := connect_eq hcn
          exact ⟨rfl, rfl, all_one rfl, all_append (if_all (tell_all rfl)) (tell_all rfl)⟩
    · split
      · split
        · trivial
        · exact ⟨rfl, rfl, all_one rfl, tell_all rfl⟩
      · exact ⟨rfl, rfl, all_nil, all_nil⟩
  | acceptSync a p =>
    simp only [command, acceptSync, refuse]
    split
    · split
      · trivial
      · exact ⟨rfl, rfl, all_one rfl, all_one (syncEvent_notEnd _ _ _ _)⟩
    · exact ⟨rfl, rfl, all_nil, all_nil⟩
  | rejectSync a r =>
    simp only [command, rejectSync, refuse]
    split
    · split
      · trivial
      · exact ⟨rfl, rfl, all_one rfl, all_one rfl⟩
    · exact ⟨rfl, rfl, all_nil, all_nil⟩
  | name a => exact ⟨rfl, rfl, all_two rfl rfl, all_nil⟩
  | _ =>
    simp only [command, createConnection, cancelConnection, rejectConnection, switchRole, writePolicy,
      writeDefaultPolicy, ask, sendAcl, sendSco, refuse]
    (repeat' split) <;> first
      | trivial
      | exact ⟨rfl, rfl, all_nil, all_nil⟩
      | exact ⟨rfl, rfl, all_nil, tell_all rfl⟩
      | exact ⟨rfl, rfl, all_one rfl, all_nil⟩
      | exact ⟨rfl, rfl, all_nil, all_one rfl⟩
      | exact ⟨rfl, rfl, all_one rfl, all_one rfl⟩

theorem dispatch_mute (s : Ctl) (now src rssi : Nat) (p : Pkt) : Mutes s (dispatch s now src rssi p) := by
  cases p with
  | disconnect r =>
    simp only [dispatch, onDisconnect]
    split
    · exact ⟨rfl, rfl, all_nil, all_nil⟩
    · split
      · trivial
      · rename_i s' hs
        unfold endAcl at hs
        split at hs
        · cases hs
        · rw [Option.map_eq_some_iff] at hs
          obtain ⟨lm, -, rfl⟩ := hs
          exact ⟨rfl, rfl, all_nil, tell_all rfl⟩
  | pageRsp t =>
    simp only [dispatch, onPageRsp]
    split
    · exact ⟨rfl, rfl, all_nil, all_nil⟩
    · split
      · exact ⟨rfl, rfl, all_nil, all_nil⟩
      · split
        · trivial
        · trivial
        · rename_i k s1 hcn
          obtain ⟨last, lm, rfl⟩ := connect_eq hcn
          exact ⟨rfl, rfl, all_nil, all_append (if_all (tell_all rfl)) (tell_all rfl)⟩
  | scoReq p cod =>
    simp only [dispatch, onScoReq]
    split
    · exact ⟨rfl, rfl, all_one rfl, all_nil⟩
    · split
      · trivial
      · rename_i s1 h1
        obtain ⟨sco, last, rfl⟩ := createSyn_eq h1
        exact ⟨rfl, rfl, all_nil, all_one rfl⟩
  | scoRsp st l =>
    simp only [dispatch, onScoRsp]
    split
    · exact ⟨rfl, rfl, all_nil, all_nil⟩
    · split
      · split
        · trivial
        · refine ⟨rfl, rfl, all_nil, all_one ?_⟩
          split
          · rfl
          · exact syncEvent_notEnd _ _ _ _
      · split
        · trivial
        · refine ⟨rfl, rfl, all_nil, all_one ?_⟩
          split <;> rfl
  | featuresRsp f =>
    simp only [dispatch, report]
    split
    · exact ⟨rfl, rfl, all_nil, all_nil⟩
    · exact ⟨rfl, rfl, all_nil, tell_all rfl⟩
  | extRsp st p m f =>
    simp only [dispatch, report]
    split
    · exact ⟨rfl, rfl, all_nil, all_nil⟩
    · exact ⟨rfl, rfl, all_nil, tell_all rfl⟩
  | versionRsp v sub c =>
    simp only [dispatch, report]
    split
    · exact ⟨rfl, rfl, all_nil, all_nil⟩
    · exact ⟨rfl, rfl, all_nil, tell_all rfl⟩
  | _ =>
    simp only [dispatch, onPage, onPageReject, onRoleReq, onRoleRsp, onScoDisc, onInquiry, onInqRsp, onAcl, onSco, onExtReq]
    (repeat' split) <;> first
      | trivial
      | exact ⟨rfl, rfl, all_nil, all_nil⟩
      | exact ⟨rfl, rfl, all_nil, tell_all rfl⟩
      | exact ⟨rfl, rfl, all_one rfl, all_nil⟩
      | exact ⟨rfl, rfl, all_one rfl, tell_all rfl⟩
      | exact ⟨rfl, rfl, all_nil, all_one rfl⟩

theorem step_mute (s : Ctl) (now : Nat) (x : Act) (hx : inquisitive x = false) : Mutes s (step s now x) := by
  cases x with
  | cmd c => exact command_mute s now c hx
  | tick => cases hx
  | check k =>
    simp only [step, checkExpiring]
    split
    · exact ⟨rfl, rfl, all_nil, all_nil⟩
    · split
      · exact disconnect_mute s k _ _
      · split
        · exact ⟨rfl, rfl, all_one rfl, all_nil⟩
        · exact ⟨rfl, rfl, all_nil, all_nil⟩
  | packet src dst r p =>
    simp only [step, incoming]
    split
    · exact ⟨rfl, rfl, all_nil, all_nil⟩
    · have h := dispatch_mute (touch s now src) now src r p
      have h1 : (touch s now src).inq = s.inq ∧ (touch s now src).mask = s.mask := by
        unfold touch
        split <;> exact ⟨rfl, rfl⟩
      cases h3 : dispatch (touch s now src) now src r p with
      | ok st s' out ev =>
        rw [h3] at h
        exact ⟨h.inq.trans h1.1, h.mask.trans h1.2, h.out, h.ev⟩
      | _ => trivial

theorem mute_inquiries {out : List (Nat × Pkt)} (h : ∀ o ∈ out, notInq o = true) : inquiries out = [] := by
  refine List.filterMap_eq_nil_iff.2 fun o ho => ?_
  have := h o ho
  split
  · exact absurd this nofun
  · rfl

theorem mute_count {ev : List Ev} (h : ∀ e ∈ ev, notEnd e = true) : ev.count .inqComplete = 0 := by
  rw [List.count_eq_zero]
  intro hm
  exact absurd (h _ hm) nofun

end Verif.Br
