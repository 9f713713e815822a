import Verif.Link.Spec
/-!
# PHYs at one end of a link -/
namespace Verif.Link

/-- The update indications among packets. -/
def inds (q : List Pkt) : List (Nat × Nat) := q.filterMap (fun p => match p with
  | .phyInd a b => some (a, b)
  | _ => none)

/-- No response to a PHY request. -/
def noRsp (q : List Pkt) : Bool := q.all (fun p => match p with
  | .phyRsp _ _ => false
  | _ => true)

/-- What an update indication does to the peripheral's PHYs. -/
def follow (x : Phy × Phy) (i : Nat × Nat) : Phy × Phy := (select i.2 x.1, select i.1 x.2)

theorem select_indicate (s c : Phy) : select (indicate s c) c = s := by
  cases s <;> cases c <;> decide

theorem put_same (d : Dev) (h : Nat) (c : Conn) : (put d h c).conns h = some c := by simp [put]
theorem put_other (d : Dev) {h k : Nat} (hk : k ≠ h) (c : Conn) : (put d h c).conns k = d.conns k := by simp [put, hk]
theorem over_one (h : Nat) (p : Pkt) : over h [(h, p)] = [p] := by simp [over]
theorem over_other {h k : Nat} (hk : k ≠ h) (p : Pkt) : over h [(k, p)] = [] := by simp [over, hk]
theorem over_nil (h : Nat) : over h [] = [] := rfl

/-- A step of one controller. -/
inductive Move
  | cmd (c : Cmd)
  | task
  | rcv (h : Nat) (p : Pkt)

def Move.run (d : Dev) : Move → Option Out
  | .cmd c => command d c
  | .task => runTask d
  | .rcv h p => receive d h p

/-- The connection the step is about. -/
def Move.handle (d : Dev) : Move → Option Nat
  | .cmd (.setPhy h _ _ _ _) => some h
  | .cmd (.enable h _ _ _) => some h
  | .cmd (.reply h _) => some h
  | .cmd (.negative h) => some h
  | .cmd (.readFeatures h) => some h
  | .cmd (.readVersion h) => some h
  | .cmd (.acl h _ _ _) => some h
  | .cmd _ => none
  | .task => d.tasks.head?.map (·.handle)
  | .rcv h _ => some h

/-- The connection an event is about. -/
def Ev.handle : Ev → Nat
  | .phyDone h _ _ => h
  | .ltkRequest h _ _ => h
  | .encChange _ h _ => h
  | .encChangeV2 _ h _ => h
  | .keyRefresh _ h => h
  | .features _ h _ => h
  | .version h _ _ _ => h
  | .acl h _ _ _ => h
  | .completed h _ => h

theorem tell_handle {b : Bool} {e : Ev} {h : Nat} (he : e.handle ≠ h) : ∀ x ∈ tell b e, x.handle ≠ h := by
  intro x hx
  unfold tell at hx
  split at hx
  · rw [List.mem_singleton] at hx
    rw [hx]; exact he
  · simp at hx

/-- A step about another connection does not touch this one. -/
theorem frame {d : Dev} {m : Move} {o : Out} (hr : m.run d = some o) {h : Nat} (hh : m.handle d ≠ some h) :
    o.dev.conns h = d.conns h ∧ over h o.out = [] ∧ (∀ e ∈ o.ev, e.handle ≠ h) ∧
    o.dev.tasks.filter (fun e => e.handle = h) = d.tasks.filter (fun e => e.handle = h) := by
  cases m with
  | task =>
    simp only [Move.run, runTask] at hr
    cases ht : d.tasks with
    | nil => rw [ht] at hr; cases hr; exact ⟨rfl, rfl, nofun, by rw [ht]⟩
    | cons e l =>
      rw [ht] at hr
      have he : e.handle ≠ h := by
        intro hc; apply hh; simp [Move.handle, ht, hc]
      simp only at hr
      split at hr <;> cases hr
      · exact ⟨rfl, rfl, nofun, by simp [he]⟩
      · exact ⟨put_other _ (fun hc => he hc.symm) _, over_other he _, nofun, by simp [he]⟩
  | cmd c =>
    cases c with
    | setDefaultPhy a b tx rx =>
      simp only [Move.run, command, setDefaultPhy] at hr
      (repeat' split at hr) <;> cases hr <;> exact ⟨rfl, rfl, nofun, rfl⟩
    | setPhy k a b tx rx =>
      have hk : k ≠ h := fun hc => hh (by simp [Move.handle, hc])
      simp only [Move.run, command, setPhy] at hr
      (repeat' split at hr) <;> cases hr <;> first
        | exact ⟨rfl, rfl, nofun, rfl⟩
        | exact ⟨put_other _ (fun hc => hk hc.symm) _, over_other hk _, nofun, rfl⟩
    | enable k r e l =>
      have hk : k ≠ h := fun hc => hh (by simp [Move.handle, hc])
      simp only [Move.run, command, enable] at hr
      (repeat' split at hr) <;> cases hr <;> first
        | exact ⟨rfl, rfl, nofun, rfl⟩
        | exact ⟨rfl, rfl, nofun, by simp [hk]⟩
    | reply k l =>
      have hk : k ≠ h := fun hc => hh (by simp [Move.handle, hc])
      simp only [Move.run, command, reply] at hr
      split at hr
      · cases hr; exact ⟨rfl, rfl, nofun, rfl⟩
      · split at hr <;> cases hr
        · exact ⟨rfl, over_other hk _, tell_handle hk, rfl⟩
        · refine ⟨put_other _ (fun hc => hk hc.symm) _, over_other hk _, ?_, rfl⟩
          simp only
          split
          · intro e he; rw [List.mem_singleton] at he; rw [he]; exact hk
          · exact tell_handle hk
    | negative k =>
      have hk : k ≠ h := fun hc => hh (by simp [Move.handle, hc])
      simp only [Move.run, command, negative] at hr
      (repeat' split at hr) <;> cases hr <;> first
        | exact ⟨rfl, rfl, nofun, rfl⟩
        | exact ⟨rfl, over_other hk _, nofun, rfl⟩
    | readFeatures k =>
      have hk : k ≠ h := fun hc => hh (by simp [Move.handle, hc])
      simp only [Move.run, command, ask] at hr
      (repeat' split at hr) <;> cases hr <;> first
        | exact ⟨rfl, rfl, nofun, rfl⟩
        | exact ⟨rfl, over_other hk _, nofun, rfl⟩
    | readVersion k =>
      have hk : k ≠ h := fun hc => hh (by simp [Move.handle, hc])
      simp only [Move.run, command, ask] at hr
      (repeat' split at hr) <;> cases hr <;> first
        | exact ⟨rfl, rfl, nofun, rfl⟩
        | exact ⟨rfl, over_other hk _, nofun, rfl⟩
    | setMask => cases hr; exact ⟨rfl, rfl, nofun, rfl⟩
    | setMask2 => cases hr; exact ⟨rfl, rfl, nofun, rfl⟩
    | setLeMask => cases hr; exact ⟨rfl, rfl, nofun, rfl⟩
    | acl k pb bc data =>
      have hk : k ≠ h := fun hc => hh (by simp [Move.handle, hc])
      have hev : ∀ e ∈ [Ev.completed k 1], e.handle ≠ h := by
        intro e he; rw [List.mem_singleton] at he; rw [he]; exact hk
      simp only [Move.run, command, sendAcl] at hr
      (repeat' split at hr) <;> cases hr <;> first
        | exact ⟨rfl, rfl, hev, rfl⟩
        | exact ⟨rfl, over_other hk _, hev, rfl⟩
  | rcv k p =>
    have hk : k ≠ h := fun hc => hh (by simp [Move.handle, hc])
    have hp := fun (d : Dev) (c : Conn) => put_other d (fun hc => hk hc.symm : h ≠ k) c
    simp only [Move.run, receive] at hr
    split at hr
    · cases hr; exact ⟨rfl, rfl, nofun, rfl⟩
    · cases p with
      | phyReq tx rx =>
        simp only [onPhyReq] at hr
        split at hr <;> cases hr
        · exact ⟨rfl, over_other hk _, nofun, rfl⟩
        · exact ⟨hp _ _, over_other hk _, tell_handle hk, rfl⟩
      | phyRsp tx rx =>
        simp only [onPhyRsp] at hr
        split at hr <;> cases hr
        exact ⟨hp _ _, over_other hk _, tell_handle hk, rfl⟩
      | phyInd a b =>
        simp only [onPhyInd] at hr
        split at hr <;> cases hr
        exact ⟨hp _ _, rfl, tell_handle hk, rfl⟩
      | enc r e l => cases hr; exact ⟨hp _ _, rfl, tell_handle hk, rfl⟩
      | encRsp st l =>
        simp only [onEncRsp] at hr
        (repeat' split at hr) <;> cases hr <;> first
          | exact ⟨rfl, rfl, tell_handle hk, rfl⟩
          | exact ⟨hp _ _, rfl, tell_handle hk, rfl⟩
      | featReq => cases hr; exact ⟨rfl, over_other hk _, nofun, rfl⟩
      | featRsp f st =>
        cases hr
        refine ⟨?_, rfl, tell_handle hk, ?_⟩
        · simp only; split
          · exact hp _ _
          · rfl
        · simp only; split <;> rfl
      | verReq => cases hr; exact ⟨rfl, over_other hk _, nofun, rfl⟩
      | verRsp v s m => cases hr; exact ⟨rfl, rfl, tell_handle hk, rfl⟩
      | acl pb bc data =>
        cases hr
        refine ⟨rfl, rfl, ?_, rfl⟩
        intro e he; rw [List.mem_singleton] at he; rw [he]; exact hk

end Verif.Link
