import Verif.Br.PairLemmas
/-!
# Data on a connection that nobody ends
-/
namespace Verif.Br
open Verif.Conn (Table find erase firstWith getUnusedHandle ScoState keys Sound)
open Verif.Sco (ConnParams LinkParams)

/-- Neither data nor the end of a connection. -/
def dullPkt : Pkt → Bool
  | .acl _ _ _ => false
  | .disconnect _ => false
  | _ => true

/-- Neither data nor an acknowledgement. -/
def dullEv : Ev → Bool
  | .acl _ _ _ _ => false
  | .completed _ _ => false
  | _ => true

/-- The handles of connections with their addresses are kept, and there is no data. -/
structure Still (s s' : Ctl) (out : List (Nat × Pkt)) (ev : List Ev) : Prop where
  keep : ∀ h c, (h, c) ∈ s.acl → ∃ c', (h, c') ∈ s'.acl ∧ c'.addr = c.addr
  out : ∀ o ∈ out, dullPkt o.2 = true
  ev : ∀ e ∈ ev, dullEv e = true

def Stills (s : Ctl) : Res → Prop
  | .ok _ s' out ev => Still s s' out ev
  | _ => True

/-- The steps that neither carry data nor end connections. -/
def still (s : Ctl) (now : Nat) : Act → Bool
  | .cmd (.disconnect _ _) => false
  | .cmd .reset => false
  | .cmd (.acl _ _ _ _) => false
  | .check _ => s.acl.all (fun e => now ≤ e.2.last + 3000000000)
  | .packet _ _ _ (.acl _ _ _) => false
  | .packet _ _ _ (.disconnect _) => false
  | _ => true

theorem keep_same {s s' : Ctl} (h : s'.acl = s.acl) : ∀ k c, (k, c) ∈ s.acl → ∃ c', (k, c') ∈ s'.acl ∧ c'.addr = c.addr := by
  intro k c hm
  exact ⟨c, by rw [h]; exact hm, rfl⟩

theorem keep_update {s s' : Ctl} (hi : Inv s) {k0 : Nat} {c0 d : Acl} (h0 : (k0, c0) ∈ s.acl) (hd : d.addr = c0.addr)
    (h : s'.acl = update s.acl k0 d) : ∀ k c, (k, c) ∈ s.acl → ∃ c', (k, c') ∈ s'.acl ∧ c'.addr = c.addr := by
  intro k c hm
  rw [h]
  by_cases hk : k = k0
  · subst hk
    have := unique hi.sound.nodup hm h0
    subst this
    exact ⟨d, List.mem_map.2 ⟨(k, c), hm, by simp⟩, hd⟩
  · exact ⟨c, List.mem_map.2 ⟨(k, c), hm, by simp [hk]⟩, rfl⟩

theorem keep_cons {s s' : Ctl} {e : Nat × Acl} (h : s'.acl = e :: s.acl) : ∀ k c, (k, c) ∈ s.acl → ∃ c', (k, c') ∈ s'.acl ∧ c'.addr = c.addr := by
  intro k c hm
  exact ⟨c, by rw [h]; exact List.mem_cons_of_mem _ hm, rfl⟩

theorem out_nil : ∀ o ∈ ([] : List (Nat × Pkt)), dullPkt o.2 = true := nofun

theorem out_one {o : Nat × Pkt} (h : dullPkt o.2 = true) : ∀ x ∈ [o], dullPkt x.2 = true := by
  intro x hx
  rw [List.mem_singleton] at hx
  rw [hx]
  exact h

theorem out_two {o o' : Nat × Pkt} (h : dullPkt o.2 = true) (h' : dullPkt o'.2 = true) : ∀ x ∈ [o, o'], dullPkt x.2 = true := by
  intro x hx
  rcases List.mem_cons.1 hx with h1 | h1
  · rw [h1]
    exact h
  · exact out_one h' x h1

theorem setup_still (s : Ctl) (h : Nat) (p : ConnParams) (sp lg : Bool) : Stills s (setupSync s h p sp lg) := by
  unfold setupSync
  split
  · exact ⟨keep_same rfl, out_nil, all_nil⟩
  · split
    · exact ⟨keep_same rfl, out_nil, all_nil⟩
    · split
      · trivial
      · rename_i s' hs'
        obtain ⟨sco, last, rfl⟩ := createSyn_eq hs'
        exact ⟨keep_same rfl, out_one rfl, all_nil⟩

theorem syncEvent_dull (st h a : Nat) (l : LinkParams) : dullEv (syncEvent st h a l) = true := by
  unfold syncEvent
  split <;> rfl

theorem if_all {c : Prop} [Decidable c] {l : List Ev} {p : Ev → Bool} (h : ∀ e ∈ l, p e = true) :
    ∀ e ∈ (if c then l else []), p e = true := by
  split
  · exact h
  · exact all_nil

theorem command_still {s : Ctl} (hi : Inv s) (now : Nat) (c : Cmd) (hx : still s now (.cmd c) = true) : Stills s (command s now c) := by
  cases c with
  | disconnect h r => cases hx
  | reset => cases hx
  | acl h pb bc d => cases hx
  | setupSync h p sp => exact setup_still s h p sp false
  | addSco h t => exact setup_still s h _ false true
  | accept a t =>
    simp only [command, acceptConnection, acceptPage, refuse]
    split
    · split
      · exact ⟨keep_same rfl, out_nil, all_nil⟩
      · split
        · trivial
        · trivial
        · rename_i k s1 hcn
          obtain ⟨last, lm, rfl⟩ := connect_eq hcn
          exact ⟨keep_cons rfl, out_one rfl, all_append (if_all (tell_all rfl)) (tell_all rfl)⟩
    · split
      · split
        · trivial
        · exact ⟨keep_same rfl, out_one rfl, tell_all rfl⟩
      · exact ⟨keep_same rfl, out_nil, all_nil⟩
  | acceptSync a p =>
    simp only [command, acceptSync, refuse]
    split
    · split
      · trivial
      · exact ⟨keep_same rfl, out_one rfl, all_one (syncEvent_dull _ _ _ _)⟩
    · exact ⟨keep_same rfl, out_nil, all_nil⟩
  | rejectSync a r =>
    simp only [command, rejectSync, refuse]
    split
    · split
      · trivial
      · exact ⟨keep_same rfl, out_one rfl, all_one rfl⟩
    · exact ⟨keep_same rfl, out_nil, all_nil⟩
  | extLocal p =>
    simp only [command]
    split
    · trivial
    · exact ⟨keep_same rfl, out_nil, all_nil⟩
  | writePolicy k pol =>
    simp only [command, writePolicy, refuse]
    split
    · exact ⟨keep_same rfl, out_nil, all_nil⟩
    · rename_i c hc
      split
      · exact ⟨keep_same rfl, out_nil, all_nil⟩
      · exact ⟨keep_update hi (Conn.find_mem _ _ _ hc) (d := { c with policy := pol }) rfl rfl, out_nil, all_nil⟩
  | name a => exact ⟨keep_same rfl, out_two rfl rfl, all_nil⟩
  | _ =>
    simp only [command, startInquiry, cancelInquiry, createConnection, cancelConnection, rejectConnection, switchRole,
      writeDefaultPolicy, ask, sendSco, refuse]
    (repeat' split) <;> first
      | exact ⟨keep_same rfl, out_nil, all_nil⟩
      | exact ⟨keep_same rfl, out_nil, tell_all rfl⟩
      | exact ⟨keep_same rfl, out_one rfl, all_nil⟩

theorem dispatch_still {s : Ctl} (hi : Inv s) (now src dst rssi : Nat) (p : Pkt) (hx : still s now (.packet src dst rssi p) = true) :
    Stills s (dispatch s now src rssi p) := by
  cases p with
  | acl pb bc d => cases hx
  | disconnect r => cases hx
  | pageRsp t =>
    simp only [dispatch, onPageRsp]
    split
    · exact ⟨keep_same rfl, out_nil, all_nil⟩
    · split
      · exact ⟨keep_same rfl, out_nil, all_nil⟩
      · split
        · trivial
        · trivial
        · rename_i k s1 hcn
          obtain ⟨last, lm, rfl⟩ := connect_eq hcn
          exact ⟨keep_cons rfl, out_nil, all_append (if_all (tell_all rfl)) (tell_all rfl)⟩
  | roleReq =>
    simp only [dispatch, onRoleReq]
    split
    · exact ⟨keep_same rfl, out_nil, all_nil⟩
    · rename_i k c hc
      split
      · exact ⟨keep_same rfl, out_one rfl, all_nil⟩
      · exact ⟨keep_update hi (aclOf_some hc).1 (d := { c with role := c.role.other }) rfl rfl, out_one rfl, tell_all rfl⟩
  | roleRsp st =>
    simp only [dispatch, onRoleRsp]
    split
    · exact ⟨keep_same rfl, out_nil, all_nil⟩
    · rename_i k c hc
      split
      · exact ⟨keep_same rfl, out_nil, tell_all rfl⟩
      · exact ⟨keep_update hi (aclOf_some hc).1 (d := { c with role := c.role.other }) rfl rfl, out_nil, tell_all rfl⟩
  | scoReq p cod =>
    simp only [dispatch, onScoReq]
    split
    · exact ⟨keep_same rfl, out_one rfl, all_nil⟩
    · split
      · trivial
      · rename_i s1 h1
        obtain ⟨sco, last, rfl⟩ := createSyn_eq h1
        exact ⟨keep_same rfl, out_nil, all_one rfl⟩
  | scoRsp st l =>
    simp only [dispatch, onScoRsp]
    split
    · exact ⟨keep_same rfl, out_nil, all_nil⟩
    · split
      · split
        · trivial
        · refine ⟨keep_same rfl, out_nil, all_one ?_⟩
          split
          · rfl
          · exact syncEvent_dull _ _ _ _
      · split
        · trivial
        · refine ⟨keep_same rfl, out_nil, all_one ?_⟩
          split <;> rfl
  | featuresRsp f =>
    simp only [dispatch, report]
    split
    · exact ⟨keep_same rfl, out_nil, all_nil⟩
    · exact ⟨keep_same rfl, out_nil, tell_all rfl⟩
  | extRsp st p m f =>
    simp only [dispatch, report]
    split
    · exact ⟨keep_same rfl, out_nil, all_nil⟩
    · exact ⟨keep_same rfl, out_nil, tell_all rfl⟩
  | versionRsp v sub c =>
    simp only [dispatch, report]
    split
    · exact ⟨keep_same rfl, out_nil, all_nil⟩
    · exact ⟨keep_same rfl, out_nil, tell_all rfl⟩
  | _ =>
    simp only [dispatch, onPage, onPageReject, onScoDisc, onInquiry, onInqRsp, onSco, onExtReq]
    (repeat' split) <;> first
      | trivial
      | exact ⟨keep_same rfl, out_nil, all_nil⟩
      | exact ⟨keep_same rfl, out_nil, tell_all rfl⟩
      | exact ⟨keep_same rfl, out_one rfl, all_nil⟩
      | exact ⟨keep_same rfl, out_nil, all_one rfl⟩

theorem touch_keep {s : Ctl} (hi : Inv s) (now src : Nat) : ∀ k c, (k, c) ∈ s.acl → ∃ c', (k, c') ∈ (touch s now src).acl ∧ c'.addr = c.addr := by
  unfold touch
  split
  · exact keep_same rfl
  · rename_i k c hc
    exact keep_update hi (aclOf_some hc).1 (d := { c with last := now }) rfl rfl

theorem step_still {s : Ctl} (hi : Inv s) (now : Nat) (x : Act) (hx : still s now x = true) : Stills s (step s now x) := by
  cases x with
  | cmd c => exact command_still hi now c hx
  | tick =>
    simp only [step]
    rw [tick_eq]
    obtain ⟨inq, h3⟩ := inquiring_same (paging { s with later := [] } now).1 now
    obtain ⟨page, h4, -⟩ := paging_same { s with later := [] } now
    refine ⟨keep_same (by rw [h3, h4]), ?_, ?_⟩
    · intro o ho
      rcases List.mem_append.1 ho with ho | ho
      · rcases List.mem_append.1 ho with ho | ho
        · simp only [sendRejects, List.mem_map] at ho
          obtain ⟨r, _, rfl⟩ := ho
          rfl
        · revert ho
          unfold paging
          (repeat' split) <;> first
            | exact out_nil o
            | exact out_one rfl o
      · revert ho
        unfold inquiring
        (repeat' split) <;> first
          | exact out_nil o
          | exact out_one rfl o
    · intro e he
      rcases List.mem_append.1 he with he | he
      · rcases List.mem_append.1 he with he | he
        · simp only [sendRejects, List.mem_flatMap] at he
          obtain ⟨r, _, h⟩ := he
          exact tell_all rfl e h
        · revert he
          unfold paging
          (repeat' split) <;> first
            | exact all_nil e
            | exact all_one rfl e
      · revert he
        unfold inquiring
        (repeat' split) <;> first
          | exact all_nil e
          | exact tell_all rfl e
  | check k =>
    simp only [step, checkExpiring]
    split
    · exact ⟨keep_same rfl, out_nil, all_nil⟩
    · rename_i c hc
      have h1 := List.all_eq_true.1 hx _ (Conn.find_mem _ _ _ hc)
      rw [if_neg (by simpa using h1)]
      split
      · exact ⟨keep_same rfl, out_one rfl, all_nil⟩
      · exact ⟨keep_same rfl, out_nil, all_nil⟩
  | packet src dst r p =>
    simp only [step, incoming]
    split
    · exact ⟨keep_same rfl, out_nil, all_nil⟩
    · have h1 : still (touch s now src) now (.packet src dst r p) = true := by
        cases p <;> first
          | rfl
          | exact hx
      have h2 := dispatch_still (touch_inv hi now src).1 now src dst r p h1
      cases h3 : dispatch (touch s now src) now src r p with
      | ok st s' out ev =>
        rw [h3] at h2
        refine ⟨?_, h2.out, h2.ev⟩
        intro k c hm
        obtain ⟨c1, k1, k2⟩ := touch_keep hi now src k c hm
        obtain ⟨c2, k3, k4⟩ := h2.keep k c1 k1
        exact ⟨c2, k3, k4.trans k2⟩
      | _ => trivial

end Verif.Br
