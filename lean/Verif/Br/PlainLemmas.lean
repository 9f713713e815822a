import Verif.Br.Fate
/-!
# Histories without synchronous connections
-/
namespace Verif.Br
open Verif.Conn (Table find erase firstWith getUnusedHandle ScoState keys Sound)
open Verif.Sco (ConnParams LinkParams)

/-- Only the given devices are known, and there are no synchronous connections. -/
structure Known (l : List Nat) (s : Ctl) : Prop where
  peers : ∀ a ∈ Br.peers s, a ∈ l
  page : ∀ p, s.page = some p → p.addr ∈ l
  scan : ∀ p, s.scan = some p → p.addr ∈ l
  sco : s.sco = []

theorem Known.same {l : List Nat} {s s' : Ctl} (h : Known l s) (h1 : Br.peers s' = Br.peers s) (h2 : s'.page = s.page)
    (h3 : s'.scan = s.scan) (h4 : s'.sco = s.sco) : Known l s' :=
  ⟨by rw [h1]; exact h.peers, by rw [h2]; exact h.page, by rw [h3]; exact h.scan, by rw [h4]; exact h.sco⟩

/-- The result of a step, if there is one, knows no other devices. -/
def Keeps (l : List Nat) : Res → Prop
  | .ok _ s _ _ => Known l s
  | _ => True

theorem endAcl_known {l : List Nat} {s s' : Ctl} (hi : Inv s) (hk : Known l s) {h : Nat} {c : Acl} (hm : (h, c) ∈ s.acl)
    (he : endAcl s h c.addr = some s') : Known l s' := by
  rcases endAcl_cases hi hm with ⟨_, h2⟩ | ⟨_, s1, h2, h3, h4, h5⟩
  · rw [h2] at he
    cases he
  · rw [h2] at he
    injection he with he
    subst he
    refine ⟨?_, ?_, ?_, ?_⟩
    · intro a ha
      rw [h4] at ha
      exact hk.peers a (List.mem_of_mem_erase ha)
    · rw [h5]
      exact hk.page
    · rw [h5]
      exact hk.scan
    · rw [h5]
      exact hk.sco

theorem connect_known {l : List Nat} {s s' : Ctl} (hk : Known l s) {now a h : Nat} {role : Role} (ha : a ∈ l)
    (hc : connect s now a role = .ok h s') : Known l s' := by
  unfold connect at hc
  split at hc
  · cases hc
  · split at hc
    · cases hc
    · cases hc
      refine ⟨?_, hk.page, hk.scan, hk.sco⟩
      intro b hb
      rcases List.mem_cons.1 hb with h1 | h1
      · rw [h1]
        exact ha
      · exact hk.peers b h1

theorem disconnect_known {l : List Nat} {s : Ctl} (hi : Inv s) (hk : Known l s) (h r r' : Nat) :
    Keeps l (disconnect s h r r') := by
  unfold disconnect
  rw [hk.sco]
  simp only [find]
  cases ha : find s.acl h with
  | none => exact hk
  | some c =>
    have hm := Conn.find_mem _ _ _ ha
    simp only [scoOf, firstWith]
    split
    · trivial
    · rename_i s' hs'
      exact endAcl_known hi hk hm hs'

theorem notPending {l : List Nat} {s : Ctl} (hk : Known l s) (a : Nat) : scoPending s a = false := by
  unfold scoPending
  rw [hk.sco]
  rfl

theorem command_known {l : List Nat} {s : Ctl} (hi : Inv s) (hk : Known l s) (now : Nat) (c : Cmd) (hx : Plain l (.cmd c)) :
    Keeps l (command s now c) := by
  cases c with
  | setupSync h p sp => exact absurd hx id
  | addSco h t => exact absurd hx id
  | accept a t =>
    simp only [command, acceptConnection, notPending hk]
    split
    · rename_i p hp
      rw [Option.filter_eq_some_iff] at hp
      have hin := hk.scan p hp.1
      simp only [acceptPage]
      split
      · exact hk
      · split
        · trivial
        · trivial
        · rename_i h s' hs'
          have h1 := connect_known hk hin hs'
          refine ⟨h1.peers, ?_, nofun, h1.sco⟩
          intro q hq
          refine hk.page q ?_
          simp only at hq
          split at hq
          · cases hq
          · exact hq
    · simp only [Bool.false_eq_true, if_false, refuse]
      exact hk
  | disconnect h r => exact disconnect_known hi hk h r 0x16
  | acceptSync a p =>
    simp only [command, acceptSync, notPending hk, Bool.false_eq_true, if_false, refuse]
    exact hk
  | rejectSync a r =>
    simp only [command, rejectSync, notPending hk, Bool.false_eq_true, if_false, refuse]
    exact hk
  | reset => exact ⟨nofun, nofun, nofun, rfl⟩
  | create a w =>
    simp only [command, createConnection, refuse]
    (repeat' split) <;> first
      | exact hk
      | skip
    refine ⟨hk.peers, ?_, hk.scan, hk.sco⟩
    intro p hp
    injection hp with hp
    subst hp
    exact hx.2
  | cancel a =>
    simp only [command, cancelConnection, refuse]
    (repeat' split) <;> first
      | exact hk
      | exact ⟨hk.peers, nofun, hk.scan, hk.sco⟩
  | writePolicy h p =>
    simp only [command, writePolicy, refuse]
    split
    · exact hk
    · rename_i c hc
      split
      · exact hk
      · exact hk.same (hi.setAcl (c := { c with policy := p }) (c0 := c) ((mem_acl hi).2 hc) rfl).2 rfl rfl rfl
  | _ =>
    simp only [command, startInquiry, cancelInquiry, rejectConnection, switchRole, writeDefaultPolicy, ask, sendSco, sendAcl, refuse]
    (repeat' split) <;> first
      | exact hk
      | trivial
      | exact hk.same rfl rfl rfl rfl

theorem dispatch_known {l : List Nat} {s : Ctl} (hi : Inv s) (hk : Known l s) (now src dst rssi : Nat) (p : Pkt)
    (hx : Plain l (.packet src dst rssi p)) : Keeps l (dispatch s now src rssi p) := by
  obtain ⟨h0, hin, hx⟩ := hx
  cases p with
  | scoReq p cod => exact absurd hx id
  | pageRsp t =>
    simp only [dispatch, onPageRsp]
    split
    · exact hk
    · split
      · exact hk
      · split
        · trivial
        · trivial
        · rename_i h s' hs'
          have h1 := connect_known hk hin hs'
          exact ⟨h1.peers, nofun, h1.scan, h1.sco⟩
  | disconnect r =>
    simp only [dispatch, onDisconnect]
    split
    · exact hk
    · rename_i h c hc
      obtain ⟨h1, h2⟩ := aclOf_some hc
      subst h2
      split
      · trivial
      · rename_i s' hs'
        exact endAcl_known hi hk h1 hs'
  | scoRsp st l' =>
    simp only [dispatch, onScoRsp, hk.sco, scoOf, firstWith]
    exact hk
  | scoDisc r =>
    simp only [dispatch, onScoDisc, hk.sco, scoOf, firstWith]
    exact hk
  | page cod w =>
    simp only [dispatch, onPage]
    (repeat' split) <;> first
      | exact hk
      | skip
    refine ⟨hk.peers, hk.page, ?_, hk.sco⟩
    intro q hq
    injection hq with hq
    subst hq
    exact hin
  | pageReject r =>
    simp only [dispatch, onPageReject]
    (repeat' split) <;> first
      | exact hk
      | exact ⟨hk.peers, nofun, hk.scan, hk.sco⟩
  | roleReq =>
    simp only [dispatch, onRoleReq]
    split
    · exact hk
    · rename_i h c hc
      split
      · exact hk
      · exact hk.same (hi.setAcl (c := { c with role := c.role.other }) (c0 := c) (aclOf_some hc).1 rfl).2 rfl rfl rfl
  | roleRsp st =>
    simp only [dispatch, onRoleRsp]
    split
    · exact hk
    · rename_i h c hc
      split
      · exact hk
      · exact hk.same (hi.setAcl (c := { c with role := c.role.other }) (c0 := c) (aclOf_some hc).1 rfl).2 rfl rfl rfl
  | _ =>
    simp only [dispatch, onInquiry, onInqRsp, onAcl, onSco, report, onExtReq]
    (repeat' split) <;> first
      | exact hk
      | trivial

theorem step_known {l : List Nat} {s : Ctl} (hi : Inv s) (hk : Known l s) (now : Nat) (x : Act) (hx : Plain l x) :
    Keeps l (step s now x) := by
  cases x with
  | cmd c => exact command_known hi hk now c hx
  | tick =>
    simp only [step]
    rw [tick_eq]
    obtain ⟨page, h1, h2⟩ := paging_same { s with later := [] } now
    obtain ⟨inq, h3⟩ := inquiring_same (paging { s with later := [] } now).1 now
    rw [h3, h1]
    refine ⟨hk.peers, ?_, hk.scan, hk.sco⟩
    intro p hp
    obtain ⟨q, hq1, hq2⟩ := h2 p hp
    rw [← hq2]
    exact hk.page q hq1
  | check h =>
    simp only [step, checkExpiring]
    split
    · exact hk
    · split
      · exact disconnect_known hi hk _ _ _
      · split <;> exact hk
  | packet src dst rssi p =>
    simp only [step, incoming]
    split
    · exact hk
    · obtain ⟨h1, h2⟩ := touch_inv hi now src
      have h3 := touch_eq s now src
      refine dispatch_known h1 (hk.same h2 ?_ ?_ ?_) now src dst rssi p hx <;> rw [h3]

theorem plain_named {l : List Nat} {x : Act} (h : Plain l x) : Named x := by
  cases x with
  | cmd c =>
    cases c with
    | create a w => exact h.1
    | _ => trivial
  | packet src dst rssi p => exact h.1
  | _ => trivial

theorem length_lt {l : List Nat} {s : Ctl} (hi : Inv s) (hk : Known l s) (hl : l.length ≤ 7) {a : Nat} (ha : a ∈ l)
    (hn : a ∉ peers s) : s.acl.length < 7 := by
  have h1 : (a :: peers s).Nodup := List.nodup_cons.2 ⟨hn, hi.nodup⟩
  have h2 : (a :: peers s) ⊆ l := by
    intro b hb
    rcases List.mem_cons.1 hb with h | h
    · rw [h]
      exact ha
    · exact hk.peers b h
  have h3 := (h1.subperm h2).length_le
  rw [List.length_cons] at h3
  unfold peers at h3
  rw [List.length_map] at h3
  omega

/-- Such a step does not fail. -/
theorem plain_ok {l : List Nat} {s : Ctl} (hi : Inv s) (hk : Known l s) (hl : l.length ≤ 7) (now : Nat) (x : Act) (hx : Plain l x) :
    ∃ st s' out ev, step s now x = .ok st s' out ev ∧ Inv s' ∧ Known l s' := by
  have hf := fits hi now x (plain_named hx)
  have hkn := step_known hi hk now x hx
  have hsync : ∀ a, syncs s a = 0 := by
    intro a
    rw [syncs_zero, hk.sco]
    rfl
  have hstr : ∀ a, streaming s a = false := by
    intro a
    unfold streaming
    rw [hk.sco]
    rfl
  have ha : ¬Aborts s now x := by
    cases x with
    | cmd c =>
      cases c with
      | accept a t =>
        rintro ⟨⟨p, h1, h2⟩, h3, h4⟩
        have := length_lt hi hk hl (h2 ▸ hk.scan p h1) h3
        omega
      | disconnect h r =>
        rintro ⟨_, c, _, h2⟩
        rw [hsync] at h2
        omega
      | acl h pb bc d => exact fun h => h hx
      | _ => exact id
    | tick => exact id
    | check h =>
      rintro ⟨c, _, _, _, h2⟩
      rw [hsync] at h2
      omega
    | packet src dst rssi p =>
      cases p with
      | pageRsp t =>
        rintro ⟨_, ⟨p, h1, h2⟩, h3⟩
        have := length_lt hi hk hl (hk.page p h1) (hi.page p h1).1
        omega
      | disconnect r =>
        rintro ⟨_, _, h2⟩
        rw [hsync] at h2
        omega
      | scoRsp st l' =>
        rintro ⟨_, h2⟩
        rw [hstr] at h2
        cases h2
      | lmp b =>
        rintro ⟨_, h2⟩
        rw [h2] at hx
        exact nomatch hx.2.2
      | _ => exact id
  have hh : ¬Hangs s x := by
    cases x with
    | cmd c =>
      cases c with
      | setupSync h p sp => exact absurd hx id
      | addSco h t => exact absurd hx id
      | _ => exact id
    | packet src dst rssi p =>
      cases p with
      | scoReq p cod => exact absurd hx.2.2 id
      | _ => exact id
    | _ => exact id
  have hs : ¬Strays s x := by
    cases x with
    | cmd c =>
      cases c with
      | extLocal p =>
        intro h
        have h1 : p < 3 := hx
        have h2 : 3 ≤ p := h
        omega
      | _ => exact id
    | packet src dst rssi p =>
      cases p with
      | extReq p =>
        rintro ⟨_, h⟩
        have h1 : p < 3 := hx.2.2
        omega
      | _ => exact id
    | _ => exact id
  revert hf hkn
  cases step s now x with
  | abort => exact fun h => absurd h ha
  | hang => exact fun h => absurd h hh
  | wild => exact fun h => absurd h hs
  | ok st s' out ev => exact fun h1 h2 => ⟨st, s', out, ev, rfl, h1.1, h2⟩

end Verif.Br
