import Verif.Br.PageLemmas
/-!
# A controller as its peer sees it

With a single peer, only the connection, the attempt and the request count, and only six kinds of packets. -/
namespace Verif.Br
open Verif.Conn (Table find erase firstWith getUnusedHandle ScoState keys Sound)
open Verif.Sco (ConnParams LinkParams)

/-- The role in the connection with the peer, the attempt to connect to the peer, and the request of the peer. -/
structure View where
  conn : Option Role
  att : Option Bool
  scan : Option Bool
  deriving DecidableEq, Repr

def view (x : Nat) (s : Ctl) : View :=
  ⟨roleWith s x, (s.page.filter (fun p => p.addr = x)).map Page.allow, s.scan.map Scan.allow⟩

/-- The packets that matter. `flip` is a successful answer to a role switch request. -/
inductive Sig
  | page (w : Bool)
  | rsp (t : Bool)
  | no
  | gone
  | want
  | flip
  deriving DecidableEq, Repr

def kind : Pkt → Option Sig
  | .page _ w => some (.page w)
  | .pageRsp t => some (.rsp t)
  | .pageReject _ => some .no
  | .disconnect _ => some .gone
  | .roleReq => some .want
  | .roleRsp st => if st = 0 then some .flip else none
  | _ => none

/-- The packets that matter to a device. -/
def sig (me : Nat) (x : Nat × Pkt) : Option Sig := if x.1 = 0 ∨ x.1 = me then kind x.2 else none

def sigs (me : Nat) (l : List (Nat × Pkt)) : List Sig := l.filterMap (sig me)

theorem sigs_append (me : Nat) (l m : List (Nat × Pkt)) : sigs me (l ++ m) = sigs me l ++ sigs me m := List.filterMap_append

theorem sigs_nil (me : Nat) : sigs me [] = [] := rfl

theorem sigs_none {me : Nat} {l : List (Nat × Pkt)} (h : ∀ x ∈ l, kind x.2 = none) : sigs me l = [] := by
  unfold sigs
  rw [List.filterMap_eq_nil_iff]
  intro x hx
  unfold sig
  rw [h x hx]
  simp

theorem sigs_cons_none {me : Nat} {x : Nat × Pkt} {l : List (Nat × Pkt)} (h : kind x.2 = none) : sigs me (x :: l) = sigs me l := by
  have : sig me x = none := by
    unfold sig
    rw [h]
    simp
  simp only [sigs, List.filterMap_cons, this]

theorem sigs_one {me d : Nat} {p : Pkt} {k : Sig} (h : kind p = some k) (hd : d = 0 ∨ d = me) : sigs me [(d, p)] = [k] := by
  have : sig me (d, p) = some k := by
    unfold sig
    rw [if_pos hd, h]
  simp only [sigs, List.filterMap_cons, this, List.filterMap_nil]

theorem sigs_far {me d : Nat} {p : Pkt} (hd : ¬(d = 0 ∨ d = me)) : sigs me [(d, p)] = [] := by
  have : sig me (d, p) = none := by
    unfold sig
    rw [if_neg hd]
  simp only [sigs, List.filterMap_cons, this, List.filterMap_nil]

/-- A controller that knows no device but the peer, and rejects nothing. -/
structure Only (x : Nat) (s : Ctl) : Prop where
  inv : Inv s
  acl : s.acl = [] ∨ ∃ h c, s.acl = [(h, c)] ∧ c.addr = x
  scan : ∀ q, s.scan = some q → q.addr = x
  later : s.later = []
  mask : s.mask.testBit 3 = true

theorem role_none {s : Ctl} {x : Nat} (h : s.acl = []) : roleWith s x = none := by
  unfold roleWith
  rw [h]
  rfl

theorem role_one {s : Ctl} {x h : Nat} {c : Acl} (ha : s.acl = [(h, c)]) (hc : c.addr = x) : roleWith s x = some c.role := by
  unfold roleWith
  rw [ha]
  simp [hc]

theorem role_same {s s' : Ctl} {x : Nat} (h : s'.acl = s.acl) : roleWith s' x = roleWith s x := by
  unfold roleWith
  rw [h]

theorem view_same {s s' : Ctl} {x : Nat} (h1 : s'.acl = s.acl) (h2 : s'.page = s.page) (h3 : s'.scan = s.scan) : view x s' = view x s := by
  unfold view
  rw [role_same h1, h2, h3]

theorem Only.of {s s' : Ctl} {x : Nat} (ho : Only x s) (hi : Inv s') (h1 : s'.acl = s.acl) (h2 : s'.scan = s.scan)
    (h3 : s'.later = s.later) (h4 : s'.mask.testBit 3 = true) : Only x s' :=
  ⟨hi, by rw [h1]; exact ho.acl, by rw [h2]; exact ho.scan, by rw [h3]; exact ho.later, h4⟩

theorem conn_some {s : Ctl} {x : Nat} (ho : Only x s) {r : Role} (h : roleWith s x = some r) :
    ∃ k c, s.acl = [(k, c)] ∧ c.addr = x ∧ c.role = r := by
  rcases ho.acl with h1 | ⟨k, c, h1, h2⟩
  · rw [role_none h1] at h
    cases h
  · rw [role_one h1 h2] at h
    injection h with h
    exact ⟨k, c, h1, h2, h⟩

theorem conn_none {s : Ctl} {x : Nat} (ho : Only x s) (h : roleWith s x = none) : s.acl = [] := by
  rcases ho.acl with h1 | ⟨k, c, h1, h2⟩
  · exact h1
  · rw [role_one h1 h2] at h
    cases h

/-- What the host and the timers do to a view. -/
inductive Moves (s : Ctl) (now : Nat) : Act → View → View → List Sig → Prop
  | same (x : Act) (v : View) (o : List Sig) : (∀ y ∈ o, y = .want) → Moves s now x v v o
  | create (a : Nat) (w : Bool) (v : View) (b : Bool) : v.conn = none → v.att = none → Moves s now (.cmd (.create a w)) v { v with att := some b } []
  | page (v : View) (w : Bool) : v.att = some w → (∃ p, s.page = some p ∧ now < p.timeout) → Moves s now .tick v v [.page w]
  | timeout (v : View) : (∃ p, s.page = some p ∧ p.timeout ≤ now) → Moves s now .tick v { v with att := none } []
  | cancel (a : Nat) (v : View) : Moves s now (.cmd (.cancel a)) v { v with att := none } []
  | accept (a : Nat) (t : Bool) (v : View) (w : Bool) (att : Option Bool) : v.scan = some w → v.conn = none →
      (v.att = none → att = none) → Moves s now (.cmd (.accept a t)) v ⟨some (acceptorRole t w), att, none⟩ [.rsp t]
  | disconnect (h r : Nat) (v : View) : v.conn ≠ none → Moves s now (.cmd (.disconnect h r)) v { v with conn := none } [.gone]
  | check (h : Nat) (v : View) : v.conn ≠ none → Moves s now (.check h) v { v with conn := none } [.gone]
  | reset (v : View) : Moves s now (.cmd .reset) v ⟨none, none, none⟩ (if v.conn = none then [] else [.gone])

/-- The packets of the peer. -/
inductive Takes : Option Sig → View → View → List Sig → Prop
  | other (v : View) : Takes none v v []
  | page (w : Bool) (v : View) : Takes (some (.page w)) v v []
  | request (w : Bool) (v : View) : v.conn = none → v.scan = none → Takes (some (.page w)) v { v with scan := some w } []
  | rspIgnored (t : Bool) (v : View) : v.att = none → Takes (some (.rsp t)) v v []
  | rsp (t w : Bool) (v : View) : v.att = some w → Takes (some (.rsp t)) v { v with conn := some (pagerRole w t), att := none } []
  | no (v : View) (att : Option Bool) : (v.att = none → att = none) → Takes (some .no) v { v with att := att } []
  | gone (v : View) : Takes (some .gone) v { v with conn := none } []
  | wantIgnored (v : View) : Takes (some .want) v v []
  | want (v : View) (r : Role) : v.conn = some r → Takes (some .want) v { v with conn := some r.other } [.flip]
  | flip (v : View) : Takes (some .flip) v { v with conn := v.conn.map Role.other } []

theorem inv_after {s s' : Ctl} (hi : Inv s) {now : Nat} {x : Act} (hx : Named x) {st : Status} {out : List (Nat × Pkt)} {ev : List Ev}
    (h : step s now x = .ok st s' out ev) : Inv s' := by
  have := fits hi now x hx
  rw [h] at this
  exact this.1

theorem disconnect_moves {s s' : Ctl} {x : Nat} (ho : Only x s) (h r r' : Nat) {st : Status} {out : List (Nat × Pkt)} {ev : List Ev}
    (hs : disconnect s h r r' = .ok st s' out ev) :
    (s'.acl = s.acl ∧ s'.page = s.page ∧ s'.scan = s.scan ∧ s'.later = s.later ∧ s'.mask = s.mask ∧ sigs x out = []) ∨
    (roleWith s x ≠ none ∧ s'.acl = [] ∧ s'.page = s.page ∧ s'.scan = s.scan ∧ s'.later = s.later ∧ s'.mask = s.mask ∧
      sigs x out = [.gone]) := by
  unfold disconnect at hs
  split at hs
  · cases hs
    exact .inl ⟨rfl, rfl, rfl, rfl, rfl, sigs_none (by simp [kind])⟩
  · split at hs
    · simp only [refuse] at hs
      cases hs
      exact .inl ⟨rfl, rfl, rfl, rfl, rfl, rfl⟩
    · rename_i c hc
      right
      have hm := Conn.find_mem _ _ _ hc
      obtain ⟨k, d, h1, h2⟩ : ∃ k d, s.acl = [(k, d)] ∧ d.addr = x := by
        rcases ho.acl with h1 | h1
        · rw [h1] at hm
          cases hm
        · exact h1
      rw [h1, List.mem_singleton] at hm
      cases hm
      have hr : roleWith s x ≠ none := by
        rw [role_one h1 h2]
        nofun
      have he : erase s.acl h = [] := by
        rw [h1]
        simp [erase]
      split at hs
      · split at hs
        · cases hs
        · rename_i s1 h3
          obtain ⟨lm, rfl⟩ := endAcl_eq h3
          cases hs
          refine ⟨hr, he, rfl, rfl, rfl, rfl, ?_⟩
          rw [sigs_cons_none rfl, sigs_one (k := .gone) rfl (.inr h2)]
      · split at hs
        · cases hs
        · rename_i s1 h3
          obtain ⟨lm, rfl⟩ := endAcl_eq h3
          cases hs
          refine ⟨hr, he, rfl, rfl, rfl, rfl, ?_⟩
          rw [sigs_one (k := .gone) rfl (.inr h2)]

theorem dull {s s' : Ctl} {x now : Nat} {act : Act} {out : List (Nat × Pkt)} (ho : Only x s) (hi : Inv s') (h1 : s'.acl = s.acl)
    (h2 : s'.page = s.page) (h3 : s'.scan = s.scan) (h4 : s'.later = s.later) (h5 : s'.mask.testBit 3 = true)
    (h6 : sigs x out = []) : Only x s' ∧ Moves s now act (view x s) (view x s') (sigs x out) := by
  refine ⟨ho.of hi h1 h3 h4 h5, ?_⟩
  rw [view_same h1 h2 h3, h6]
  exact .same _ _ _ nofun

theorem none_one {q : Nat × Pkt} (h : kind q.2 = none) : ∀ x ∈ [q], kind x.2 = none := by
  intro x hx
  rw [List.mem_singleton] at hx
  rw [hx]
  exact h

theorem none_nil : ∀ x ∈ ([] : List (Nat × Pkt)), kind x.2 = none := nofun

theorem ask_moves {s s' : Ctl} {x now h : Nat} {act : Act} {q : Pkt} {st : Status} {out : List (Nat × Pkt)} {ev : List Ev} (ho : Only x s)
    (hi : Inv s') (hq : kind q = none) (hs : ask s h q = .ok st s' out ev) :
    Only x s' ∧ Moves s now act (view x s) (view x s') (sigs x out) := by
  unfold ask at hs
  split at hs
  · cases hs
    exact dull ho hi rfl rfl rfl rfl ho.mask rfl
  · cases hs
    exact dull ho hi rfl rfl rfl rfl ho.mask (sigs_none (none_one hq))

theorem setup_moves {s s' : Ctl} {x now h : Nat} {act : Act} {p : ConnParams} {sp lg : Bool} {st : Status} {out : List (Nat × Pkt)}
    {ev : List Ev} (ho : Only x s) (hi : Inv s') (hs : setupSync s h p sp lg = .ok st s' out ev) :
    Only x s' ∧ Moves s now act (view x s) (view x s') (sigs x out) := by
  unfold setupSync at hs
  split at hs
  · cases hs
    exact dull ho hi rfl rfl rfl rfl ho.mask rfl
  · split at hs
    · cases hs
      exact dull ho hi rfl rfl rfl rfl ho.mask rfl
    · split at hs
      · cases hs
      · rename_i s1 h1
        obtain ⟨sco, last, rfl⟩ := createSyn_eq h1
        cases hs
        exact dull ho hi rfl rfl rfl rfl ho.mask (sigs_none (none_one rfl))

theorem view_update {s s' : Ctl} {x h : Nat} {c d : Acl} (ha : s.acl = [(h, c)]) (hc : c.addr = x) (ha' : s'.acl = [(h, d)]) (hd : d.addr = x)
    (h2 : s'.page = s.page) (h3 : s'.scan = s.scan) : view x s' = { view x s with conn := some d.role } := by
  unfold view
  rw [role_one ha' hd, h2, h3]

theorem update_one {C : Type} {h : Nat} {c d : C} : update [(h, c)] h d = [(h, d)] := by
  simp [update]

theorem connect_eq {s s' : Ctl} {now a h : Nat} {role : Role} (hc : connect s now a role = .ok h s') :
    ∃ last lm, s' = { s with acl := (h, ⟨a, role, s.policy, now⟩) :: s.acl, lastAcl := last, lm := lm } := by
  unfold connect at hc
  split at hc
  · cases hc
  · split at hc
    · cases hc
    · cases hc
      exact ⟨_, _, rfl⟩

/-- Everything but the reception of packets. -/
theorem host_moves {s s' : Ctl} {x now : Nat} {act : Act} {st : Status} {out : List (Nat × Pkt)} {ev : List Ev} (ho : Only x s)
    (hx0 : x ≠ 0) (hn : Named act) (hp : ∀ src dst r p, act ≠ .packet src dst r p)
    (hr : ∀ a r, act = .cmd (.reject a r) → s.scan = none) (hm : ∀ m, act = .cmd (.setMask m) → m.testBit 3 = true)
    (h : step s now act = .ok st s' out ev) : Only x s' ∧ Moves s now act (view x s) (view x s') (sigs x out) := by
  have hi := inv_after ho.inv hn h
  cases act with
  | packet src dst r p => exact absurd rfl (hp src dst r p)
  | tick =>
    simp only [step] at h
    rw [tick_eq] at h
    injection h with h1 h2 h3 h4
    have hl : ({ s with later := [] } : Ctl) = s := by
      have := ho.later
      cases s
      cases this
      rfl
    rw [hl] at h2 h3
    obtain ⟨inq, hq⟩ := inquiring_same (paging s now).1 now
    rw [hq] at h2
    have hsr : (sendRejects s).1 = [] := by
      unfold sendRejects
      rw [ho.later]
      rfl
    have hin : sigs x (inquiring (paging s now).1 now).2.1 = [] := by
      apply sigs_none
      unfold inquiring
      (repeat' split) <;> first
        | exact none_nil
        | exact none_one rfl
    have hout : sigs x out = sigs x (paging s now).2.1 := by
      rw [← h3, sigs_append, sigs_append, hin, hsr, sigs_nil, List.nil_append, List.append_nil]
    have hsame : ∀ t : Ctl, s' = { t with inq := inq } → t = { s with page := t.page } → Only x s' := by
      intro t h5 h6
      refine ho.of hi ?_ ?_ ?_ ?_ <;> rw [h5, h6]
      exact ho.mask
    have hview : ∀ t : Ctl, s' = { t with inq := inq } → t = { s with page := t.page } →
        view x s' = { view x s with att := (t.page.filter (fun p => p.addr = x)).map Page.allow } := by
      intro t h5 h6
      rw [h5]
      unfold view roleWith
      rw [h6]
    have hpg : (paging s now).1 = { s with page := (paging s now).1.page } := by
      unfold paging
      (repeat' split) <;> rfl
    refine ⟨hsame _ h2.symm hpg, ?_⟩
    rw [hview _ h2.symm hpg, hout]
    unfold paging
    cases hp0 : s.page with
    | none =>
      simp only [hp0]
      rw [sigs_nil]
      have : (view x s) = { view x s with att := none } := by
        simp [view, hp0]
      refine Eq.mp (congrArg (fun v => Moves s now .tick (view x s) v []) ?_) (.same _ _ _ nofun)
      simp [view, hp0]
    | some p =>
      simp only []
      by_cases h5 : now ≥ p.timeout
      · rw [if_pos h5]
        exact .timeout _ ⟨p, hp0, h5⟩
      · rw [if_neg h5]
        by_cases h6 : now ≥ p.next ∧ ¬(s.scan.any (fun q => q.addr = p.addr) = true)
        · rw [if_pos h6]
          have hv : ({ view x s with att := ((some { p with next := now + 1000000000 }).filter (fun p => p.addr = x)).map Page.allow } : View) = view x s := by
            simp only [view, hp0, Option.filter]
            split <;> rfl
          simp only []
          rw [hv]
          have hp00 : p.addr ≠ 0 := (ho.inv.page p hp0).2
          by_cases h7 : p.addr = x
          · rw [sigs_one (k := .page p.allow) rfl (.inr h7)]
            refine .page _ _ ?_ ⟨p, hp0, by omega⟩
            simp [view, hp0, Option.filter, h7]
          · rw [sigs_far (by simp [h7, hp00])]
            exact .same _ _ _ nofun
        · rw [if_neg h6]
          simp only [hp0]
          rw [sigs_nil]
          refine Eq.mp (congrArg (fun v => Moves s now .tick (view x s) v []) ?_) (.same _ _ _ nofun)
          simp [view, hp0]
  | check k =>
    simp only [step, checkExpiring] at h
    split at h
    · cases h
      exact dull ho hi rfl rfl rfl rfl ho.mask rfl
    · split at h
      · rcases disconnect_moves ho k _ _ h with ⟨h1, h2, h3, h4, h5, h6⟩ | ⟨h0, h1, h2, h3, h4, h5, h6⟩
        · exact dull ho hi h1 h2 h3 h4 (by rw [h5]; exact ho.mask) h6
        · refine ⟨⟨hi, .inl h1, by rw [h3]; exact ho.scan, by rw [h4]; exact ho.later, by rw [h5]; exact ho.mask⟩, ?_⟩
          rw [h6]
          have : view x s' = { view x s with conn := none } := by
            unfold view
            rw [role_none h1, h2, h3]
          rw [this]
          exact .check _ _ h0
      · split at h
        · cases h
          exact dull ho hi rfl rfl rfl rfl ho.mask (sigs_none (none_one rfl))
        · cases h
          exact dull ho hi rfl rfl rfl rfl ho.mask rfl
  | cmd c =>
    simp only [step] at h
    cases c with
    | inquiry l n r =>
      simp only [command, startInquiry, refuse] at h
      (repeat' split at h) <;> cases h <;> exact dull ho hi rfl rfl rfl rfl ho.mask rfl
    | inquiryCancel =>
      simp only [command, cancelInquiry, refuse] at h
      (repeat' split at h) <;> cases h <;> exact dull ho hi rfl rfl rfl rfl ho.mask rfl
    | create a w =>
      simp only [command, createConnection, refuse] at h
      split at h
      · cases h
        exact dull ho hi rfl rfl rfl rfl ho.mask rfl
      · rename_i hpg
        have hpg' : s.page = none := by
          cases hp1 : s.page with
          | none => rfl
          | some p => simp [hp1] at hpg
        split at h
        · cases h
          exact dull ho hi rfl rfl rfl rfl ho.mask rfl
        · rename_i hac
          split at h
          · cases h
            exact dull ho hi rfl rfl rfl rfl ho.mask rfl
          · cases h
            refine ⟨ho.of hi rfl rfl rfl ho.mask, ?_⟩
            by_cases hax : a = x
            · subst hax
              have hv : view a { s with page := some ⟨a, w, now + 1000000000, now + s.pageTimeout * 625000⟩ } = { view a s with att := some w } := by
                simp [view, roleWith, Option.filter]
              rw [hv]
              refine .create _ _ _ _ ?_ ?_
              · rcases ho.acl with h1 | ⟨k, c, h1, h2⟩
                · exact role_none h1
                · exfalso
                  apply hac
                  rw [aclOf_isSome]
                  simp [peers, h1, h2]
              · simp [view, hpg']
            · have hv : view x { s with page := some ⟨a, w, now + 1000000000, now + s.pageTimeout * 625000⟩ } = view x s := by
                simp [view, roleWith, Option.filter, hax, hpg']
              rw [hv]
              exact .same _ _ _ nofun
    | cancel a =>
      simp only [command, cancelConnection, refuse] at h
      split at h
      · cases h
        exact dull ho hi rfl rfl rfl rfl ho.mask rfl
      · split at h
        · cases h
          exact dull ho hi rfl rfl rfl rfl ho.mask rfl
        · cases h
          exact ⟨ho.of hi rfl rfl rfl ho.mask, .cancel _ _⟩
    | accept a t =>
      simp only [command, acceptConnection, acceptPage, refuse] at h
      split at h
      · rename_i q hq
        have hq' : s.scan = some q := by
          rw [Option.filter_eq_some_iff] at hq
          exact hq.1
        split at h
        · cases h
          exact dull ho hi rfl rfl rfl rfl ho.mask rfl
        · rename_i hac
          split at h
          · cases h
          · cases h
          · rename_i k s1 hcn
            obtain ⟨last, lm, rfl⟩ := connect_eq hcn
            cases h
            have hqx := ho.scan q hq'
            have hnil : s.acl = [] := by
              rcases ho.acl with h1 | ⟨k, c, h1, h2⟩
              · exact h1
              · exfalso
                apply hac
                rw [aclOf_isSome]
                simp [peers, h1, h2, hqx]
            refine ⟨⟨hi, .inr ⟨k, ⟨q.addr, acceptorRole t q.allow, s.policy, now⟩, by simp [hnil], hqx⟩, nofun, ho.later, ho.mask⟩, ?_⟩
            have ho1 : sigs x [(q.addr, Pkt.pageRsp t)] = [.rsp t] := sigs_one rfl (.inr hqx)
            rw [ho1]
            have hv : ∀ s', s' = { s with acl := (k, ⟨q.addr, acceptorRole t q.allow, s.policy, now⟩) :: s.acl, lastAcl := last, lm := lm, scan := none, page := if s.page.any (fun r => r.addr = q.addr) then none else s.page } →
                view x s' = ⟨some (acceptorRole t q.allow), ((if s.page.any (fun r => r.addr = q.addr) then none else s.page).filter (fun p => p.addr = x)).map Page.allow, none⟩ := by
              rintro _ rfl
              simp [view, roleWith, hqx]
            rw [hv _ rfl]
            refine .accept _ _ _ _ _ (by simp [view, hq']) ?_ ?_
            · exact role_none hnil
            · intro h1
              split
              · rfl
              · exact h1
      · split at h
        · split at h
          · cases h
          · cases h
            exact dull ho hi rfl rfl rfl rfl ho.mask (sigs_none (none_one rfl))
        · cases h
          exact dull ho hi rfl rfl rfl rfl ho.mask rfl
    | reject a r =>
      have h1 := hr a r rfl
      simp [command, rejectConnection, refuse, h1] at h
      obtain ⟨-, rfl, rfl, -⟩ := h
      exact dull ho hi rfl rfl rfl rfl ho.mask rfl
    | disconnect k r =>
      rcases disconnect_moves ho k _ _ h with ⟨h1, h2, h3, h4, h5, h6⟩ | ⟨h0, h1, h2, h3, h4, h5, h6⟩
      · exact dull ho hi h1 h2 h3 h4 (by rw [h5]; exact ho.mask) h6
      · refine ⟨⟨hi, .inl h1, by rw [h3]; exact ho.scan, by rw [h4]; exact ho.later, by rw [h5]; exact ho.mask⟩, ?_⟩
        rw [h6]
        have : view x s' = { view x s with conn := none } := by
          unfold view
          rw [role_none h1, h2, h3]
        rw [this]
        exact .disconnect _ _ _ h0
    | switchRole a r =>
      simp only [command, switchRole, refuse] at h
      split at h
      · cases h
        exact dull ho hi rfl rfl rfl rfl ho.mask rfl
      · split at h
        · cases h
          exact dull ho hi rfl rfl rfl rfl ho.mask rfl
        · split at h
          · cases h
            refine ⟨ho, .same _ _ _ ?_⟩
            intro y hy
            simp only [sigs, List.filterMap_cons, List.filterMap_nil, sig, kind] at hy
            split at hy
            · cases hy
            · rename_i h1
              split at h1
              · injection h1 with h1
                subst h1
                rw [List.mem_singleton] at hy
                exact hy
              · cases h1
          · cases h
            exact dull ho hi rfl rfl rfl rfl ho.mask rfl
    | writePolicy k pol =>
      simp only [command, writePolicy, refuse] at h
      split at h
      · cases h
        exact dull ho hi rfl rfl rfl rfl ho.mask rfl
      · rename_i c hc
        split at h
        · cases h
          exact dull ho hi rfl rfl rfl rfl ho.mask rfl
        · cases h
          have hmem := Conn.find_mem _ _ _ hc
          rcases ho.acl with h1 | ⟨k', d, h1, h2⟩
          · rw [h1] at hmem
            cases hmem
          · rw [h1, List.mem_singleton] at hmem
            cases hmem
            have hu : update s.acl k { c with policy := pol } = [(k, { c with policy := pol })] := by
              rw [h1]
              exact update_one
            refine ⟨⟨hi, .inr ⟨k, _, hu, h2⟩, ho.scan, ho.later, ho.mask⟩, ?_⟩
            have hv : view x { s with acl := update s.acl k { c with policy := pol } } = view x s := by
              rw [view_update (s := s) h1 h2 (s' := { s with acl := update s.acl k { c with policy := pol } }) hu h2 rfl rfl]
              unfold view
              rw [role_one h1 h2]
            rw [hv]
            exact .same _ _ _ nofun
    | writeDefaultPolicy pol =>
      simp only [command, writeDefaultPolicy, refuse] at h
      (repeat' split at h) <;> cases h <;> exact dull ho hi rfl rfl rfl rfl ho.mask rfl
    | setupSync k p sp => exact setup_moves ho hi h
    | addSco k t => exact setup_moves ho hi h
    | acceptSync a p =>
      simp only [command, acceptSync, refuse] at h
      split at h
      · split at h
        · cases h
        · cases h
          exact dull ho hi rfl rfl rfl rfl ho.mask (sigs_none (none_one rfl))
      · cases h
        exact dull ho hi rfl rfl rfl rfl ho.mask rfl
    | rejectSync a r =>
      simp only [command, rejectSync, refuse] at h
      split at h
      · split at h
        · cases h
        · cases h
          exact dull ho hi rfl rfl rfl rfl ho.mask (sigs_none (none_one rfl))
      · cases h
        exact dull ho hi rfl rfl rfl rfl ho.mask rfl
    | writeScanEnable i p =>
      cases h
      exact dull ho hi rfl rfl rfl rfl ho.mask rfl
    | writePageTimeout t =>
      cases h
      exact dull ho hi rfl rfl rfl rfl ho.mask rfl
    | writeIac l =>
      cases h
      exact dull ho hi rfl rfl rfl rfl ho.mask rfl
    | writeInquiryMode m =>
      cases h
      exact dull ho hi rfl rfl rfl rfl ho.mask rfl
    | setMask m =>
      cases h
      exact dull ho hi rfl rfl rfl rfl (hm m rfl) rfl
    | setInfo i =>
      cases h
      exact dull ho hi rfl rfl rfl rfl ho.mask rfl
    | name a =>
      cases h
      refine dull ho hi rfl rfl rfl rfl ho.mask (sigs_none ?_)
      intro y hy
      rcases List.mem_cons.1 hy with h1 | h1
      · rw [h1]
        rfl
      · exact none_one rfl y h1
    | features k => exact ask_moves ho hi rfl h
    | ext k p => exact ask_moves ho hi rfl h
    | version k => exact ask_moves ho hi rfl h
    | extLocal p =>
      simp only [command] at h
      split at h
      · cases h
      · cases h
        exact dull ho hi rfl rfl rfl rfl ho.mask rfl
    | acl k pb bc d =>
      simp only [command, sendAcl] at h
      split at h
      · cases h
      · split at h
        · cases h
          exact dull ho hi rfl rfl rfl rfl ho.mask rfl
        · cases h
          exact dull ho hi rfl rfl rfl rfl ho.mask (sigs_none (none_one rfl))
    | sco k d =>
      simp only [command, sendSco, refuse] at h
      split at h
      · cases h
        exact dull ho hi rfl rfl rfl rfl ho.mask rfl
      · cases h
        exact dull ho hi rfl rfl rfl rfl ho.mask (sigs_none (none_one rfl))
    | reset =>
      simp only [command, reset] at h
      injection h with h1 h2 h3 h4
      subst h2 h3
      refine ⟨⟨hi, .inl rfl, nofun, ho.later, show Nat.testBit 0x00001fffffffffff 3 = true by decide⟩, ?_⟩
      have hsc : sigs x (s.sco.map (fun e => (e.2.addr, Pkt.scoDisc Status.remoteUserTerminated))) = [] := by
        apply sigs_none
        intro y hy
        rw [List.mem_map] at hy
        obtain ⟨e, _, rfl⟩ := hy
        rfl
      rw [sigs_append, hsc, List.nil_append]
      have hac : sigs x (s.acl.map (fun e => (e.2.addr, Pkt.disconnect Status.remoteUserTerminated))) = if (view x s).conn = none then [] else [.gone] := by
        rcases ho.acl with h1 | ⟨k, c, h1, h2⟩
        · have : (view x s).conn = none := role_none h1
          rw [h1, if_pos this]
          rfl
        · have : (view x s).conn = some c.role := role_one h1 h2
          rw [h1, this, if_neg nofun]
          exact sigs_one rfl (.inr h2)
      rw [hac]
      exact .reset _

theorem touch_only {s : Ctl} {x : Nat} (ho : Only x s) (now : Nat) : Only x (touch s now x) ∧ view x (touch s now x) = view x s := by
  have h1 := (touch_inv ho.inv now x).1
  unfold touch at h1 ⊢
  split
  · exact ⟨ho, rfl⟩
  · rename_i h c hf
    rw [hf] at h1
    have hm := (aclOf_some hf).1
    rcases ho.acl with h2 | ⟨k, d, h2, h3⟩
    · rw [h2] at hm
      cases hm
    · rw [h2, List.mem_singleton] at hm
      cases hm
      have hu : update s.acl h { c with last := now } = [(h, { c with last := now })] := by
        rw [h2]
        exact update_one
      refine ⟨⟨h1, .inr ⟨h, _, hu, h3⟩, ho.scan, ho.later, ho.mask⟩, ?_⟩
      rw [view_update (s := s) h2 h3 (s' := { s with acl := update s.acl h { c with last := now } }) hu h3 rfl rfl]
      unfold view
      rw [role_one h2 h3]

theorem takes_none {s s' : Ctl} {x : Nat} {out : List (Nat × Pkt)} (ho : Only x s) (hi : Inv s') (h1 : s'.acl = s.acl)
    (h2 : s'.page = s.page) (h3 : s'.scan = s.scan) (h4 : s'.later = s.later) (h5 : s'.mask = s.mask)
    (h6 : sigs x out = []) : Only x s' ∧ Takes none (view x s) (view x s') (sigs x out) := by
  refine ⟨ho.of hi h1 h3 h4 (by rw [h5]; exact ho.mask), ?_⟩
  rw [view_same h1 h2 h3, h6]
  exact .other _

theorem aclOf_role {s : Ctl} {x : Nat} (ho : Only x s) {k : Nat} {c : Acl} (h : aclOf s x = some (k, c)) :
    s.acl = [(k, c)] ∧ c.addr = x := by
  have hm := aclOf_some h
  rcases ho.acl with h2 | ⟨k', d, h2, h3⟩
  · rw [h2] at hm
    cases hm.1
  · rw [h2, List.mem_singleton] at hm
    cases hm.1
    exact ⟨h2, h3⟩

theorem aclOf_gone {s : Ctl} {x : Nat} (ho : Only x s) (h : aclOf s x = none) : s.acl = [] := by
  rcases ho.acl with h2 | ⟨k', d, h2, h3⟩
  · exact h2
  · have := aclOf_none.1 h
    simp [peers, h2, h3] at this

theorem report_takes {s s' : Ctl} {x code : Nat} {e : Nat → Ev} {st : Status} {out : List (Nat × Pkt)} {ev : List Ev} (ho : Only x s)
    (h : report s x code e = .ok st s' out ev) : Only x s' ∧ Takes none (view x s) (view x s') (sigs x out) := by
  unfold report at h
  split at h <;> cases h <;> exact takes_none ho ho.inv rfl rfl rfl rfl rfl rfl

theorem takes_want {s s' : Ctl} {x : Nat} {out : List (Nat × Pkt)} (ho : Only x s) {k : Nat} {c : Acl} (h1 : s.acl = [(k, c)]) (h2 : c.addr = x)
    (hi : Inv { s with acl := update s.acl k { c with role := c.role.other } }) (hs : s' = { s with acl := update s.acl k { c with role := c.role.other } }) :
    Only x s' ∧ view x s' = { view x s with conn := some c.role.other } := by
  have hu : update s.acl k { c with role := c.role.other } = [(k, { c with role := c.role.other })] := by
    rw [h1]
    exact update_one
  subst hs
  exact ⟨⟨hi, .inr ⟨k, _, hu, h2⟩, ho.scan, ho.later, ho.mask⟩,
    view_update (s := s) h1 h2 (s' := { s with acl := update s.acl k { c with role := c.role.other } }) hu h2 rfl rfl⟩

theorem dispatch_takes {s s' : Ctl} {x now rssi : Nat} {p : Pkt} {st : Status} {out : List (Nat × Pkt)} {ev : List Ev} (ho : Only x s)
    (hx0 : x ≠ 0) (hi : Inv s') (h : dispatch s now x rssi p = .ok st s' out ev) :
    Only x s' ∧ Takes (kind p) (view x s) (view x s') (sigs x out) := by
  cases p with
  | page cod w =>
    simp only [dispatch, onPage] at h
    have hu : unmasked s 0x04 = true := ho.mask
    split at h
    · cases h
      exact ⟨ho, .page _ _⟩
    · rw [hu, if_neg nofun] at h
      split at h
      · cases h
        exact ⟨ho, .page _ _⟩
      · rename_i ha
        split at h
        · cases h
          exact ⟨ho, .page _ _⟩
        · rename_i hsc
          cases h
          refine ⟨⟨hi, ho.acl, ?_, ho.later, ho.mask⟩, .request _ _ ?_ ?_⟩
          · intro q hq
            injection hq with hq
            rw [← hq]
          · refine role_none (aclOf_gone ho ?_)
            simpa using ha
          · have : s.scan = none := by simpa using hsc
            simp [view, this]
  | pageRsp t =>
    simp only [dispatch, onPageRsp] at h
    split at h
    · rename_i hp
      cases h
      exact ⟨ho, .rspIgnored _ _ (by simp [view, hp])⟩
    · rename_i p hp
      split at h
      · rename_i hne
        cases h
        refine ⟨ho, .rspIgnored _ _ ?_⟩
        have : ¬ p.addr = x := hne
        simp [view, hp, Option.filter, this]
      · rename_i hne
        have hpx : p.addr = x := Decidable.not_not.1 hne
        split at h
        · cases h
        · cases h
        · rename_i k s1 hcn
          obtain ⟨last, lm, rfl⟩ := connect_eq hcn
          cases h
          have hnil : s.acl = [] := by
            rcases ho.acl with h1 | ⟨k, c, h1, h2⟩
            · exact h1
            · have := (ho.inv.page p hp).1
              simp [peers, h1, h2, hpx] at this
          refine ⟨⟨hi, .inr ⟨k, ⟨x, pagerRole p.allow t, s.policy, now⟩, by simp [hnil], rfl⟩, ho.scan, ho.later, ho.mask⟩, ?_⟩
          have hv : ∀ s', s' = { s with acl := (k, ⟨x, pagerRole p.allow t, s.policy, now⟩) :: s.acl, lastAcl := last, lm := lm, page := none } →
              view x s' = { view x s with conn := some (pagerRole p.allow t), att := none } := by
            rintro _ rfl
            simp [view, roleWith]
          rw [hv _ rfl]
          exact .rsp t p.allow _ (by simp [view, hp, Option.filter, hpx])
  | pageReject r =>
    simp only [dispatch, onPageReject] at h
    split at h
    · rename_i hp
      cases h
      exact ⟨ho, .no _ (view x s).att (fun h => h)⟩
    · split at h
      · cases h
        exact ⟨ho, .no _ (view x s).att (fun h => h)⟩
      · cases h
        exact ⟨ho.of hi rfl rfl rfl ho.mask, .no _ none (fun _ => rfl)⟩
  | disconnect r =>
    simp only [dispatch, onDisconnect] at h
    split at h
    · rename_i ha
      cases h
      have hv : view x s = { view x s with conn := none } := by
        unfold view
        rw [role_none (aclOf_gone ho ha)]
      refine ⟨ho, ?_⟩
      have := Takes.gone (view x s)
      rw [← hv] at this
      exact this
    · rename_i k c ha
      obtain ⟨h1, h2⟩ := aclOf_role ho ha
      split at h
      · cases h
      · rename_i s1 h3
        obtain ⟨lm, rfl⟩ := endAcl_eq h3
        cases h
        have he : erase s.acl k = [] := by
          rw [h1]
          simp [erase]
        refine ⟨⟨hi, .inl he, ho.scan, ho.later, ho.mask⟩, ?_⟩
        have hv : view x { s with acl := erase s.acl k, lm := lm } = { view x s with conn := none } := by
          simp [view, roleWith, he]
        rw [hv]
        exact .gone _
  | roleReq =>
    simp only [dispatch, onRoleReq] at h
    split at h
    · cases h
      exact ⟨ho, .wantIgnored _⟩
    · rename_i k c ha
      obtain ⟨h1, h2⟩ := aclOf_role ho ha
      split at h
      · cases h
        have : sigs x [(x, Pkt.roleRsp Status.roleChangeNotAllowed)] = [] := sigs_none (none_one rfl)
        rw [this]
        exact ⟨ho, .wantIgnored _⟩
      · cases h
        obtain ⟨h3, h4⟩ := takes_want (out := []) ho h1 h2 hi rfl
        refine ⟨h3, ?_⟩
        rw [h4, sigs_one (k := .flip) rfl (.inr rfl)]
        exact .want _ _ (role_one h1 h2)
  | roleRsp st' =>
    simp only [dispatch, onRoleRsp] at h
    by_cases hst : st' = 0
    · subst hst
      have hk : kind (.roleRsp 0) = some .flip := rfl
      rw [hk]
      split at h
      · rename_i ha
        cases h
        have hv : view x s = { view x s with conn := (view x s).conn.map Role.other } := by
          unfold view
          rw [role_none (aclOf_gone ho ha)]
          rfl
        refine ⟨ho, ?_⟩
        have := Takes.flip (view x s)
        rw [← hv] at this
        exact this
      · rename_i k c ha
        obtain ⟨h1, h2⟩ := aclOf_role ho ha
        rw [if_neg (by simp [Status.success])] at h
        cases h
        obtain ⟨h3, h4⟩ := takes_want (out := []) ho h1 h2 hi rfl
        refine ⟨h3, ?_⟩
        have : (view x s).conn = some c.role := role_one h1 h2
        have hf := Takes.flip (view x s)
        rw [this] at hf
        rw [h4, sigs_nil]
        exact hf
    · have hk : kind (.roleRsp st') = none := if_neg hst
      rw [hk]
      split at h
      · cases h
        exact takes_none ho hi rfl rfl rfl rfl rfl rfl
      · rw [if_pos (by simpa [Status.success] using hst)] at h
        cases h
        exact takes_none ho hi rfl rfl rfl rfl rfl rfl
  | scoReq p cod =>
    simp only [dispatch, onScoReq] at h
    split at h
    · cases h
      exact takes_none ho hi rfl rfl rfl rfl rfl (sigs_none (none_one rfl))
    · split at h
      · cases h
      · rename_i s1 h1
        obtain ⟨sco, last, rfl⟩ := createSyn_eq h1
        cases h
        exact takes_none ho hi rfl rfl rfl rfl rfl rfl
  | scoRsp st l =>
    simp only [dispatch, onScoRsp] at h
    (repeat' split at h) <;> cases h <;> exact takes_none ho hi rfl rfl rfl rfl rfl rfl
  | scoDisc r =>
    simp only [dispatch, onScoDisc] at h
    (repeat' split at h) <;> cases h <;> exact takes_none ho hi rfl rfl rfl rfl rfl rfl
  | lmp ok =>
    simp only [dispatch] at h
    (repeat' split at h) <;> cases h <;> exact takes_none ho hi rfl rfl rfl rfl rfl rfl
  | ping =>
    cases h
    exact takes_none ho hi rfl rfl rfl rfl rfl (sigs_none (none_one rfl))
  | pong =>
    cases h
    exact takes_none ho hi rfl rfl rfl rfl rfl rfl
  | inquiry t l =>
    simp only [dispatch, onInquiry] at h
    (repeat' split at h) <;> cases h <;> first
      | exact takes_none ho hi rfl rfl rfl rfl rfl rfl
      | exact takes_none ho hi rfl rfl rfl rfl rfl (sigs_none (none_one rfl))
  | inqRsp t cod r eir =>
    simp only [dispatch, onInqRsp] at h
    (repeat' split at h) <;> cases h <;> exact takes_none ho hi rfl rfl rfl rfl rfl rfl
  | acl pb bc d =>
    simp only [dispatch, onAcl] at h
    (repeat' split at h) <;> cases h <;> exact takes_none ho hi rfl rfl rfl rfl rfl rfl
  | sco d =>
    simp only [dispatch, onSco] at h
    (repeat' split at h) <;> cases h <;> exact takes_none ho hi rfl rfl rfl rfl rfl rfl
  | nameReq =>
    cases h
    exact takes_none ho hi rfl rfl rfl rfl rfl (sigs_none (none_one rfl))
  | nameRsp n =>
    cases h
    exact takes_none ho hi rfl rfl rfl rfl rfl rfl
  | hostFeaturesReq =>
    cases h
    exact takes_none ho hi rfl rfl rfl rfl rfl (sigs_none (none_one rfl))
  | hostFeaturesRsp n =>
    cases h
    exact takes_none ho hi rfl rfl rfl rfl rfl rfl
  | featuresReq =>
    cases h
    exact takes_none ho hi rfl rfl rfl rfl rfl (sigs_none (none_one rfl))
  | featuresRsp f => exact report_takes ho h
  | extReq p =>
    simp only [dispatch, onExtReq] at h
    split at h <;> cases h
    exact takes_none ho hi rfl rfl rfl rfl rfl (sigs_none (none_one rfl))
  | extRsp st p m f => exact report_takes ho h
  | versionReq =>
    cases h
    exact takes_none ho hi rfl rfl rfl rfl rfl (sigs_none (none_one rfl))
  | versionRsp v sub c => exact report_takes ho h

/-- The reception of a packet of the peer. -/
theorem packet_takes {s s' : Ctl} {x now d rssi : Nat} {p : Pkt} {st : Status} {out : List (Nat × Pkt)} {ev : List Ev} (ho : Only x s)
    (hx0 : x ≠ 0) (h : incoming s now x d rssi p = .ok st s' out ev) :
    Only x s' ∧ Takes (sig s.addr (d, p)) (view x s) (view x s') (sigs x out) := by
  have hi : Inv s' := inv_after ho.inv (x := .packet x d rssi p) hx0 h
  simp only [incoming] at h
  by_cases hd : d ≠ 0 ∧ d ≠ s.addr
  · rw [if_pos hd] at h
    cases h
    have : sig s.addr (d, p) = none := if_neg (fun h => h.elim hd.1 hd.2)
    rw [this]
    exact ⟨ho, .other _⟩
  · rw [if_neg hd] at h
    have : sig s.addr (d, p) = kind p := if_pos (by
      by_cases h0 : d = 0
      · exact .inl h0
      · exact .inr (Decidable.not_not.1 (fun h1 => hd ⟨h0, h1⟩)))
    rw [this]
    obtain ⟨h1, h2⟩ := touch_only ho now
    rw [← h2]
    exact dispatch_takes h1 hx0 hi h

end Verif.Br
