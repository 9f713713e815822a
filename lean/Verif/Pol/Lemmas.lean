import Verif.Pol.Model
import Verif.Pol.Spec
import Verif.Br.PairLemmas
/-!
# What becomes of the settings of a connection in one step
-/
namespace Verif.Pol
open Verif.Br (Ctl Cmd Ev Act Pkt Res Role Acl Inv Named Status tell unmasked update aclOf)
open Verif.Conn (Table find erase keys)

variable {C : Type}

theorem find_update (t : Table C) (h k : Nat) (c : C) :
    find (update t h c) k = if k = h then (find t h).map (fun _ => c) else find t k := by
  induction t with
  | nil => simp [update, find]
  | cons e t ih =>
    obtain ⟨j, d⟩ := e
    simp only [update, List.map_cons] at ih ⊢
    by_cases hj : j = h
    · subst hj
      by_cases hk : j = k
      · simp [find, hk]
      · have hk' : k ≠ j := fun e => hk e.symm
        simp only [if_true, find, hk, if_false, ih, hk']
    · by_cases hk : k = h
      · subst hk
        simp only [hj, if_false, find, ih, if_true]
      · simp only [hj, if_false, find, ih, hk]

theorem find_erase (t : Table C) (h k : Nat) : find (erase t h) k = if k = h then none else find t k := by
  induction t with
  | nil => simp [erase, find]
  | cons e t ih =>
    obtain ⟨j, d⟩ := e
    by_cases hj : j = h
    · have e1 : erase ((j, d) :: t) h = erase t h := by simp [erase, hj]
      rw [e1, ih]
      by_cases hk : k = h
      · simp [hk]
      · have hk' : j ≠ k := fun e => hk (e ▸ hj)
        simp only [hk, if_false]
        rw [find]
        simp [hk']
    · have e1 : erase ((j, d) :: t) h = (j, d) :: erase t h := by simp [erase, hj]
      rw [e1, find, find, ih]
      by_cases hk : j = k
      · subst hk
        simp [hj]
      · simp [hk]

/-- What one step may do to the settings of the connections. -/
structure Kept (s s' : Ctl) (x : Act) (st : Nat) (ev : List Ev) : Prop where
  conn : ∀ h c', find s'.acl h = some c' →
    (∃ c, find s.acl h = some c ∧ c'.addr = c.addr ∧
      (c'.policy = c.policy ∨ (x = .cmd (.writePolicy h c'.policy) ∧ st = 0)) ∧
      (c'.role = c.role ∨ (unmasked s 0x12 = true → Ev.roleChange 0 c.addr c'.role ∈ ev))) ∨
    (find s.acl h = none ∧ c'.policy = s.policy)
  dflt : s'.policy = s.policy ∨ (x = .cmd (.writeDefaultPolicy s'.policy) ∧ st = 0) ∨ x = .cmd .reset
  told : ∀ a r, Ev.roleChange 0 a r ∈ ev → ∀ h c', find s'.acl h = some c' → c'.addr = a → c'.role = r

theorem Kept.same {s s' : Ctl} {x : Act} {st : Nat} {ev : List Ev} (h1 : s'.acl = s.acl) (h2 : s'.policy = s.policy)
    (h3 : ∀ a r, Ev.roleChange 0 a r ∉ ev) : Kept s s' x st ev :=
  ⟨fun h c' hf => Or.inl ⟨c', by rw [← h1]; exact hf, rfl, Or.inl rfl, Or.inl rfl⟩, Or.inl h2, fun a r hm => absurd hm (h3 a r)⟩

theorem Kept.gone {s s' : Ctl} {x : Act} {st h : Nat} {ev : List Ev} (h1 : s'.acl = erase s.acl h) (h2 : s'.policy = s.policy)
    (h3 : ∀ a r, Ev.roleChange 0 a r ∉ ev) : Kept s s' x st ev := by
  refine ⟨fun k c' hf => Or.inl ⟨c', ?_, rfl, Or.inl rfl, Or.inl rfl⟩, Or.inl h2, fun a r hm => absurd hm (h3 a r)⟩
  rw [h1, find_erase] at hf
  split at hf
  · cases hf
  · exact hf

theorem tell_mem {s : Ctl} {code : Nat} {e e' : Ev} (h : e' ∈ tell s code e) : e' = e := by
  unfold tell at h
  split at h
  · simpa using h
  · cases h

theorem tell_not {s : Ctl} {code : Nat} {e : Ev} (he : ∀ a r, e ≠ Ev.roleChange 0 a r) : ∀ a r, Ev.roleChange 0 a r ∉ tell s code e :=
  fun a r h => he a r (tell_mem h).symm

/-- The end of an ACL connection. -/
theorem disconnect_kept {s s' : Ctl} {h r r' : Nat} {st : Nat} {out : List (Nat × Pkt)} {ev : List Ev} (x : Act)
    (hs : Br.disconnect s h r r' = .ok st s' out ev) : Kept s s' x st ev := by
  unfold Br.disconnect at hs
  split at hs
  · cases hs
    exact Kept.same rfl rfl (tell_not nofun)
  · split at hs
    · cases hs
      exact Kept.same rfl rfl nofun
    · split at hs
      · split at hs
        · cases hs
        · rename_i h3
          obtain ⟨lm, rfl⟩ := Br.endAcl_eq h3
          cases hs
          refine Kept.gone rfl rfl ?_
          intro a r hm
          rcases List.mem_append.mp hm with hm | hm
          · exact tell_not (by intro a r h; cases h) a r hm
          · exact tell_not (by intro a r h; cases h) a r hm
      · split at hs
        · cases hs
        · rename_i h3
          obtain ⟨lm, rfl⟩ := Br.endAcl_eq h3
          cases hs
          exact Kept.gone rfl rfl (tell_not nofun)

theorem setup_kept {s s' : Ctl} {h : Nat} {p : Sco.ConnParams} {sp lg : Bool} {st : Nat} {out : List (Nat × Pkt)} {ev : List Ev} (x : Act)
    (hs : Br.setupSync s h p sp lg = .ok st s' out ev) : Kept s s' x st ev := by
  unfold Br.setupSync at hs
  split at hs
  · cases hs
    exact Kept.same rfl rfl nofun
  · split at hs
    · cases hs
      exact Kept.same rfl rfl nofun
    · split at hs
      · cases hs
      · rename_i s1 h1
        obtain ⟨sco, last, rfl⟩ := Br.createSyn_eq h1
        cases hs
        exact Kept.same rfl rfl nofun

/-- A new connection. -/
theorem connect_kept {s s1 s' : Ctl} {now a h : Nat} {role : Role} (hi : Inv s) (ha : a ∉ Br.peers s) (x : Act) {st : Nat} {ev : List Ev}
    (hc : Br.connect s now a role = .ok h s1) (h1 : s'.acl = s1.acl) (h2 : s'.policy = s1.policy)
    (h3 : ∀ b r, Ev.roleChange 0 b r ∈ ev → b = a ∧ r = role) : Kept s s' x st ev := by
  have hfree : find s.acl h = none := by
    unfold Br.connect at hc
    split at hc
    · cases hc
    · rename_i k last hg
      split at hc
      · cases hc
      · cases hc
        rw [Conn.find_none_iff]
        exact (Conn.unused_some _ _ _ _ (by simp [Conn.aclStart]) (by simpa [Conn.aclEnd] using hi.last) _ _ hg).1
  obtain ⟨last, lm, rfl⟩ := Br.connect_eq hc
  refine ⟨?_, Or.inl h2, ?_⟩
  · intro k c' hf
    rw [h1] at hf
    simp only [find] at hf
    split at hf
    · rename_i e
      cases hf
      exact Or.inr ⟨e ▸ hfree, rfl⟩
    · exact Or.inl ⟨c', hf, rfl, Or.inl rfl, Or.inl rfl⟩
  · intro b r hm k c' hf hb
    obtain ⟨rfl, rfl⟩ := h3 b r hm
    rw [h1] at hf
    simp only [find] at hf
    split at hf
    · cases hf
      rfl
    · have := Conn.find_mem _ _ _ hf
      exact absurd (hb ▸ List.mem_map.mpr ⟨(k, c'), this, rfl⟩) ha

theorem command_kept {s s' : Ctl} {now : Nat} {c : Cmd} {st : Nat} {out : List (Nat × Pkt)} {ev : List Ev} (hi : Inv s)
    (h : Br.command s now c = .ok st s' out ev) : Kept s s' (.cmd c) st ev := by
  cases c with
  | disconnect k r => exact disconnect_kept _ h
  | setupSync k p sp => exact setup_kept _ h
  | addSco k t => exact setup_kept _ h
  | accept a t =>
    simp only [Br.command, Br.acceptConnection, Br.acceptPage, Br.refuse] at h
    split at h
    · split at h
      · cases h
        exact Kept.same rfl rfl nofun
      · rename_i hnone
        split at h
        · cases h
        · cases h
        · rename_i k s1 hcn
          cases h
          refine connect_kept hi (fun hm => hnone (Br.aclOf_isSome.mpr hm)) _ hcn rfl rfl ?_
          intro b r hm
          rcases List.mem_append.mp hm with hm | hm
          · split at hm
            · rename_i e
              have := tell_mem hm
              cases this
              exact ⟨rfl, e.symm⟩
            · cases hm
          · exact absurd (tell_mem hm) nofun
    · split at h
      · split at h
        · cases h
        · cases h
          exact Kept.same rfl rfl (tell_not nofun)
      · cases h
        exact Kept.same rfl rfl nofun
  | writePolicy k v =>
    simp only [Br.command, Br.writePolicy, Br.refuse] at h
    split at h
    · cases h
      exact Kept.same rfl rfl nofun
    · rename_i c hf
      split at h
      · cases h
        exact Kept.same rfl rfl nofun
      · cases h
        refine ⟨?_, Or.inl rfl, nofun⟩
        intro j c' hj
        simp only [find_update] at hj
        split at hj
        · rename_i e
          subst e
          rw [hf] at hj
          cases hj
          exact Or.inl ⟨c, hf, rfl, Or.inr ⟨rfl, rfl⟩, Or.inl rfl⟩
        · exact Or.inl ⟨c', hj, rfl, Or.inl rfl, Or.inl rfl⟩
  | writeDefaultPolicy v =>
    simp only [Br.command, Br.writeDefaultPolicy, Br.refuse] at h
    split at h
    · cases h
      exact Kept.same rfl rfl nofun
    · cases h
      exact ⟨fun h c' hf => Or.inl ⟨c', hf, rfl, Or.inl rfl, Or.inl rfl⟩, Or.inr (Or.inl ⟨rfl, rfl⟩), nofun⟩
  | reset =>
    simp only [Br.command, Br.reset] at h
    cases h
    exact ⟨nofun, Or.inr (Or.inr rfl), nofun⟩
  | switchRole a r =>
    simp only [Br.command, Br.switchRole, Br.refuse] at h
    split at h
    · cases h
      exact Kept.same rfl rfl nofun
    · split at h
      · cases h
        exact Kept.same rfl rfl nofun
      · split at h
        · cases h
          exact Kept.same rfl rfl nofun
        · cases h
          exact Kept.same rfl rfl (tell_not nofun)
  | cancel a =>
    simp only [Br.command, Br.cancelConnection, Br.refuse] at h
    (repeat' split at h) <;> cases h
    · exact Kept.same rfl rfl nofun
    · exact Kept.same rfl rfl nofun
    · exact Kept.same rfl rfl (tell_not nofun)
  | acceptSync a p =>
    simp only [Br.command, Br.acceptSync, Br.refuse, Br.syncEvent] at h
    (repeat' split at h) <;> cases h <;> exact Kept.same rfl rfl (by first | (intro a r hm; cases hm; done) | exact tell_not (by intro a r e; cases e) | (intro a r hm; simp at hm; done))
  | rejectSync a r =>
    simp only [Br.command, Br.rejectSync, Br.refuse] at h
    (repeat' split at h) <;> cases h <;> exact Kept.same rfl rfl (by first | (intro a r hm; cases hm; done) | exact tell_not (by intro a r e; cases e) | (intro a r hm; simp at hm; done))
  | _ =>
    simp only [Br.command, Br.startInquiry, Br.cancelInquiry, Br.createConnection, Br.rejectConnection, Br.ask, Br.sendAcl, Br.sendSco, Br.refuse] at h
    (repeat' split at h) <;> cases h <;> exact Kept.same rfl rfl (by first | (intro a r hm; cases hm; done) | exact tell_not (by intro a r e; cases e) | (intro a r hm; simp at hm; done))

theorem addr_unique {s : Ctl} (hi : Inv s) {h k : Nat} {c d : Acl} (h1 : find s.acl h = some c) (h2 : find s.acl k = some d)
    (he : c.addr = d.addr) : h = k := by
  have m1 := Conn.find_mem _ _ _ h1
  have m2 := Conn.find_mem _ _ _ h2
  have hn := hi.nodup
  unfold Br.peers at hn
  have key : ∀ (l : Table Acl), (l.map (fun e => e.2.addr)).Nodup → (h, c) ∈ l → (k, d) ∈ l → h = k := by
    intro l
    induction l with
    | nil => intro _ h _; cases h
    | cons e l ih =>
      intro hn m1 m2
      rw [List.map_cons, List.nodup_cons] at hn
      rcases List.mem_cons.mp m1 with rfl | m1' <;> rcases List.mem_cons.mp m2 with e2 | m2
      · cases e2; rfl
      · exact absurd (List.mem_map.mpr ⟨(k, d), m2, he.symm⟩) hn.1
      · subst e2; exact absurd (List.mem_map.mpr ⟨(h, c), m1', he⟩) hn.1
      · exact ih hn.2 m1' m2
  exact key s.acl hn m1 m2

/-- The role of the connection with a peer is changed. -/
theorem turned_kept {s s' : Ctl} (hi : Inv s) {src h : Nat} {c : Acl} (hf : aclOf s src = some (h, c)) (x : Act) {st : Nat} {ev : List Ev}
    (h1 : s'.acl = update s.acl h { c with role := c.role.other }) (h2 : s'.policy = s.policy)
    (h3 : ev = tell s 0x12 (.roleChange 0 src c.role.other)) : Kept s s' x st ev := by
  obtain ⟨hm, ha⟩ := Br.aclOf_some hf
  have hk := (Br.mem_acl hi).mp hm
  refine ⟨?_, Or.inl h2, ?_⟩
  · intro j c' hj
    rw [h1, find_update] at hj
    split at hj
    · rename_i e
      subst e
      rw [hk] at hj
      cases hj
      refine Or.inl ⟨c, hk, rfl, Or.inl rfl, Or.inr ?_⟩
      intro hu
      rw [h3, ha]
      simp [tell, hu]
    · exact Or.inl ⟨c', hj, rfl, Or.inl rfl, Or.inl rfl⟩
  · intro a r hm' j c' hj hb
    rw [h3] at hm'
    have := tell_mem hm'
    cases this
    rw [h1, find_update] at hj
    split at hj
    · rw [hk] at hj
      cases hj
      rfl
    · rename_i hne
      exact absurd (addr_unique hi hj hk (hb.trans ha.symm)) hne

theorem dispatch_kept {s s' : Ctl} {now src rssi : Nat} {p : Pkt} {st : Nat} {out : List (Nat × Pkt)} {ev : List Ev} (hi : Inv s)
    (x : Act) (h : Br.dispatch s now src rssi p = .ok st s' out ev) : Kept s s' x st ev := by
  cases p with
  | disconnect r =>
    simp only [Br.dispatch, Br.onDisconnect] at h
    split at h
    · cases h
      exact Kept.same rfl rfl nofun
    · split at h
      · cases h
      · rename_i h3
        obtain ⟨lm, rfl⟩ := Br.endAcl_eq h3
        cases h
        exact Kept.gone rfl rfl (tell_not nofun)
  | pageRsp t =>
    simp only [Br.dispatch, Br.onPageRsp] at h
    split at h
    · cases h
      exact Kept.same rfl rfl nofun
    · rename_i p hp
      split at h
      · cases h
        exact Kept.same rfl rfl nofun
      · rename_i e
        have e : p.addr = src := Classical.not_not.mp e
        split at h
        · cases h
        · cases h
        · rename_i k s1 hcn
          cases h
          refine connect_kept hi (e ▸ (hi.page p hp).1) _ hcn rfl rfl ?_
          intro b r hm
          rcases List.mem_append.mp hm with hm | hm
          · split at hm
            · rename_i e
              have := tell_mem hm
              cases this
              exact ⟨rfl, e.symm⟩
            · cases hm
          · exact absurd (tell_mem hm) nofun
  | scoReq p cod =>
    simp only [Br.dispatch, Br.onScoReq] at h
    split at h
    · cases h
      exact Kept.same rfl rfl nofun
    · split at h
      · cases h
      · rename_i s1 h1
        obtain ⟨sco, last, rfl⟩ := Br.createSyn_eq h1
        cases h
        exact Kept.same rfl rfl (by intro a r hm; simp at hm)
  | roleReq =>
    simp only [Br.dispatch, Br.onRoleReq] at h
    split at h
    · cases h
      exact Kept.same rfl rfl nofun
    · rename_i k c hf
      split at h
      · cases h
        exact Kept.same rfl rfl nofun
      · cases h
        exact turned_kept hi hf _ rfl rfl rfl
  | roleRsp q =>
    simp only [Br.dispatch, Br.onRoleRsp] at h
    split at h
    · cases h
      exact Kept.same rfl rfl nofun
    · rename_i k c hf
      split at h
      · rename_i hq
        cases h
        refine Kept.same rfl rfl (tell_not ?_)
        intro a r e
        cases e
        exact hq rfl
      · rename_i hq
        have hq : q = 0 := Classical.not_not.mp hq
        cases h
        exact turned_kept hi hf _ rfl rfl (by rw [hq])
  | scoRsp q l =>
    simp only [Br.dispatch, Br.onScoRsp, Br.syncEvent] at h
    (repeat' split at h) <;> cases h <;> exact Kept.same rfl rfl (by first | (intro a r hm; cases hm; done) | exact tell_not (by intro a r e; cases e) | (intro a r hm; simp at hm; done))
  | _ =>
    simp only [Br.dispatch, Br.onPage, Br.onPageReject, Br.onScoDisc, Br.onInquiry, Br.onInqRsp, Br.onAcl, Br.onSco, Br.report, Br.onExtReq] at h
    (repeat' split at h) <;> cases h <;>
      exact Kept.same rfl rfl (by first | (intro a r hm; cases hm; done) | exact tell_not (by intro a r e; cases e) | (intro a r hm; simp at hm; done))

theorem tick_kept {s s' : Ctl} {now : Nat} {st : Nat} {out : List (Nat × Pkt)} {ev : List Ev}
    (h : Br.tick s now = .ok st s' out ev) : Kept s s' .tick st ev := by
  rw [Br.tick_eq] at h
  obtain ⟨inq, h3⟩ := Br.inquiring_same (Br.paging { s with later := [] } now).1 now
  obtain ⟨page, h4, -⟩ := Br.paging_same { s with later := [] } now
  cases h
  refine Kept.same (by rw [h3, h4]) (by rw [h3, h4]) ?_
  intro a r hm
  rcases List.mem_append.mp hm with hm | hm
  · rcases List.mem_append.mp hm with hm | hm
    · simp only [Br.sendRejects, List.mem_flatMap] at hm
      obtain ⟨x, -, hx⟩ := hm
      exact absurd (tell_mem hx) nofun
    · unfold Br.paging at hm
      split at hm
      · cases hm
      · split at hm
        · simp at hm
        · split at hm <;> cases hm
  · generalize (Br.paging { s with later := [] } now).1 = s1 at hm
    unfold Br.inquiring at hm
    split at hm
    · cases hm
    · split at hm
      · exact absurd (tell_mem hm) nofun
      · split at hm <;> cases hm

/-- The link timer does not matter. -/
theorem touch_find {s : Ctl} (hi : Inv s) (now src h : Nat) :
    (find (Br.touch s now src).acl h = none ↔ find s.acl h = none) ∧
    ∀ c', find (Br.touch s now src).acl h = some c' →
      ∃ c, find s.acl h = some c ∧ c'.addr = c.addr ∧ c'.policy = c.policy ∧ c'.role = c.role := by
  unfold Br.touch
  split
  · exact ⟨Iff.rfl, fun c' hf => ⟨c', hf, rfl, rfl, rfl⟩⟩
  · rename_i k c hf
    have hk := (Br.mem_acl hi).mp (Br.aclOf_some hf).1
    simp only [find_update]
    constructor
    · split
      · rename_i e
        subst e
        simp [hk]
      · exact Iff.rfl
    · intro c' hc
      split at hc
      · rename_i e
        subst e
        rw [hk] at hc
        cases hc
        exact ⟨c, hk, rfl, rfl, rfl⟩
      · exact ⟨c', hc, rfl, rfl, rfl⟩

theorem step_kept {s s' : Ctl} {now : Nat} {x : Act} {st : Nat} {out : List (Nat × Pkt)} {ev : List Ev} (hi : Inv s)
    (h : Br.step s now x = .ok st s' out ev) : Kept s s' x st ev := by
  cases x with
  | cmd c => exact command_kept hi h
  | tick => exact tick_kept h
  | check k =>
    simp only [Br.step, Br.checkExpiring] at h
    split at h
    · cases h
      exact Kept.same rfl rfl nofun
    · split at h
      · exact disconnect_kept _ h
      · split at h <;> cases h <;> exact Kept.same rfl rfl nofun
  | packet src dst r p =>
    simp only [Br.step, Br.incoming] at h
    split at h
    · cases h
      exact Kept.same rfl rfl nofun
    · have hk := dispatch_kept (Br.touch_inv hi now src).1 (.packet src dst r p) h
      have e := Br.touch_eq s now src
      refine ⟨?_, ?_, hk.told⟩
      · intro j c' hj
        rcases hk.conn j c' hj with ⟨c, h1, h2, h3, h4⟩ | ⟨h1, h2⟩
        · obtain ⟨c0, g1, g2, g3, g4⟩ := (touch_find hi now src j).2 c h1
          refine Or.inl ⟨c0, g1, h2.trans g2, ?_, ?_⟩
          · rw [← g3]; exact h3
          · rw [← g2, ← g4]
            rcases h4 with h4 | h4
            · exact Or.inl h4
            · refine Or.inr fun hu => h4 ?_
              rw [e]
              exact hu
        · exact Or.inr ⟨(touch_find hi now src j).1.mp h1, by rw [e] at h2; exact h2⟩
      · have := hk.dflt
        rw [e] at this
        exact this

/-! ## Histories -/

/-- A step is one of the `Br` component, or leaves its state alone. -/
theorem pstep_cases {p : P} {now : Nat} {a : PAct} {o : Out} (h : pstep p now a = some o) :
    (part a = none ∧ o.p.c = p.c ∧ o.p.rssi = p.rssi ∧ ∀ e, PEv.base e ∉ o.ev) ∨
    ∃ x ev, part a = some x ∧ Br.step p.c now x = .ok o.reply.status o.p.c o.out ev ∧ o.ev = ev.map .base ∧
      o.p.rssi = rssiAfter p o.p.c x ∧ o.p.le = (if x = .cmd .reset then [] else p.le) ∧ o.p.oob = (if x = .cmd .reset then 1 else p.oob) := by
  have hrest : ∀ x, rest p now x = some o → ∃ ev, Br.step p.c now x = .ok o.reply.status o.p.c o.out ev ∧ o.ev = ev.map .base ∧
      o.p.rssi = rssiAfter p o.p.c x ∧ o.p.le = (if x = .cmd .reset then [] else p.le) ∧ o.p.oob = (if x = .cmd .reset then 1 else p.oob) := by
    intro x hx
    unfold rest at hx
    split at hx
    · rename_i st c' out ev hs
      cases hx
      exact ⟨ev, hs, rfl, rfl, rfl, rfl⟩
    · cases hx
  have hsay : ∀ st vals, say p st vals = some o → o.p.c = p.c ∧ o.p.rssi = p.rssi ∧ ∀ e, PEv.base e ∉ o.ev := by
    intro st vals hx
    cases hx
    exact ⟨rfl, rfl, nofun⟩
  have hacl : ∀ k vals f, (∀ c, f c = some o → o.p.c = p.c ∧ o.p.rssi = p.rssi ∧ ∀ e, PEv.base e ∉ o.ev) → onAcl p k vals f = some o →
      o.p.c = p.c ∧ o.p.rssi = p.rssi ∧ ∀ e, PEv.base e ∉ o.ev := by
    intro k vals f hf hx
    unfold onAcl at hx
    split at hx
    · exact hsay _ _ hx
    · exact hf _ hx
  have hle : ∀ k vals f, (∀ c, f c = some o → o.p.c = p.c ∧ o.p.rssi = p.rssi ∧ ∀ e, PEv.base e ∉ o.ev) → onLe p k vals f = some o →
      o.p.c = p.c ∧ o.p.rssi = p.rssi ∧ ∀ e, PEv.base e ∉ o.ev := by
    intro k vals f hf hx
    unfold onLe at hx
    split at hx
    · exact hsay _ _ hx
    · exact hf _ hx
  cases a with
  | bredr x =>
    obtain ⟨ev, h1⟩ := hrest x h
    exact Or.inr ⟨x, ev, rfl, h1⟩
  | le x =>
    cases h
    exact Or.inl ⟨rfl, rfl, rfl, nofun⟩
  | host c =>
    cases c with
    | base c =>
      obtain ⟨ev, h1⟩ := hrest (.cmd c) h
      exact Or.inr ⟨_, ev, rfl, h1⟩
    | packetType k t =>
      refine Or.inl ⟨rfl, hacl _ _ _ (fun c hc => ?_) h⟩
      cases hc
      refine ⟨rfl, rfl, fun e hm => ?_⟩
      dsimp only at hm
      split at hm <;> simp at hm
    | changeKey k => exact Or.inl ⟨rfl, hacl _ _ _ (fun _ hc => hsay _ _ hc) h⟩
    | centralKey k => exact Or.inl ⟨rfl, hsay _ _ h⟩
    | hold k a b =>
      refine Or.inl ⟨rfl, hacl _ _ _ (fun c hc => ?_) h⟩
      split at hc <;> exact hsay _ _ hc
    | sniff k a b d e =>
      refine Or.inl ⟨rfl, hacl _ _ _ (fun c hc => ?_) h⟩
      split at hc <;> exact hsay _ _ hc
    | exitSniff k => exact Or.inl ⟨rfl, hacl _ _ _ (fun _ hc => hsay _ _ hc) h⟩
    | qos k s a b d e =>
      refine Or.inl ⟨rfl, hacl _ _ _ (fun c hc => ?_) h⟩
      split at hc
      · exact hsay _ _ hc
      · cases hc
        refine ⟨rfl, rfl, fun e hm => ?_⟩
        dsimp only at hm
        split at hm <;> simp at hm
    | role k => exact Or.inl ⟨rfl, hacl _ _ _ (fun _ hc => hsay _ _ hc) h⟩
    | readPolicy k => exact Or.inl ⟨rfl, hacl _ _ _ (fun _ hc => hsay _ _ hc) h⟩
    | readDefault => exact Or.inl ⟨rfl, hsay _ _ h⟩
    | flow k d s a b e f =>
      refine Or.inl ⟨rfl, hacl _ _ _ (fun c hc => ?_) h⟩
      split at hc <;> exact hsay _ _ hc
    | subrating k a b d =>
      refine Or.inl ⟨rfl, hacl _ _ _ (fun c hc => ?_) h⟩
      split at hc <;> exact hsay _ _ hc
    | readRssi k =>
      refine Or.inl ⟨rfl, ?_⟩
      simp only [pstep, command, readRssi] at h
      split at h
      · exact hacl _ _ _ (fun _ hc => hsay _ _ hc) h
      · split at h
        · exact hle _ _ _ (fun _ hc => hsay _ _ hc) h
        · exact hsay _ _ h
    | keySize k => exact Or.inl ⟨rfl, hacl _ _ _ (fun _ hc => hsay _ _ hc) h⟩
    | supervision k t => exact Or.inl ⟨rfl, hacl _ _ _ (fun _ hc => hsay _ _ hc) h⟩
    | oob =>
      cases h
      exact Or.inl ⟨rfl, rfl, rfl, nofun⟩
    | oobExtended =>
      cases h
      exact Or.inl ⟨rfl, rfl, rfl, nofun⟩
    | lePhy k => exact Or.inl ⟨rfl, hle _ _ _ (fun _ hc => hsay _ _ hc) h⟩
    | leDataLength k a b =>
      refine Or.inl ⟨rfl, hle _ _ _ (fun c hc => ?_) h⟩
      split at hc
      · exact hsay _ _ hc
      · split at hc <;> exact hsay _ _ hc
    | lePower k phy =>
      refine Or.inl ⟨rfl, hle _ _ _ (fun c hc => ?_) h⟩
      cases hc
      exact ⟨rfl, rfl, by simp⟩
    | leReporting k a b => exact Or.inl ⟨rfl, hle _ _ _ (fun _ hc => hsay _ _ hc) h⟩

theorem pstep_inv {p : P} (hi : Inv p.c) {now : Nat} {a : PAct} (hn : PNamed a) {o : Out} (h : pstep p now a = some o) : Inv o.p.c := by
  rcases pstep_cases h with ⟨-, h1, -⟩ | ⟨x, ev, h1, h2, -⟩
  · rw [h1]; exact hi
  · exact Br.inv_after hi (hn x h1) h2

theorem prun_cons {p p' : P} {now : Nat} {a : PAct} {as : List (Nat × PAct)} {l : List PSeen} (h : prun p ((now, a) :: as) = some (p', l)) :
    ∃ o l', pstep p now a = some o ∧ prun o.p as = some (p', l') ∧ l = ⟨now, a, o.reply, o.out, o.ev⟩ :: l' := by
  simp only [prun] at h
  split at h
  · cases h
  · rename_i o ho
    rw [Option.map_eq_some_iff] at h
    obtain ⟨⟨r1, r2⟩, h1, h2⟩ := h
    cases h2
    exact ⟨o, r2, ho, h1, rfl⟩

theorem prun_inv {p : P} (hi : Inv p.c) (as : List (Nat × PAct)) (hn : ∀ x ∈ as, PNamed x.2) {p' : P} {l : List PSeen}
    (h : prun p as = some (p', l)) : Inv p'.c := by
  induction as generalizing p l with
  | nil => cases h; exact hi
  | cons x as ih =>
    obtain ⟨now, a⟩ := x
    obtain ⟨o, l', h1, h2, -⟩ := prun_cons h
    exact ih (pstep_inv hi (hn _ List.mem_cons_self) h1) (fun x hx => hn x (List.mem_cons_of_mem _ hx)) h2

/-! ## RSSI -/

theorem find_filter (t : Table C) (q : Nat → Bool) (h : Nat) :
    find (t.filter (fun e => q e.1)) h = if q h then find t h else none := by
  induction t with
  | nil => simp [find]
  | cons e t ih =>
    obtain ⟨j, d⟩ := e
    by_cases hj : q j = true
    · have e1 : ((j, d) :: t).filter (fun e => q e.1) = (j, d) :: t.filter (fun e => q e.1) := by simp [hj]
      rw [e1, find, find, ih]
      by_cases hk : j = h
      · subst hk; simp [hj]
      · simp [hk]
    · have e1 : ((j, d) :: t).filter (fun e => q e.1) = t.filter (fun e => q e.1) := by simp [hj]
      rw [e1, ih, find]
      by_cases hk : j = h
      · subst hk; simp [hj]
      · simp [hk]

/-- Only the RSSI of connections is known. -/
def RInv (p : P) : Prop := ∀ h r, find p.rssi h = some r → (find p.c.acl h).isSome = true

theorem incoming_acl {s s' : Ctl} {now src dst r pb bc : Nat} {d : List UInt8} {st : Nat} {out : List (Nat × Pkt)} {ev : List Ev}
    (h : Br.step s now (.packet src dst r (.acl pb bc d)) = .ok st s' out ev) :
    (s' = s ∧ dst ≠ 0 ∧ dst ≠ s.addr) ∨ (s' = Br.touch s now src ∧ ¬(dst ≠ 0 ∧ dst ≠ s.addr)) := by
  simp only [Br.step, Br.incoming] at h
  split at h
  · rename_i hd
    cases h
    exact Or.inl ⟨rfl, hd⟩
  · rename_i hd
    simp only [Br.dispatch, Br.onAcl] at h
    split at h <;> cases h <;> exact Or.inr ⟨rfl, hd⟩

theorem rssiAfter_other {p : P} {c' : Ctl} {x : Act} (h : ∀ src dst r pb bc d, x ≠ .packet src dst r (.acl pb bc d)) :
    rssiAfter p c' x = p.rssi.filter (fun e => (find c'.acl e.1).isSome) := by
  cases x with
  | packet src dst r q =>
    cases q with
    | acl pb bc d => exact absurd rfl (h src dst r pb bc d)
    | _ => rfl
  | _ => rfl

theorem isSome_touch {s : Ctl} (hi : Inv s) (now src h : Nat) : (find (Br.touch s now src).acl h).isSome = (find s.acl h).isSome := by
  have := (touch_find hi now src h).1
  cases h1 : find (Br.touch s now src).acl h <;> cases h2 : find s.acl h <;> simp_all

theorem pstep_rinv {p : P} (hi : Inv p.c) (hr : RInv p) {now : Nat} {a : PAct} {o : Out} (h : pstep p now a = some o) : RInv o.p := by
  rcases pstep_cases h with ⟨-, h1, h2, -⟩ | ⟨x, ev, h1, h2, -, h4, -⟩
  · unfold RInv
    rw [h1, h2]
    exact hr
  · intro k r hf
    rw [h4] at hf
    by_cases hx : ∃ src dst r pb bc d, x = .packet src dst r (.acl pb bc d)
    · obtain ⟨src, dst, r', pb, bc, d, rfl⟩ := hx
      have hold : (find o.p.c.acl k).isSome = (find p.c.acl k).isSome := by
        rcases incoming_acl h2 with ⟨e, -⟩ | ⟨e, -⟩
        · rw [e]
        · rw [e, isSome_touch hi]
      rw [hold]
      simp only [rssiAfter] at hf
      split at hf
      · exact hr k r hf
      · split at hf
        · exact hr k r hf
        · rename_i j c hj
          simp only [find] at hf
          split at hf
          · rename_i e
            subst e
            rw [(Br.mem_acl hi).mp (Br.aclOf_some hj).1]
            rfl
          · rw [find_erase] at hf
            split at hf
            · cases hf
            · exact hr k r hf
    · rw [rssiAfter_other (fun src dst r pb bc d e => hx ⟨src, dst, r, pb, bc, d, e⟩), find_filter _ (fun k => (find o.p.c.acl k).isSome)] at hf
      split at hf
      · assumption
      · cases hf

theorem prun_rinv {p : P} (hi : Inv p.c) (hr : RInv p) (as : List (Nat × PAct)) (hn : ∀ x ∈ as, PNamed x.2) {p' : P} {l : List PSeen}
    (h : prun p as = some (p', l)) : RInv p' := by
  induction as generalizing p l with
  | nil => cases h; exact hr
  | cons x as ih =>
    obtain ⟨now, a⟩ := x
    obtain ⟨o, l', h1, h2, -⟩ := prun_cons h
    exact ih (pstep_inv hi (hn _ List.mem_cons_self) h1) (pstep_rinv hi hr h1) (fun x hx => hn x (List.mem_cons_of_mem _ hx)) h2

/-! ## Out of band data -/

theorem oobBytes_inj {t : List Nat} {a b : Nat} (h : oobBytes t a = oobBytes t b) : a % 65536 = b % 65536 := by
  simp only [oobBytes, List.append_cancel_left_eq, List.cons.injEq, and_true] at h
  omega

theorem pstep_oob {p : P} {now : Nat} {a : PAct} (hr : a ≠ .host (.base .reset) ∧ a ≠ .bredr (.cmd .reset)) {o : Out} (h : pstep p now a = some o) :
    o.p.oob = if a = .host .oob ∨ a = .host .oobExtended then nextOob p.oob else p.oob := by
  have hsay : ∀ st vals, say p st vals = some o → o.p.oob = p.oob := by
    intro st vals hx
    cases hx
    rfl
  have hacl : ∀ k vals f, (∀ c, f c = some o → o.p.oob = p.oob) → onAcl p k vals f = some o → o.p.oob = p.oob := by
    intro k vals f hf hx
    unfold onAcl at hx
    split at hx
    · exact hsay _ _ hx
    · exact hf _ hx
  have hle : ∀ k vals f, (∀ c, f c = some o → o.p.oob = p.oob) → onLe p k vals f = some o → o.p.oob = p.oob := by
    intro k vals f hf hx
    unfold onLe at hx
    split at hx
    · exact hsay _ _ hx
    · exact hf _ hx
  have hrest : ∀ x, x ≠ .cmd .reset → rest p now x = some o → o.p.oob = p.oob := by
    intro x hx h
    unfold rest at h
    split at h
    · cases h
      simp [hx]
    · cases h
  cases a with
  | bredr x => simpa using hrest x (fun e => hr.2 (by rw [e])) h
  | le x =>
    cases h
    simp
  | host c =>
    cases c with
    | base c => simpa using hrest (.cmd c) (fun e => hr.1 (by cases e; rfl)) h
    | oob =>
      cases h
      simp
    | oobExtended =>
      cases h
      simp
    | _ =>
      simp only [PAct.host.injEq, reduceCtorEq, or_self, if_false]
      simp only [pstep, command, packetType, hold, sniff, qos, flow, subrating, readRssi, leDataLength, lePower] at h
      first
        | exact hsay _ _ h
        | exact hacl _ _ _ (fun c hc => by (repeat' split at hc) <;> first | exact hsay _ _ hc | (cases hc; rfl)) h
        | exact hle _ _ _ (fun c hc => by (repeat' split at hc) <;> first | exact hsay _ _ hc | (cases hc; rfl)) h
        | (split at h
           · exact hacl _ _ _ (fun c hc => hsay _ _ hc) h
           · split at h
             · exact hle _ _ _ (fun c hc => hsay _ _ hc) h
             · exact hsay _ _ h)

end Verif.Pol
