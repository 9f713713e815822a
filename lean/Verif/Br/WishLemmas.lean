import Verif.Br.SpecWish
import Verif.Br.PlainLemmas
import Verif.Br.ViewLemmas
/-!
# The notes of a host and the state of its controller
-/
namespace Verif.Br
open Verif.Conn (Table find erase keys)

variable {C : Type}

/-- What the host configured. -/
def cfgOf (s : Ctl) : Nat × Info × Bool × Bool × List Nat × Nat × Nat := (s.addr, s.info, s.inqScan, s.pageScan, s.iac, s.numIac, s.policy)

/-- Nothing the host configured has changed, and there are no new connections. -/
structure Kept (s s' : Ctl) : Prop where
  cfg : cfgOf s' = cfgOf s
  mask : s'.mask = s.mask
  acl : ∀ h c', (h, c') ∈ s'.acl → ∃ c, (h, c) ∈ s.acl ∧ c.policy = c'.policy

theorem Kept.refl (s : Ctl) : Kept s s := ⟨rfl, rfl, fun _ c hc => ⟨c, hc, rfl⟩⟩

theorem Kept.of {s s' : Ctl} (h1 : cfgOf s' = cfgOf s) (h2 : s'.mask = s.mask) (h3 : s'.acl = s.acl) : Kept s s' :=
  ⟨h1, h2, fun _ c hc => ⟨c, h3 ▸ hc, rfl⟩⟩

theorem Kept.trans {s t u : Ctl} (h : Kept s t) (g : Kept t u) : Kept s u :=
  ⟨g.cfg.trans h.cfg, g.mask.trans h.mask, fun k c hc => by
    obtain ⟨c1, h1, h2⟩ := g.acl k c hc
    obtain ⟨c2, h3, h4⟩ := h.acl k c1 h1
    exact ⟨c2, h3, h4.trans h2⟩⟩

theorem Kept.update {s s' : Ctl} {h : Nat} {c d : Acl} (hm : (h, c) ∈ s.acl) (hp : d.policy = c.policy) (h1 : cfgOf s' = cfgOf s)
    (h2 : s'.mask = s.mask) (h3 : s'.acl = update s.acl h d) : Kept s s' := by
  refine ⟨h1, h2, fun k e he => ?_⟩
  rw [h3] at he
  rcases mem_update he with ⟨rfl, rfl⟩ | ⟨_, g⟩
  · exact ⟨c, hm, hp.symm⟩
  · exact ⟨e, g, rfl⟩

theorem Kept.erase {s s' : Ctl} {h : Nat} (h1 : cfgOf s' = cfgOf s) (h2 : s'.mask = s.mask) (h3 : s'.acl = erase s.acl h) : Kept s s' := by
  refine ⟨h1, h2, fun k e he => ⟨e, ?_, rfl⟩⟩
  rw [h3] at he
  exact (List.mem_filter.mp he).1

theorem kept_touch (s : Ctl) (now src : Nat) : Kept s (touch s now src) := by
  unfold touch
  split
  · exact .refl s
  · rename_i h c hf
    exact .update (d := { c with last := now }) (aclOf_some hf).1 rfl rfl rfl rfl

theorem kept_endAcl {s s' : Ctl} {h a : Nat} (he : endAcl s h a = some s') : Kept s s' := by
  unfold endAcl at he
  split at he
  · cases he
  · rw [Option.map_eq_some_iff] at he
    obtain ⟨lm, _, rfl⟩ := he
    exact .erase rfl rfl rfl

/-- A new connection. -/
structure Grown (s s' : Ctl) (h : Nat) : Prop where
  cfg : cfgOf s' = cfgOf s
  mask : s'.mask = s.mask
  acl : ∀ k c', (k, c') ∈ s'.acl → (k = h ∧ c'.policy = s.policy) ∨ ∃ c, (k, c) ∈ s.acl ∧ c.policy = c'.policy
  fresh : h ∉ keys s.acl

theorem grown_connect {s s' : Ctl} (hi : Inv s) {now a h : Nat} {role : Role} (hc : connect s now a role = .ok h s') : Grown s s' h := by
  obtain ⟨last, lm, rfl⟩ := connect_eq hc
  refine ⟨rfl, rfl, fun k c' hk => ?_, ?_⟩
  · rcases List.mem_cons.mp hk with hk | hk
    · cases hk; exact .inl ⟨rfl, rfl⟩
    · exact .inr ⟨c', hk, rfl⟩
  unfold connect at hc
  split at hc
  · cases hc
  · rename_i h' last' hr
    obtain ⟨h1, -⟩ := Conn.unused_some _ _ _ _ (Nat.zero_le _) hi.last _ _ hr
    split at hc
    · cases hc
    · cases hc
      exact h1

theorem kept_disconnect {s s' : Ctl} {h r r' : Nat} {st : Status} {out : List (Nat × Pkt)} {ev : List Ev}
    (hs : disconnect s h r r' = .ok st s' out ev) : Kept s s' := by
  unfold disconnect at hs
  split at hs
  · cases hs; exact .of rfl rfl rfl
  · split at hs
    · cases hs; exact .refl s
    · split at hs
      · split at hs
        · cases hs
        · rename_i h1
          cases hs
          exact Kept.trans (t := { s with sco := Conn.erase s.sco _ }) (.of rfl rfl rfl) (kept_endAcl h1)
      · split at hs
        · cases hs
        · rename_i h1
          cases hs
          exact kept_endAcl h1

/-- The commands that change what the host configured. -/
def configures : Cmd → Bool
  | .writeScanEnable _ _ | .writeIac _ | .setInfo _ | .writeDefaultPolicy _ | .writePolicy _ _ | .reset | .setMask _ => true
  | _ => false

theorem kept_createSyn {s s' : Ctl} {a : Nat} {p : Sco.ConnParams} {st : Conn.ScoState} {sp lg : Bool} (h : createSyn s a p st sp lg = some s') : Kept s s' := by
  unfold createSyn at h
  split at h
  · cases h
  · cases h; exact .of rfl rfl rfl

theorem kept_setup {s s' : Ctl} {h : Nat} {p : Sco.ConnParams} {sp lg : Bool} {st : Status} {out : List (Nat × Pkt)} {ev : List Ev}
    (hs : setupSync s h p sp lg = .ok st s' out ev) : Kept s s' := by
  unfold setupSync at hs
  split at hs
  · cases hs; exact .refl s
  · split at hs
    · cases hs; exact .refl s
    · split at hs
      · cases hs
      · rename_i h1
        cases hs
        exact kept_createSyn h1

theorem kept_tick {s s' : Ctl} {now : Nat} {st : Status} {out : List (Nat × Pkt)} {ev : List Ev} (hs : tick s now = .ok st s' out ev) : Kept s s' := by
  unfold tick at hs
  simp only [Res.ok.injEq] at hs
  obtain ⟨_, rfl, _, _⟩ := hs
  unfold paging inquiring
  refine .of ?_ ?_ ?_ <;> (repeat' split) <;> rfl

theorem newHandles_none {x : Seen} (h1 : ∀ a t, x.act ≠ .cmd (.accept a t)) (h2 : ∀ a b c t, x.act ≠ .packet a b c (.pageRsp t)) : newHandles x = [] := by
  unfold newHandles
  split
  · rename_i h; exact absurd h (h1 _ _)
  · rename_i h; exact absurd h (h2 _ _ _ _)
  · rfl

/-- A step that is not a command of the configuration. -/
def Goes (s : Ctl) (now : Nat) (a : Act) (st : Status) (s' : Ctl) (out : List (Nat × Pkt)) (ev : List Ev) : Prop :=
  (Kept s s' ∧ newHandles ⟨now, a, st, out, ev⟩ = []) ∨ ∃ h, Grown s s' h ∧ (s.mask.testBit 2 = true → newHandles ⟨now, a, st, out, ev⟩ = [h])

theorem told {s : Ctl} (hm : s.mask.testBit 2 = true) (b : Prop) [Decidable b] (st a h a' : Nat) (r : Role) :
    ((if b then tell s 0x12 (.roleChange st a r) else []) ++ tell s 0x03 (.connComplete Status.success h a' .acl)).filterMap connHandle = [h] := by
  have h1 : (if b then tell s 0x12 (.roleChange st a r) else []).filterMap connHandle = [] := by
    unfold tell
    split
    · split <;> rfl
    · rfl
  have h2 : tell s 0x03 (.connComplete Status.success h a' .acl) = [.connComplete Status.success h a' .acl] := if_pos hm
  rw [List.filterMap_append, h1, h2]
  rfl

theorem told_sync (s : Ctl) (st h a : Nat) : (tell s 0x03 (.connComplete st h a .sco)).filterMap connHandle = [] := by
  unfold tell
  split
  · cases st <;> rfl
  · rfl

theorem goes_cmd {s s' : Ctl} (hi : Inv s) {now : Nat} {c : Cmd} (hc : configures c = false) {st : Status}
    {out : List (Nat × Pkt)} {ev : List Ev} (hs : command s now c = .ok st s' out ev) : Goes s now (.cmd c) st s' out ev := by
  by_cases hac : ∃ a t, c = .accept a t
  · obtain ⟨a, t, rfl⟩ := hac
    simp only [command, acceptConnection] at hs
    split at hs
    · rename_i p hp
      unfold acceptPage at hs
      split at hs
      · cases hs; exact .inl ⟨.refl s, rfl⟩
      · split at hs
        · cases hs
        · cases hs
        · rename_i h s1 h1
          cases hs
          have g := grown_connect hi h1
          refine .inr ⟨h, ⟨g.cfg, g.mask, g.acl, g.fresh⟩, fun hm => ?_⟩
          exact told hm (acceptorRole t p.allow = .central) _ _ _ _ _
    · split at hs
      · split at hs
        · cases hs
        · cases hs
          refine .inl ⟨.of rfl rfl rfl, ?_⟩
          exact told_sync _ _ _ _
      · cases hs; exact .inl ⟨.refl s, rfl⟩
  · refine .inl ⟨?_, newHandles_none (fun a t h => hac ⟨a, t, by cases h; rfl⟩) (fun _ _ _ _ h => by cases h)⟩
    cases c with
    | inquiry => simp only [command, startInquiry] at hs; (repeat' split at hs) <;> cases hs <;> first | exact .refl _ | exact .of rfl rfl rfl
    | inquiryCancel => simp only [command, cancelInquiry] at hs; (repeat' split at hs) <;> cases hs <;> first | exact .refl _ | exact .of rfl rfl rfl
    | create => simp only [command, createConnection] at hs; (repeat' split at hs) <;> cases hs <;> first | exact .refl _ | exact .of rfl rfl rfl
    | cancel => simp only [command, cancelConnection] at hs; (repeat' split at hs) <;> cases hs <;> first | exact .refl _ | exact .of rfl rfl rfl
    | accept a t => exact absurd ⟨a, t, rfl⟩ hac
    | reject => simp only [command, rejectConnection] at hs; (repeat' split at hs) <;> cases hs <;> first | exact .refl _ | exact .of rfl rfl rfl
    | disconnect => exact kept_disconnect hs
    | switchRole => simp only [command, switchRole] at hs; (repeat' split at hs) <;> cases hs <;> first | exact .refl _ | exact .of rfl rfl rfl
    | setupSync => exact kept_setup hs
    | addSco => exact kept_setup hs
    | acceptSync => simp only [command, acceptSync] at hs; (repeat' split at hs) <;> cases hs <;> first | exact .refl _ | exact .of rfl rfl rfl
    | rejectSync => simp only [command, rejectSync] at hs; (repeat' split at hs) <;> cases hs <;> first | exact .refl _ | exact .of rfl rfl rfl
    | features => simp only [command, ask] at hs; (repeat' split at hs) <;> cases hs <;> first | exact .refl _ | exact .of rfl rfl rfl
    | ext => simp only [command, ask] at hs; (repeat' split at hs) <;> cases hs <;> first | exact .refl _ | exact .of rfl rfl rfl
    | version => simp only [command, ask] at hs; (repeat' split at hs) <;> cases hs <;> first | exact .refl _ | exact .of rfl rfl rfl
    | extLocal => simp only [command] at hs; (repeat' split at hs) <;> cases hs <;> first | exact .refl _ | exact .of rfl rfl rfl
    | acl => simp only [command, sendAcl] at hs; (repeat' split at hs) <;> cases hs <;> first | exact .refl _ | exact .of rfl rfl rfl
    | sco => simp only [command, sendSco] at hs; (repeat' split at hs) <;> cases hs <;> first | exact .refl _ | exact .of rfl rfl rfl
    | name => cases hs; exact .of rfl rfl rfl
    | writePageTimeout => cases hs; exact .of rfl rfl rfl
    | writeInquiryMode => cases hs; exact .of rfl rfl rfl
    | _ => cases hc

theorem goes_dispatch {s s' : Ctl} (hi : Inv s) {now src dst rssi : Nat} {p : Pkt} {st : Status}
    {out : List (Nat × Pkt)} {ev : List Ev} (hs : dispatch s now src rssi p = .ok st s' out ev) : Goes s now (.packet src dst rssi p) st s' out ev := by
  by_cases hac : ∃ t, p = .pageRsp t
  · obtain ⟨t, rfl⟩ := hac
    simp only [dispatch, onPageRsp] at hs
    split at hs
    · cases hs; exact .inl ⟨.refl s, rfl⟩
    · split at hs
      · cases hs; exact .inl ⟨.refl s, rfl⟩
      · split at hs
        · cases hs
        · cases hs
        · rename_i h s1 h1
          cases hs
          have g := grown_connect hi h1
          refine .inr ⟨h, ⟨g.cfg, g.mask, g.acl, g.fresh⟩, fun hm => ?_⟩
          exact told hm (pagerRole _ t = .peripheral) _ _ _ _ _
  · refine .inl ⟨?_, newHandles_none (fun a t h => by cases h) (fun _ _ _ t h => hac ⟨t, by cases h; rfl⟩)⟩
    cases p with
    | page => simp only [dispatch, onPage] at hs; (repeat' split at hs) <;> cases hs <;> first | exact .refl _ | exact .of rfl rfl rfl
    | pageRsp t => exact absurd ⟨t, rfl⟩ hac
    | pageReject => simp only [dispatch, onPageReject] at hs; (repeat' split at hs) <;> cases hs <;> first | exact .refl _ | exact .of rfl rfl rfl
    | disconnect =>
      simp only [dispatch, onDisconnect] at hs
      split at hs
      · cases hs; exact .refl _
      · split at hs
        · cases hs
        · rename_i h1
          cases hs
          exact kept_endAcl h1
    | roleReq =>
      simp only [dispatch, onRoleReq] at hs
      split at hs
      · cases hs; exact .refl _
      · rename_i h c hf
        split at hs
        · cases hs; exact .refl _
        · cases hs
          exact .update (d := { c with role := c.role.other }) (aclOf_some hf).1 rfl rfl rfl rfl
    | roleRsp =>
      simp only [dispatch, onRoleRsp] at hs
      split at hs
      · cases hs; exact .refl _
      · rename_i h c hf
        split at hs
        · cases hs; exact .refl _
        · cases hs
          exact .update (d := { c with role := c.role.other }) (aclOf_some hf).1 rfl rfl rfl rfl
    | scoReq =>
      simp only [dispatch, onScoReq] at hs
      split at hs
      · cases hs; exact .refl _
      · split at hs
        · cases hs
        · rename_i h1
          cases hs
          exact kept_createSyn h1
    | scoRsp => simp only [dispatch, onScoRsp] at hs; (repeat' split at hs) <;> cases hs <;> first | exact .refl _ | exact .of rfl rfl rfl
    | scoDisc => simp only [dispatch, onScoDisc] at hs; (repeat' split at hs) <;> cases hs <;> first | exact .refl _ | exact .of rfl rfl rfl
    | lmp => simp only [dispatch] at hs; (repeat' split at hs) <;> cases hs <;> first | exact .refl _ | exact .of rfl rfl rfl
    | inquiry => simp only [dispatch, onInquiry] at hs; (repeat' split at hs) <;> cases hs <;> first | exact .refl _ | exact .of rfl rfl rfl
    | inqRsp => simp only [dispatch, onInqRsp] at hs; (repeat' split at hs) <;> cases hs <;> first | exact .refl _ | exact .of rfl rfl rfl
    | acl => simp only [dispatch, onAcl] at hs; (repeat' split at hs) <;> cases hs <;> first | exact .refl _ | exact .of rfl rfl rfl
    | sco => simp only [dispatch, onSco] at hs; (repeat' split at hs) <;> cases hs <;> first | exact .refl _ | exact .of rfl rfl rfl
    | featuresRsp => simp only [dispatch, report] at hs; (repeat' split at hs) <;> cases hs <;> first | exact .refl _ | exact .of rfl rfl rfl
    | extRsp => simp only [dispatch, report] at hs; (repeat' split at hs) <;> cases hs <;> first | exact .refl _ | exact .of rfl rfl rfl
    | versionRsp => simp only [dispatch, report] at hs; (repeat' split at hs) <;> cases hs <;> first | exact .refl _ | exact .of rfl rfl rfl
    | extReq => simp only [dispatch, onExtReq] at hs; (repeat' split at hs) <;> cases hs <;> first | exact .refl _ | exact .of rfl rfl rfl
    | _ => cases hs; exact .refl _

theorem goes_step {s s' : Ctl} (hi : Inv s) {now : Nat} {a : Act} (hc : ∀ c, a = .cmd c → configures c = false)
    {st : Status} {out : List (Nat × Pkt)} {ev : List Ev} (hs : step s now a = .ok st s' out ev) : Goes s now a st s' out ev := by
  cases a with
  | cmd c => exact goes_cmd hi (hc c rfl) hs
  | tick => exact .inl ⟨kept_tick hs, rfl⟩
  | check h =>
    refine .inl ⟨?_, rfl⟩
    simp only [step, checkExpiring] at hs
    split at hs
    · cases hs; exact .refl _
    · split at hs
      · exact kept_disconnect hs
      · split at hs <;> cases hs <;> exact .refl _
  | packet src dst rssi p =>
    simp only [step, incoming] at hs
    split at hs
    · cases hs
      refine .inl ⟨.refl _, ?_⟩
      unfold newHandles
      split <;> rfl
    · have k := kept_touch s now src
      have h1 := goes_dispatch (dst := dst) (touch_inv hi now src).1 hs
      rcases h1 with ⟨h2, h3⟩ | ⟨h, h2, h3⟩
      · exact .inl ⟨k.trans h2, h3⟩
      · refine .inr ⟨h, ⟨h2.cfg.trans k.cfg, h2.mask.trans k.mask, fun j c' hj => ?_, ?_⟩, fun hm => h3 (by rw [k.mask]; exact hm)⟩
        · have hp : (touch s now src).policy = s.policy := congrArg (·.2.2.2.2.2.2) k.cfg
          rcases h2.acl j c' hj with ⟨g1, g2⟩ | ⟨c1, g1, g2⟩
          · exact .inl ⟨g1, g2.trans hp⟩
          · obtain ⟨c2, g3, g4⟩ := k.acl j c1 g1
            exact .inr ⟨c2, g3, g4.trans g2⟩
        · have hk : keys (touch s now src).acl = keys s.acl := by
            unfold touch
            split
            · rfl
            · exact keys_update ..
          rw [← hk]
          exact h2.fresh

/-- The notes say what the controller has; the link policies only if the host hears of its connections. -/
structure Tied (b : Bool) (w : Wish) (s : Ctl) : Prop where
  inquiryScan : s.inqScan = w.inquiryScan
  pageScan : s.pageScan = w.pageScan
  codes : s.iac = w.codes
  self : s.info = w.self
  policy : s.policy = w.policy
  mask : b = true → s.mask.testBit 2 = true
  policies : b = true → ∀ h c, (h, c) ∈ s.acl → w.policyOf h = some c.policy

theorem policyOf_cons (w : Wish) (h p k : Nat) : Wish.policyOf { w with policies := (h, p) :: w.policies } k = if h = k then some p else w.policyOf k := by
  unfold Wish.policyOf
  simp only [List.find?_cons]
  by_cases hk : h = k
  · rw [if_pos hk]; simp [hk]
  · rw [if_neg hk]; simp [hk]

theorem tied_step {b : Bool} {s s' : Ctl} {w : Wish} (hi : Inv s) (ht : Tied b w s) {now : Nat} {a : Act} (hh : b = true → hears a = true)
    {st : Status} {out : List (Nat × Pkt)} {ev : List Ev} (hs : step s now a = .ok st s' out ev) :
    Tied b (wish s.numIac w ⟨now, a, st, out, ev⟩) s' ∧ s'.numIac = s.numIac ∧ s'.addr = s.addr := by
  by_cases hc : ∃ c, a = .cmd c ∧ configures c = true
  · obtain ⟨c, rfl, hc⟩ := hc
    cases c with
    | writeScanEnable i p => cases hs; exact ⟨{ ht with inquiryScan := rfl, pageScan := rfl }, rfl, rfl⟩
    | writeIac l => cases hs; exact ⟨{ ht with codes := rfl }, rfl, rfl⟩
    | setInfo i => cases hs; exact ⟨{ ht with self := rfl }, rfl, rfl⟩
    | setMask m =>
      cases hs
      exact ⟨⟨ht.inquiryScan, ht.pageScan, ht.codes, ht.self, ht.policy, hh, ht.policies⟩, rfl, rfl⟩
    | reset =>
      cases hs
      refine ⟨⟨rfl, rfl, rfl, ?_, rfl, fun _ => (show Nat.testBit 0x00001fffffffffff 2 = true by decide), fun _ => nofun⟩, rfl, rfl⟩
      show Info.plain s.info = _
      rw [ht.self]
      rfl
    | writeDefaultPolicy p =>
      simp only [step, command, writeDefaultPolicy] at hs
      split at hs
      · cases hs
        exact ⟨ht, rfl, rfl⟩
      · cases hs
        exact ⟨{ ht with policy := rfl }, rfl, rfl⟩
    | writePolicy h p =>
      simp only [step, command, writePolicy] at hs
      split at hs
      · cases hs
        exact ⟨ht, rfl, rfl⟩
      · split at hs
        · cases hs
          exact ⟨ht, rfl, rfl⟩
        · rename_i c hf _
          cases hs
          refine ⟨⟨ht.inquiryScan, ht.pageScan, ht.codes, ht.self, ht.policy, ht.mask, fun hb k d hk => ?_⟩, rfl, rfl⟩
          show Wish.policyOf { w with policies := (h, p) :: w.policies } k = _
          rw [policyOf_cons]
          rcases mem_update hk with ⟨rfl, rfl⟩ | ⟨g1, g2⟩
          · rw [if_pos rfl]
          · rw [if_neg (fun h => g1 h.symm)]
            exact ht.policies hb k d g2
    | _ => cases hc
  · have hg := goes_step hi (fun c h => by cases hb : configures c with
      | false => rfl
      | true => exact absurd ⟨c, h, hb⟩ hc) hs
    have hw : wish s.numIac w ⟨now, a, st, out, ev⟩ = { w with policies := (newHandles ⟨now, a, st, out, ev⟩).map (fun h => (h, w.policy)) ++ w.policies } := by
      unfold wish
      split <;> first | rfl | (rename_i h; exact absurd ⟨_, h, rfl⟩ hc)
    rw [hw]
    rcases hg with ⟨k, h3⟩ | ⟨h, k, h3⟩
    · rw [h3]
      have e := k.cfg
      simp only [cfgOf, Prod.mk.injEq] at e
      obtain ⟨e1, e2, e3, e4, e5, e6, e7⟩ := e
      refine ⟨⟨e3.trans ht.inquiryScan, e4.trans ht.pageScan, e5.trans ht.codes, e2.trans ht.self, e7.trans ht.policy, fun hb => by rw [k.mask]; exact ht.mask hb, fun hb j c' hj => ?_⟩, e6, e1⟩
      obtain ⟨c, g1, g2⟩ := k.acl j c' hj
      exact g2 ▸ ht.policies hb j c g1
    · have e := k.cfg
      simp only [cfgOf, Prod.mk.injEq] at e
      obtain ⟨e1, e2, e3, e4, e5, e6, e7⟩ := e
      refine ⟨⟨e3.trans ht.inquiryScan, e4.trans ht.pageScan, e5.trans ht.codes, e2.trans ht.self, e7.trans ht.policy, fun hb => by rw [k.mask]; exact ht.mask hb, fun hb j c' hj => ?_⟩, e6, e1⟩
      rw [h3 (ht.mask hb)]
      show Wish.policyOf { w with policies := (h, w.policy) :: w.policies } j = _
      rw [policyOf_cons]
      rcases k.acl j c' hj with ⟨g1, g2⟩ | ⟨c, g1, g2⟩
      · rw [if_pos g1.symm, g2, ht.policy]
      · rw [if_neg (fun h1 => k.fresh (List.mem_map.mpr ⟨(j, c), g1, h1.symm⟩)), ← g2]
        exact ht.policies hb j c g1

theorem tied_run {b : Bool} {s s' : Ctl} {w : Wish} (as : List (Nat × Act)) (hi : Inv s) (ht : Tied b w s)
    (hx : ∀ x ∈ as, Named x.2) (hh : b = true → ∀ x ∈ as, hears x.2 = true) {l : List Seen} (h : run s as = some (s', l)) :
    Tied b (l.foldl (wish s.numIac) w) s' ∧ Inv s' ∧ s'.addr = s.addr := by
  induction as generalizing s w l with
  | nil => cases h; exact ⟨ht, hi, rfl⟩
  | cons x as ih =>
    obtain ⟨now, a⟩ := x
    have h1 := fits hi now a (hx _ List.mem_cons_self)
    simp only [run] at h
    split at h
    · rename_i st s1 out ev hs
      rw [hs] at h1
      obtain ⟨t1, t3, t4⟩ := tied_step hi ht (fun hb => hh hb _ List.mem_cons_self) hs
      rw [Option.map_eq_some_iff] at h
      obtain ⟨⟨s2, l2⟩, h3, h4⟩ := h
      cases h4
      obtain ⟨g1, g2, g3⟩ := ih h1.1 t1 (fun x hx' => hx x (List.mem_cons_of_mem _ hx')) (fun hb x hx' => hh hb x (List.mem_cons_of_mem _ hx')) h3
      rw [t3] at g1
      exact ⟨g1, g2, g3.trans t4⟩
    · cases h

theorem tied_fresh (b : Bool) (addr : Nat) (i : Info) (n : Nat) : Tied b (.new i) (Ctl.fresh addr i n) :=
  ⟨rfl, rfl, rfl, rfl, rfl, fun _ => (show Nat.testBit 0x00001fffffffffff 2 = true by decide), fun _ => nofun⟩

end Verif.Br
