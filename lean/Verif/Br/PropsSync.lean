import Verif.Br.PropsData
import Verif.Sco.Props
/-!
# C66: both ends agree on a synchronous connection

C66: when a synchronous connection is requested and the peer's host has answered, both hosts are told the same outcome:
both have a connection with the same link type, interval, window and air mode, where the one receives what the other
sends, or neither has one. When one host ends it, both are told. -/
namespace Verif.Br
open Verif.Conn (Table find erase firstWith keys ScoState)
open Verif.Sco (ConnParams LinkParams)

/-! ## One controller -/

/-- The air mode of a negotiated link is that of the voice setting of the one who asked. -/
theorem air_of_negotiate {st : Sco.State} {mine peer : ConnParams} {l : LinkParams} (h : Sco.negotiate st mine peer = some l) :
    l.airMode.toNat = airOfVoice mine.voiceSetting := by
  obtain ⟨q, hq, -, -, hv, -⟩ := Sco.C07_negotiation_sound_partial st mine peer l h
  obtain ⟨h0, h1, h2, h3⟩ := Sco.C07_air_mode q l hq
  rw [hv] at h0 h1 h2 h3
  have hm : (mine.voiceSetting &&& 3).toNat = mine.voiceSetting.toNat % 4 := by
    rw [UInt16.toNat_and]
    exact Nat.and_two_pow_sub_one_eq_mod mine.voiceSetting.toNat 2
  have hc : ∀ k : UInt16, k.toNat = mine.voiceSetting.toNat % 4 → mine.voiceSetting &&& 3 = k := by
    intro k hk
    apply UInt16.toNat_inj.mp
    rw [hm, hk]
  have h4 : mine.voiceSetting.toNat % 4 < 4 := Nat.mod_lt _ (by omega)
  unfold airOfVoice
  rcases (by omega : mine.voiceSetting.toNat % 4 = 0 ∨ mine.voiceSetting.toNat % 4 = 1 ∨
    mine.voiceSetting.toNat % 4 = 2 ∨ mine.voiceSetting.toNat % 4 = 3) with e | e | e | e
  · rw [h0 (hc 0 (by rw [e]; rfl)), e]; rfl
  · rw [h1 (hc 1 (by rw [e]; rfl)), e]; rfl
  · rw [h2 (hc 2 (by rw [e]; rfl)), e]; rfl
  · rw [h3 (hc 3 (by rw [e]; rfl)), e]; rfl

theorem touch_sco (s : Ctl) (now src : Nat) : (touch s now src).sco = s.sco := by
  unfold touch
  split <;> rfl

theorem touch_addr (s : Ctl) (now src : Nat) : (touch s now src).addr = s.addr := by
  unfold touch
  split <;> rfl

theorem syncs_none {s : Ctl} {y : Nat} (h : syncs s y = 0) : scoOf s.sco y = none := by
  rw [scoOf_find?, List.find?_eq_none]
  intro e he hy
  have : e ∈ s.sco.filter (fun e => e.2.addr = y) := List.mem_filter.2 ⟨he, hy⟩
  unfold syncs at h
  rw [List.length_eq_zero_iff] at h
  rw [h] at this
  cases this

theorem none_syncs {s : Ctl} {y : Nat} (h : scoOf s.sco y = none) : syncs s y = 0 := by
  rw [scoOf_find?, List.find?_eq_none] at h
  unfold syncs
  rw [List.length_eq_zero_iff, List.filter_eq_nil_iff]
  exact h

theorem scoOf_cons {k y : Nat} {c : Syn} {t : Table Syn} (hc : c.addr = y) : scoOf ((k, c) :: t) y = some (k, c) := by
  rw [scoOf_find?]
  simp [hc]

theorem update_cons {k : Nat} {c d : Syn} {t : Table Syn} (hk : k ∉ keys t) : update ((k, c) :: t) k d = (k, d) :: t := by
  unfold update
  rw [List.map_cons, if_pos rfl]
  congr 1
  rw [List.map_congr_left (g := id)]
  · exact List.map_id t
  · intro e he
    rw [if_neg]
    · rfl
    · intro h1
      exact hk (List.mem_map.2 ⟨e, he, h1⟩)

theorem erase_cons {k : Nat} {c : Syn} {t : Table Syn} (hk : k ∉ keys t) : erase ((k, c) :: t) k = t := by
  unfold erase
  rw [List.filter_cons]
  simp only [ne_eq, not_true_eq_false, decide_false, Bool.false_eq_true, if_false]
  rw [List.filter_eq_self]
  intro e he
  simp only [ne_eq, decide_eq_true_eq]
  intro h1
  exact hk (List.mem_map.2 ⟨e, he, h1⟩)

theorem setup_new {s : Ctl} (hi : Inv s) {h y : Nat} (hl : linked s h y) (hy : scoOf s.sco y = none) (hn : s.sco.length < 256) (now : Nat)
    (p : ConnParams) (sp : Bool) : ∃ k last, command s now (.setupSync h p sp) =
      .ok 0 { s with sco := (k, ⟨y, p, noLink, .pending, sp, false, false⟩) :: s.sco, lastSco := last } [(y, .scoReq p s.info.cod)] [] ∧ k ∉ keys s.sco := by
  obtain ⟨c, hm, rfl⟩ := hl
  rcases createSyn_cases hi c.addr p .pending sp false with ⟨h1, -⟩ | ⟨-, k, last, h1, h2, -⟩
  · omega
  · refine ⟨k, last, ?_, h2⟩
    have h3 : scoPending s c.addr = false := by
      unfold scoPending
      rw [hy]
    simp only [command, setupSync, Conn.mem_find _ hi.sound.nodup _ _ hm, h3, h1, Bool.false_eq_true, if_false]
    rfl

theorem request_new {s : Ctl} (hi : Inv s) {y : Nat} (hy : scoOf s.sco y = none) (hn : s.sco.length < 256) (now r : Nat)
    (p : ConnParams) (cod : Nat) : ∃ k last, incoming s now y s.addr r (.scoReq p cod) =
      .ok 0 { touch s now y with sco := (k, ⟨y, p, noLink, if Sco.isExtended p then .sentEsco else .sentSco, false, false, false⟩) :: s.sco, lastSco := last } []
        [.connRequest y cod (if Sco.isExtended p then .esco else .sco)] ∧ k ∉ keys s.sco := by
  have hi' := (touch_inv hi now y).1
  rcases createSyn_cases hi' y p (if Sco.isExtended p then .sentEsco else .sentSco) false false with ⟨h1, -⟩ | ⟨-, k, last, h1, h2, -⟩
  · rw [touch_sco] at h1
    omega
  · rw [touch_sco] at h1 h2
    refine ⟨k, last, ?_, h2⟩
    have h3 : scoPending (touch s now y) y = false := by
      unfold scoPending
      rw [touch_sco, hy]
    simp only [incoming, ne_eq, not_true_eq_false, and_false, if_false, dispatch, onScoReq, h3, h1, Bool.false_eq_true]

/-- The answer of a host to a request. -/
theorem accept_new {s : Ctl} {k y : Nat} {c : Syn} {t : Table Syn} (hs : s.sco = (k, c) :: t) (hc : c.addr = y)
    (hst : c.state = .sentEsco ∨ c.state = .sentSco) (hstr : c.stream = false) (hk : k ∉ keys t) (now : Nat) (q : ConnParams) :
    (∃ l, l.airMode.toNat = airOfVoice c.params.voiceSetting ∧ command s now (.acceptSync y q) =
      .ok 0 { s with sco := (k, { c with state := .opened, link := l, stream := c.spoofed }) :: t } [(y, .scoRsp 0 l)] [syncEvent 0 k y l]) ∨
    command s now (.acceptSync y q) = .ok 0 { s with sco := t } [(y, .scoRsp Status.unknown noLink)] [syncEvent Status.unknown 0 y noLink] := by
  have h1 : scoPending s y = true := by
    unfold scoPending
    rw [hs, scoOf_cons hc]
    rcases hst with h | h <;> simp [h]
  simp only [command, acceptSync, h1, if_true, acceptSyn, hs, scoOf_cons hc, Option.getD_some]
  cases hneg : Sco.negotiate (negState c.state) c.params q with
  | some l =>
    left
    refine ⟨l, air_of_negotiate hneg, ?_⟩
    simp only [openSyn, hstr, Bool.false_eq_true, if_false, update_cons hk, Option.map_some]
    rfl
  | none =>
    right
    simp only [update_cons hk]
    have h2 : scoOf ((k, { c with state := .closed }) :: t) y = some (k, { c with state := .closed }) := scoOf_cons hc
    have h3 : cancelSyn ((k, { c with state := .closed }) :: t) y = some t := by
      unfold cancelSyn
      rw [h2]
      simp only []
      rw [if_neg (by rw [hstr]; decide), erase_cons hk]
    rw [h3]
    rfl

theorem answer_yes {s : Ctl} {k y : Nat} {c : Syn} {t : Table Syn} (hs : s.sco = (k, c) :: t) (hc : c.addr = y) (hlg : c.legacy = false)
    (hstr : c.stream = false) (hk : k ∉ keys t) (now r : Nat) (l : LinkParams) :
    incoming s now y s.addr r (.scoRsp 0 l) =
      .ok 0 { touch s now y with sco := (k, { c with state := .opened, link := l, stream := c.spoofed }) :: t } [] [syncEvent 0 k y l] := by
  have h1 : scoOf (touch s now y).sco y = some (k, c) := by
    rw [touch_sco, hs, scoOf_cons hc]
  simp only [incoming, ne_eq, not_true_eq_false, and_false, if_false, dispatch, onScoRsp, h1]
  rw [touch_sco, hs]
  simp only [openSyn, hstr, Bool.false_eq_true, if_false, update_cons hk, hlg, Status.success, if_true]

theorem answer_no {s : Ctl} {k y : Nat} {c : Syn} {t : Table Syn} (hs : s.sco = (k, c) :: t) (hc : c.addr = y) (hlg : c.legacy = false)
    (hstr : c.stream = false) (hk : k ∉ keys t) (now r st : Nat) (hst : st ≠ 0) (l : LinkParams) :
    ∃ link, incoming s now y s.addr r (.scoRsp st l) =
      .ok 0 { touch s now y with sco := t } [] [.syncComplete st 0 y link 0 0 0 0 transparent] := by
  have h1 : scoOf (touch s now y).sco y = some (k, c) := by
    rw [touch_sco, hs, scoOf_cons hc]
  have h2 : cancelSyn ((k, c) :: t) y = some t := by
    simp only [cancelSyn, scoOf_cons hc, hstr, Bool.false_eq_true, if_false, erase_cons hk]
  refine ⟨if Sco.isExtended (paramsOf t y) then .esco else .sco, ?_⟩
  simp only [incoming, ne_eq, not_true_eq_false, and_false, if_false, dispatch, onScoRsp, h1]
  rw [if_neg (show ¬st = Status.success from hst), touch_sco, hs]
  simp only [h2, hlg, Bool.false_eq_true, if_false]

theorem syncEvent_is (st h a : Nat) (l : LinkParams) : ∃ link interval window rx tx, ∀ st h a,
    syncEvent st h a l = .syncComplete st h a link interval window rx tx l.airMode.toNat := by
  by_cases hl : l.extended = true
  · refine ⟨.esco, l.interval.toNat, l.window.toNat, l.rxLength.toNat, l.txLength.toNat, ?_⟩
    intro st h a
    unfold syncEvent
    rw [if_pos hl]
  · refine ⟨.sco, 0, 0, 0, 0, ?_⟩
    intro st h a
    unfold syncEvent
    rw [if_neg hl]

theorem hostA_step {sa sb s' : Ctl} {toA toB out : List (Nat × Pkt)} {now : Nat} {c : Cmd} {st : Status} {ev : List Ev}
    (h : command sa now c = .ok st s' out ev) : nstep ⟨sa, sb, toA, toB⟩ now (.hostA c) = some (⟨s', sb, toA, toB ++ out⟩, ev, []) := by
  simp only [nstep, h, putA]

theorem hostB_step {sa sb s' : Ctl} {toA toB out : List (Nat × Pkt)} {now : Nat} {c : Cmd} {st : Status} {ev : List Ev}
    (h : command sb now c = .ok st s' out ev) : nstep ⟨sa, sb, toA, toB⟩ now (.hostB c) = some (⟨sa, s', toA ++ out, toB⟩, [], ev) := by
  simp only [nstep, h, putB]

theorem arriveA_step {sa sb s' : Ctl} {toA toB out : List (Nat × Pkt)} {now b d : Nat} {p : Pkt} {st : Status} {ev : List Ev} (hb : sb.addr = b)
    (h : incoming sa now b d 0 p = .ok st s' out ev) : nstep ⟨sa, sb, (d, p) :: toA, toB⟩ now .arriveA = some (⟨s', sb, toA, toB ++ out⟩, ev, []) := by
  subst hb
  simp only [nstep, h, putA]

theorem arriveB_step {sa sb s' : Ctl} {toA toB out : List (Nat × Pkt)} {now a d : Nat} {p : Pkt} {st : Status} {ev : List Ev} (ha : sa.addr = a)
    (h : incoming sb now a d 0 p = .ok st s' out ev) : nstep ⟨sa, sb, toA, (d, p) :: toB⟩ now .arriveB = some (⟨sa, s', toA ++ out, toB⟩, [], ev) := by
  subst ha
  simp only [nstep, h, putB]

theorem nrun_four {n n1 n2 n3 n4 : Net} {t0 t1 t2 t3 : Nat} {x0 x1 x2 x3 : NAct} {a1 a2 a3 a4 b1 b2 b3 b4 : List Ev}
    (h1 : nstep n t0 x0 = some (n1, a1, b1)) (h2 : nstep n1 t1 x1 = some (n2, a2, b2)) (h3 : nstep n2 t2 x2 = some (n3, a3, b3))
    (h4 : nstep n3 t3 x3 = some (n4, a4, b4)) : nrun n [(t0, x0), (t1, x1), (t2, x2), (t3, x3)] =
      some (n4, a1 ++ (a2 ++ (a3 ++ (a4 ++ []))), b1 ++ (b2 ++ (b3 ++ (b4 ++ [])))) := by
  simp only [nrun, h1, h2, h3, h4, Option.map_some]

/-! ## The theorems -/

/-- After any history that left them connected, without synchronous connections and with no packet on its way: A's
host sets up a synchronous connection with any parameters, B's host is asked and accepts with any parameters. Both
hosts are told the same, with the air mode of A's parameters, and both have the connection or neither. Missing: that what A receives is what B sends, which
is false, see `C66_lengths_violated`. -/
theorem C66_outcome_partial (a b : Nat) (ha : a ≠ 0) (hb : b ≠ 0) (ia ib : Info) (na nb : Nat) (before : List (Nat × NAct))
    (hx : before.all (fun x => named x.2) = true) (n : Net) (ea eb : List Ev) (hbefore : nrun (Net.fresh a b ia ib na nb) before = some (n, ea, eb))
    (h : Nat) (hl : linked n.a h b) (hq : n.toA = [] ∧ n.toB = []) (h0 : syncs n.a b = 0 ∧ syncs n.b a = 0)
    (hroom : n.a.sco.length < 256 ∧ n.b.sco.length < 256) (t0 t1 t2 t3 : Nat) (p q : ConnParams) (spoofed : Bool) :
    ∃ n' e e' f, nrun n [(t0, .hostA (.setupSync h p spoofed)), (t1, .arriveB), (t2, .hostB (.acceptSync a q)), (t3, .arriveA)] =
        some (n', [e], [f, e']) ∧
      n'.toA = [] ∧ n'.toB = [] ∧ f = .connRequest a n.a.info.cod (if Sco.isExtended p then .esco else .sco) ∧
      ((∃ kA kB link interval window rx tx, e = .syncComplete 0 kA b link interval window rx tx (airOfVoice p.voiceSetting) ∧
          e' = .syncComplete 0 kB a link interval window rx tx (airOfVoice p.voiceSetting) ∧ syncs n'.a b = 1 ∧ syncs n'.b a = 1 ∧
          isSync n'.a kA = true ∧ isSync n'.b kB = true) ∨
        (∃ st link link' air air', st ≠ 0 ∧ e = .syncComplete st 0 b link 0 0 0 0 air ∧ e' = .syncComplete st 0 a link' 0 0 0 0 air' ∧
          syncs n'.a b = 0 ∧ syncs n'.b a = 0)) := by
  obtain ⟨hiA, hiB, hA, hB⟩ := net_inv a b ha hb before hx ⟨fresh_inv a ia na, fresh_inv b ib nb, rfl, rfl⟩ hbefore
  clear hbefore hx
  obtain ⟨sa, sb, toA, toB⟩ := n
  simp only at *
  obtain ⟨rfl, rfl⟩ := hq
  subst hA hB
  obtain ⟨kA, lastA, e1, hkA⟩ := setup_new hiA hl (syncs_none h0.1) hroom.1 t0 p spoofed
  obtain ⟨kB, lastB, e2, hkB⟩ := request_new hiB (syncs_none h0.2) hroom.2 t1 0 p sa.info.cod
  have s1 : nstep ⟨sa, sb, [], []⟩ t0 (.hostA (.setupSync h p spoofed)) =
      some (⟨{ sa with sco := (kA, ⟨sb.addr, p, noLink, .pending, spoofed, false, false⟩) :: sa.sco, lastSco := lastA }, sb, [], [(sb.addr, .scoReq p sa.info.cod)]⟩, [], []) := by
    simp only [nstep, e1, putA]
    rfl
  have s2 : nstep ⟨{ sa with sco := (kA, ⟨sb.addr, p, noLink, .pending, spoofed, false, false⟩) :: sa.sco, lastSco := lastA }, sb, [], [(sb.addr, .scoReq p sa.info.cod)]⟩ t1 .arriveB =
      some (⟨{ sa with sco := (kA, ⟨sb.addr, p, noLink, .pending, spoofed, false, false⟩) :: sa.sco, lastSco := lastA },
        { touch sb t1 sa.addr with sco := (kB, ⟨sa.addr, p, noLink, if Sco.isExtended p then .sentEsco else .sentSco, false, false, false⟩) :: sb.sco, lastSco := lastB }, [], []⟩, [],
        [.connRequest sa.addr sa.info.cod (if Sco.isExtended p then .esco else .sco)]) := by
    simp only [nstep, e2, putB]
    rfl
  have hsyA : ∀ (s : Ctl) (k : Nat) (c : Syn), s.sco = (k, c) :: sa.sco → c.addr = sb.addr → syncs s sb.addr = 1 := by
    intro s k c h1 h2
    have h3 := h0.1
    unfold syncs at *
    rw [h1, List.filter_cons]
    simp [h2, h3]
  have hsyB : ∀ (s : Ctl) (k : Nat) (c : Syn), s.sco = (k, c) :: sb.sco → c.addr = sa.addr → syncs s sa.addr = 1 := by
    intro s k c h1 h2
    have h3 := h0.2
    unfold syncs at *
    rw [h1, List.filter_cons]
    simp [h2, h3]
  rcases accept_new (s := { touch sb t1 sa.addr with sco := (kB, ⟨sa.addr, p, noLink, if Sco.isExtended p then .sentEsco else .sentSco, false, false, false⟩) :: sb.sco, lastSco := lastB })
    rfl rfl (by
      cases Sco.isExtended p
      · exact .inr rfl
      · exact .inl rfl) rfl hkB t2 q with ⟨l, hair, e3⟩ | e3
  · have e4 := answer_yes (s := { sa with sco := (kA, ⟨sb.addr, p, noLink, .pending, spoofed, false, false⟩) :: sa.sco, lastSco := lastA }) rfl rfl rfl rfl hkA t3 0 l
    obtain ⟨link, interval, window, rx, tx, hev⟩ := syncEvent_is 0 0 0 l
    rw [hair] at hev
    refine ⟨⟨{ touch { sa with sco := (kA, ⟨sb.addr, p, noLink, .pending, spoofed, false, false⟩) :: sa.sco, lastSco := lastA } t3 sb.addr with sco := (kA, ⟨sb.addr, p, l, .opened, spoofed, false, spoofed⟩) :: sa.sco },
        { touch sb t1 sa.addr with sco := (kB, ⟨sa.addr, p, l, .opened, false, false, false⟩) :: sb.sco, lastSco := lastB }, [], []⟩,
      syncEvent 0 kA sb.addr l, syncEvent 0 kB sa.addr l, .connRequest sa.addr sa.info.cod (if Sco.isExtended p then .esco else .sco), ?_, rfl, rfl, rfl,
      .inl ⟨kA, kB, link, interval, window, rx, tx, hev _ _ _, hev _ _ _, hsyA _ _ _ rfl rfl, hsyB _ _ _ rfl rfl, ?_, ?_⟩⟩
    · exact nrun_four s1 s2 (hostB_step e3) (arriveA_step (touch_addr sb t1 sa.addr) e4)
    · simp [isSync]
    · simp [isSync]
  · have hst : Status.unknown ≠ 0 := by decide
    obtain ⟨link, e4⟩ := answer_no (s := { sa with sco := (kA, ⟨sb.addr, p, noLink, .pending, spoofed, false, false⟩) :: sa.sco, lastSco := lastA }) rfl rfl rfl rfl hkA t3 0 _ hst noLink
    refine ⟨⟨{ touch { sa with sco := (kA, ⟨sb.addr, p, noLink, .pending, spoofed, false, false⟩) :: sa.sco, lastSco := lastA } t3 sb.addr with sco := sa.sco },
        { touch sb t1 sa.addr with sco := sb.sco, lastSco := lastB }, [], []⟩,
      .syncComplete Status.unknown 0 sb.addr link 0 0 0 0 transparent, syncEvent Status.unknown 0 sa.addr noLink, .connRequest sa.addr sa.info.cod (if Sco.isExtended p then .esco else .sco), ?_, rfl, rfl, rfl,
      .inr ⟨Status.unknown, link, .sco, transparent, 0, hst, rfl, rfl, h0.1, h0.2⟩⟩
    exact nrun_four s1 s2 (hostB_step e3) (arriveA_step (touch_addr sb t1 sa.addr) e4)

/-- The two are connected and can have a synchronous connection, of both kinds and refused. -/
example : courtship.all (fun x => named x.2) = true ∧
    (nrun exampleNet courtship).map (fun r => (r.1.a.acl.map (fun e => (e.1, e.2.addr)), r.1.toA.length + r.1.toB.length, syncs r.1.a 0xB + syncs r.1.b 0xA)) =
      some ([(0, 0xB)], 0, 0) ∧
    (nrun exampleNet (courtship ++ [(2000000000, .hostA (.setupSync 0 voice false)), (2000000001, .arriveB), (2000000002, .hostB (.acceptSync 0xA voice)), (2000000003, .arriveA)])).map
      (fun r => (r.2.1.getLast?, r.2.2.getLast?)) =
      some (some (.syncComplete 0 0x100 0xB .esco 108 0 540 540 2), some (.syncComplete 0 0x100 0xA .esco 108 0 540 540 2)) := by
  decide +kernel

/-- If B's host rejects the request instead, both are told the reason; a rejection with the reason 0, success, is reported
as 0x13. -/
theorem C66_rejected (a b : Nat) (ha : a ≠ 0) (hb : b ≠ 0) (ia ib : Info) (na nb : Nat) (before : List (Nat × NAct))
    (hx : before.all (fun x => named x.2) = true) (n : Net) (ea eb : List Ev) (hbefore : nrun (Net.fresh a b ia ib na nb) before = some (n, ea, eb))
    (h : Nat) (hl : linked n.a h b) (hq : n.toA = [] ∧ n.toB = []) (h0 : syncs n.a b = 0 ∧ syncs n.b a = 0)
    (hroom : n.a.sco.length < 256 ∧ n.b.sco.length < 256) (t0 t1 t2 t3 : Nat) (p : ConnParams) (spoofed : Bool) (reason : Nat) :
    ∃ n' f link link' air air' why, why = (if reason = 0 then 0x13 else reason) ∧ nrun n [(t0, .hostA (.setupSync h p spoofed)), (t1, .arriveB), (t2, .hostB (.rejectSync a reason)), (t3, .arriveA)] =
        some (n', [.syncComplete why 0 b link 0 0 0 0 air], [f, .syncComplete why 0 a link' 0 0 0 0 air']) ∧
      n'.toA = [] ∧ n'.toB = [] ∧ syncs n'.a b = 0 ∧ syncs n'.b a = 0 := by
  obtain ⟨hiA, hiB, hA, hB⟩ := net_inv a b ha hb before hx ⟨fresh_inv a ia na, fresh_inv b ib nb, rfl, rfl⟩ hbefore
  clear hbefore hx
  obtain ⟨sa, sb, toA, toB⟩ := n
  simp only at *
  obtain ⟨rfl, rfl⟩ := hq
  subst hA hB
  obtain ⟨kA, lastA, e1, hkA⟩ := setup_new hiA hl (syncs_none h0.1) hroom.1 t0 p spoofed
  obtain ⟨kB, lastB, e2, hkB⟩ := request_new hiB (syncs_none h0.2) hroom.2 t1 0 p sa.info.cod
  have hr : rejectReason reason ≠ 0 := by
    unfold rejectReason
    split
    · decide
    · assumption
  have e3 : command { touch sb t1 sa.addr with sco := (kB, ⟨sa.addr, p, noLink, if Sco.isExtended p then .sentEsco else .sentSco, false, false, false⟩) :: sb.sco, lastSco := lastB } t2 (.rejectSync sa.addr reason) =
      .ok 0 { touch sb t1 sa.addr with sco := sb.sco, lastSco := lastB } [(sa.addr, .scoRsp (rejectReason reason) noLink)] [.syncComplete (rejectReason reason) 0 sa.addr .esco 0 0 0 0 transparent] := by
    have h1 : scoPending { touch sb t1 sa.addr with sco := (kB, ⟨sa.addr, p, noLink, if Sco.isExtended p then .sentEsco else .sentSco, false, false, false⟩) :: sb.sco, lastSco := lastB } sa.addr = true := by
      simp only [scoPending, scoOf_cons]
      cases Sco.isExtended p <;> rfl
    have h2 : cancelSyn ((kB, (⟨sa.addr, p, noLink, if Sco.isExtended p then .sentEsco else .sentSco, false, false, false⟩ : Syn)) :: sb.sco) sa.addr = some sb.sco := by
      unfold cancelSyn
      rw [scoOf_cons rfl]
      simp only [Bool.false_eq_true, if_false, erase_cons hkB]
    simp only [command, rejectSync, h1, if_true, h2]
    rfl
  obtain ⟨link, e4⟩ := answer_no (s := { sa with sco := (kA, ⟨sb.addr, p, noLink, .pending, spoofed, false, false⟩) :: sa.sco, lastSco := lastA }) rfl rfl rfl rfl hkA t3 0 _ hr noLink
  exact ⟨⟨{ touch { sa with sco := (kA, ⟨sb.addr, p, noLink, .pending, spoofed, false, false⟩) :: sa.sco, lastSco := lastA } t3 sb.addr with sco := sa.sco },
      { touch sb t1 sa.addr with sco := sb.sco, lastSco := lastB }, [], []⟩, .connRequest sa.addr sa.info.cod (if Sco.isExtended p then .esco else .sco), link, .esco, transparent, transparent, rejectReason reason, rfl,
    nrun_four (hostA_step (toB := []) e1) (arriveB_step (toA := []) (toB := []) (sa := { sa with sco := (kA, ⟨sb.addr, p, noLink, .pending, spoofed, false, false⟩) :: sa.sco, lastSco := lastA }) rfl e2) (hostB_step e3)
      (arriveA_step (touch_addr sb t1 sa.addr) e4), rfl, rfl, h0.1, h0.2⟩

/-- A synchronous connection between the two that is the only one at both ends: its data arrives unchanged on the
other's handle, and when A's host ends it, both hosts are told and nothing of it is left. -/
theorem C66_data_and_end (n : Net) (hq : n.toA = [] ∧ n.toB = []) (kA kB : Nat) (cA cB : Syn) (hA : n.a.sco = [(kA, cA)]) (hB : n.b.sco = [(kB, cB)])
    (hcA : cA.addr = n.b.addr) (hcB : cB.addr = n.a.addr) (hm : n.a.mask.testBit 4 = true ∧ n.b.mask.testBit 4 = true) (t0 t1 t2 t3 reason : Nat) (d : List UInt8) :
    ∃ n', nrun n [(t0, .hostA (.sco kA d)), (t1, .arriveB), (t2, .hostA (.disconnect kA reason)), (t3, .arriveB)] =
        some (n', [.disconnComplete kA 0x16], [.sco kB d, .disconnComplete kB reason]) ∧
      n'.toA = [] ∧ n'.toB = [] ∧ n'.a.sco = [] ∧ n'.b.sco = [] := by
  obtain ⟨sa, sb, toA, toB⟩ := n
  simp only at *
  obtain ⟨rfl, rfl⟩ := hq
  have e1 : command sa t0 (.sco kA d) = .ok 0 sa [(sb.addr, .sco d)] [] := by
    simp only [command, sendSco, find, hA, if_true, hcA]
  have e2 : incoming sb t1 sa.addr sb.addr 0 (.sco d) = .ok 0 (touch sb t1 sa.addr) [] [.sco kB d] := by
    simp only [incoming, ne_eq, not_true_eq_false, and_false, if_false, dispatch, onSco, touch_sco, hB, scoOf_cons hcB]
  have e3 : command sa t2 (.disconnect kA reason) = .ok 0 { sa with sco := [] } [(sb.addr, .scoDisc reason)] [.disconnComplete kA 0x16] := by
    have h1 : unmasked sa 5 = true := hm.1
    have h2 : find sa.sco kA = some cA := by
      rw [hA]
      simp [find]
    have h3 : erase sa.sco kA = [] := by
      rw [hA]
      exact erase_cons (by simp [keys])
    simp only [command, disconnect, h2, h3, hcA, tell, h1, if_true]
    rfl
  have hm2 : ∀ now, unmasked (touch (touch sb t1 sa.addr) now sa.addr) 5 = true := by
    intro now
    have : ∀ (s : Ctl) (t y : Nat), unmasked (touch s t y) 5 = unmasked s 5 := by
      intro s t y
      unfold touch
      split <;> rfl
    rw [this, this]
    exact hm.2
  have e4 : incoming (touch sb t1 sa.addr) t3 sa.addr sb.addr 0 (.scoDisc reason) =
      .ok 0 { touch (touch sb t1 sa.addr) t3 sa.addr with sco := [] } [] [.disconnComplete kB reason] := by
    have h1 : ¬(sb.addr ≠ 0 ∧ sb.addr ≠ (touch sb t1 sa.addr).addr) := by
      rw [touch_addr]
      exact fun h => h.2 rfl
    unfold incoming
    rw [if_neg h1]
    have h2 : scoOf (touch (touch sb t1 sa.addr) t3 sa.addr).sco sa.addr = some (kB, cB) := by
      rw [touch_sco, touch_sco, hB, scoOf_cons hcB]
    simp only [dispatch, onScoDisc, h2, tell, hm2, if_true]
    rw [touch_sco, touch_sco, hB, erase_cons (by simp [keys])]
  refine ⟨⟨{ sa with sco := [] }, { touch (touch sb t1 sa.addr) t3 sa.addr with sco := [] }, [], []⟩, ?_, rfl, rfl, rfl, rfl⟩
  exact nrun_four (hostA_step (toB := []) e1) (arriveB_step (toA := []) (toB := []) rfl e2) (hostA_step (toB := []) e3)
    (arriveB_step (toA := []) (toB := []) (sa := { sa with sco := [] }) rfl e4)

/-- Such a connection. -/
def voiced : List (Nat × NAct) :=
  courtship ++ [(2000000000, .hostA (.setupSync 0 voice false)), (2000000001, .arriveB), (2000000002, .hostB (.acceptSync 0xA voice)), (2000000003, .arriveA)]

example : (nrun exampleNet voiced).map (fun r => (r.1.a.sco.map (fun e => (e.1, e.2.addr)), r.1.b.sco.map (fun e => (e.1, e.2.addr)), r.1.toA.length + r.1.toB.length,
    r.1.a.mask.testBit 4 && r.1.b.mask.testBit 4)) = some ([(0x100, 0xB)], [(0x100, 0xA)], 0, true) := by
  decide +kernel

/-! ## Where the ends disagree -/

/-- Parameters of a device that sends more than it receives, and of its peer. -/
def uneven : ConnParams := { voice with txBandwidth := 8000, rxBandwidth := 4000 }
def unevenPeer : ConnParams := { voice with txBandwidth := 4000, rxBandwidth := 8000 }

/-- Both hosts are told the same lengths: B is told that it sends what A sends and receives what A receives. -/
theorem C66_lengths_violated :
    (nrun exampleNet (courtship ++ [(2000000000, .hostA (.setupSync 0 uneven false)), (2000000001, .arriveB), (2000000002, .hostB (.acceptSync 0xA unevenPeer)),
      (2000000003, .arriveA)])).map (fun r => (r.2.1.getLast?, r.2.2.getLast?)) =
      some (some (.syncComplete 0 0x100 0xB .esco 108 0 270 540 2), some (.syncComplete 0 0x100 0xA .esco 108 0 270 540 2)) := by
  decide +kernel

/-- A host can accept the request it made itself: it has a connection the other knows nothing of. -/
theorem C66_own_request_violated :
    (nrun exampleNet (courtship ++ [(2000000000, .hostA (.setupSync 0 voice false)), (2000000001, .hostA (.acceptSync 0xB voice))])).map
      (fun r => (r.2.1.getLast?, syncs r.1.a 0xB, syncs r.1.b 0xA)) = some (some (.syncComplete 0 0x100 0xB .esco 108 0 540 540 2), 1, 0) := by
  decide +kernel

/-- A device that is not connected can ask for a synchronous connection, and gets it. -/
theorem C66_stranger_violated :
    (run exampleA [(0, .packet 0xC 0xA 0 (.scoReq voice 0)), (1, .cmd (.acceptSync 0xC voice))]).map
      (fun r => (peers r.1, r.2.flatMap Seen.ev)) =
      some ([], [.connRequest 0xC 0 .esco, .syncComplete 0 0x100 0xC .esco 108 0 540 540 2]) := by
  decide +kernel

/-- Parameters that allow no extended connection. -/
def plainVoice : ConnParams := { voice with packetType := 0x3c4 }

/-- The kind of a connection that failed is not the one the other was asked for: a rejected plain request is
reported as extended, and a failed negotiation of an extended one is reported as plain to B's host. -/
theorem C66_kind_violated :
    (nrun exampleNet (courtship ++ [(2000000000, .hostA (.setupSync 0 plainVoice false)), (2000000001, .arriveB), (2000000002, .hostB (.rejectSync 0xA 0x0d)),
      (2000000003, .arriveA)])).map (fun r => (r.2.1.getLast?, r.2.2.drop (r.2.2.length - 2))) =
      some (some (.syncComplete 0x0d 0 0xB .esco 0 0 0 0 3), [.connRequest 0xA 0x5a020c .sco, .syncComplete 0x0d 0 0xA .esco 0 0 0 0 3]) ∧
    (nrun exampleNet (courtship ++ [(2000000000, .hostA (.setupSync 0 voice false)), (2000000001, .arriveB),
      (2000000002, .hostB (.acceptSync 0xA { voice with txBandwidth := 1 })), (2000000003, .arriveA)])).map
        (fun r => (r.2.1.getLast?, r.2.2.drop (r.2.2.length - 2))) =
      some (some (.syncComplete Status.unknown 0 0xB .esco 0 0 0 0 3), [.connRequest 0xA 0x5a020c .esco, .syncComplete Status.unknown 0 0xA .sco 0 0 0 0 0]) := by
  decide +kernel

end Verif.Br
