import Verif.Br.PairLemmas
import Verif.Br.PropsFail
/-!
# C64: two devices agree on their connection

C64: once no packet is on its way between two devices, each is connected with the other or neither is, and if they
are connected, one is the central and the other the peripheral. -/
namespace Verif.Br

/-- Two devices after construction. -/
def Net.fresh (a b : Nat) (ia ib : Info) (na nb : Nat) : Net := ⟨Ctl.fresh a ia na, Ctl.fresh b ib nb, [], []⟩

theorem agreed_fresh (a b : Nat) (ia ib : Info) (na nb : Nat) : Agreed a b (Net.fresh a b ia ib na nb) := by
  refine ⟨rfl, rfl, ?_, ?_, ?_, nofun⟩
  · exact ⟨fresh_inv a ia na, .inl rfl, nofun, rfl, show Nat.testBit 0x00001fffffffffff 3 = true by decide⟩
  · exact ⟨fresh_inv b ib nb, .inl rfl, nofun, rfl, show Nat.testBit 0x00001fffffffffff 3 = true by decide⟩
  · exact .apart none none [] [] [] nofun nofun nofun nofun

theorem agreed_step {a b : Nat} (ha : a ≠ 0) (hb : b ≠ 0) {n : Net} (hn : Agreed a b n) {now : Nat} {x : NAct} (ho : orderly n now x = true)
    {r : Net × List Ev × List Ev} (h : nstep n now x = some r) : Agreed a b r.1 := by
  cases x with
  | hostA c =>
    refine agreed_hostA hn hb (act := .cmd c) ?_ nofun ?_ ?_ h
    · cases c with
      | create x w =>
        have h1 : x ≠ 0 := by simpa [orderly] using ho
        exact h1
      | _ => trivial
    · intro m hm
      cases hm
      exact ho
    · cases c with
      | cancel x => cases ho
      | reset =>
        have h1 : n.a.page = none := by simpa [orderly] using ho
        exact h1
      | _ => trivial
  | hostB c =>
    refine agreed_hostB hn ha (act := .cmd c) ?_ nofun ?_ ?_ ?_ h
    · cases c with
      | create x w => cases ho
      | _ => trivial
    · intro m hm
      cases hm
      exact ho
    · intro x r hm
      cases hm
      cases ho
    · cases c with
      | create x w => cases ho
      | disconnect x w => exact ⟨not_isPage ho, not_isRsp ho⟩
      | reset => exact ⟨not_isPage ho, not_isRsp ho⟩
      | _ => trivial
  | tickA => exact agreed_hostA hn hb (act := .tick) trivial nofun nofun (fun p hp => by simpa [orderly, hp] using ho) h
  | tickB => exact agreed_hostB hn ha (act := .tick) trivial nofun nofun nofun trivial h
  | checkA k => exact agreed_hostA hn hb (act := .check k) trivial nofun nofun trivial h
  | checkB k => exact agreed_hostB hn ha (act := .check k) trivial nofun nofun nofun ⟨not_isPage ho, not_isRsp ho⟩ h
  | arriveA =>
    simp only [nstep] at h
    split at h
    · cases h
      exact hn
    · rename_i d p q hto
      exact agreed_arriveA hn hb hto h
  | arriveB =>
    simp only [nstep] at h
    split at h
    · cases h
      exact hn
    · rename_i d p q hto
      exact agreed_arriveB hn ha hto h

theorem agreed_run {a b : Nat} (ha : a ≠ 0) (hb : b ≠ 0) (xs : List (Nat × NAct)) {n n' : Net} (hn : Agreed a b n) (ho : orderlyRun n xs = true)
    {ea eb : List Ev} (h : nrun n xs = some (n', ea, eb)) : Agreed a b n' := by
  induction xs generalizing n ea eb with
  | nil =>
    cases h
    exact hn
  | cons x xs ih =>
    obtain ⟨now, x⟩ := x
    simp only [nrun] at h
    split at h
    · cases h
    · rename_i n1 e1 e2 hs
      rw [Option.map_eq_some_iff] at h
      obtain ⟨⟨n2, f1, f2⟩, h1, h2⟩ := h
      cases h2
      simp only [orderlyRun, hs, Bool.and_eq_true, Option.all_some] at ho
      exact ih (agreed_step ha hb hn ho.1 hs) ho.2 h1

/-- In every orderly history of two devices, whatever the schedule, whenever no packet is on its way the two agree on
whether they are connected, and have different roles. The full claim is about all histories; the theorems below say
what happens otherwise. -/
theorem C64_agree_partial (a b : Nat) (ha : a ≠ 0) (hb : b ≠ 0) (ia ib : Info) (na nb : Nat) (xs : List (Nat × NAct))
    (ho : orderlyRun (Net.fresh a b ia ib na nb) xs = true) (n : Net) (ea eb : List Ev)
    (h : nrun (Net.fresh a b ia ib na nb) xs = some (n, ea, eb)) (hA : n.toA = []) (hB : n.toB = []) :
    roleWith n.b a = (roleWith n.a b).map Role.other ∧ (b ∈ peers n.a ↔ a ∈ peers n.b) := by
  have h1 := agreed_run ha hb xs (agreed_fresh a b ia ib na nb) ho h
  have h2 := h1.phase
  rw [hA, hB] at h2
  have key : ∀ va vb la lb, la = [] → lb = [] → Phase va vb la lb → vb.conn = va.conn.map Role.other := by
    intro va vb la lb h3 h4 h5
    cases h5 with
    | apart => rfl
    | half => simp at h3
    | joined ra rb _ _ _ _ h6 =>
      rw [h3, h4] at h6
      simp only [fit, flips, Bool.xor_false, Bool.false_eq_true, if_false] at h6
      rw [h6]
      rfl
    | left => simp at h4
    | dropped => simp at h3
  have h3 : roleWith n.b a = (roleWith n.a b).map Role.other := key _ _ _ _ rfl rfl h2
  refine ⟨h3, ?_⟩
  have conn : ∀ (s : Ctl) (x : Nat), Only x s → (x ∈ peers s ↔ roleWith s x ≠ none) := by
    intro s x hs
    rcases hs.acl with h4 | ⟨k, c, h4, h5⟩
    · rw [role_none h4]
      simp [peers, h4]
    · rw [role_one h4 h5]
      simp [peers, h4, h5]
  rw [conn n.a b h1.onlyA, conn n.b a h1.onlyB, h3]
  cases roleWith n.a b <;> simp

def exampleNet : Net := Net.fresh 0xA 0xB exampleInfo exampleInfo 1 1

/-- A connects to B, which asks to become the central; then both ask for a role switch at once. -/
def courtship : List (Nat × NAct) :=
  [(0, .hostB (.writeScanEnable true true)), (0, .hostA (.writeDefaultPolicy 1)), (0, .hostB (.writeDefaultPolicy 1)), (0, .hostA (.create 0xB true)),
   (1000000000, .tickA), (1000000001, .arriveB), (1000000002, .hostB (.accept 0xA true)), (1000000003, .arriveA),
   (1000000004, .hostA (.switchRole 0xB .central)), (1000000005, .hostB (.switchRole 0xA .peripheral)), (1000000006, .arriveB),
   (1000000007, .arriveA), (1000000008, .arriveA), (1000000009, .arriveB)]

example : orderlyRun exampleNet courtship = true ∧
    (nrun exampleNet courtship).map (fun r => (roleWith r.1.a 0xB, roleWith r.1.b 0xA, r.1.toA.length + r.1.toB.length)) =
      some (some .peripheral, some .central, 0) := by
  decide +kernel

/-! ## Disorderly histories -/

/-- What is left of a history: the connections and the packets on their way. -/
def outcome (xs : List (Nat × NAct)) : Option (Option Role × Option Role × Nat) :=
  (nrun exampleNet xs).map (fun r => (roleWith r.1.a 0xB, roleWith r.1.b 0xA, r.1.toA.length + r.1.toB.length))

/-- A's page reaches B. -/
def paged : List (Nat × NAct) :=
  [(0, .hostB (.writeScanEnable true true)), (0, .hostA (.writeScanEnable true true)), (0, .hostA (.create 0xB true)), (1000000000, .tickA), (1000000001, .arriveB)]

/-- A's host gives up before B's host accepts: B is connected, A is not. -/
theorem C64_cancel_violated :
    outcome (paged ++ [(2000000000, .hostA (.cancel 0xB)), (3000000000, .hostB (.accept 0xA false)), (3000000001, .arriveA)]) =
      some (none, some .peripheral, 0) := by
  decide +kernel

/-- The page timeout has the same effect. -/
theorem C64_timeout_violated :
    outcome (paged ++ [(6000000000, .tickA), (7000000000, .hostB (.accept 0xA false)), (7000000001, .arriveA)]) =
      some (none, some .peripheral, 0) := by
  decide +kernel

/-- A request that was rejected can be accepted afterwards. -/
theorem C64_reject_violated :
    outcome (paged ++ [(2000000000, .hostB (.reject 0xA 0x0d)), (2000000001, .tickB), (2000000002, .arriveA), (3000000000, .hostB (.accept 0xA false)),
      (3000000001, .arriveA)]) = some (none, some .peripheral, 0) := by
  decide +kernel

/-- Both page each other, and both hosts accept: both take themselves for the peripheral. -/
theorem C64_crossing_violated :
    outcome [(0, .hostB (.writeScanEnable true true)), (0, .hostA (.writeScanEnable true true)), (0, .hostA (.create 0xB true)), (0, .hostB (.create 0xA true)),
      (1000000000, .tickA), (1000000000, .tickB), (1000000001, .arriveA), (1000000001, .arriveB), (2000000000, .hostA (.accept 0xB false)),
      (2000000000, .hostB (.accept 0xA false)), (2000000001, .arriveA), (2000000001, .arriveB)] =
      some (some .peripheral, some .peripheral, 0) := by
  decide +kernel

/-- A connection attempt to the empty address is taken by every device, which then is connected alone. -/
theorem C64_empty_address_violated :
    outcome [(0, .hostB (.writeScanEnable true true)), (0, .hostA (.create 0 true)), (1000000000, .tickA), (1000000001, .arriveB),
      (2000000000, .hostB (.accept 0xA false)), (2000000001, .arriveA)] = some (none, some .peripheral, 0) := by
  decide +kernel

/-- A second page that arrives after the connection was made and ended connects B alone. -/
theorem C64_stale_page_violated :
    outcome (paged ++ [(2000000000, .tickA), (2000000001, .hostB (.accept 0xA false)), (2000000002, .arriveA), (2000000003, .hostB (.disconnect 0 0x13)),
      (2000000004, .arriveB), (2000000005, .arriveA), (2000000006, .hostB (.accept 0xA false)), (2000000007, .arriveA)]) =
      some (none, some .peripheral, 0) := by
  decide +kernel

/-- And such a connection stays: any device answers a ping, connected or not, and any packet of the peer keeps a
connection alive. -/
theorem C64_ping_violated (s : Ctl) (now src rssi : Nat) :
    ∃ s', step s now (.packet src s.addr rssi .ping) = .ok 0 s' [(src, .pong)] [] := by
  refine ⟨touch s now src, ?_⟩
  simp only [step, incoming]
  rw [if_neg (by simp)]
  rfl

/-! ## Connecting -/

/-- A device that does nothing and has room for a connection. -/
structure Ready (s : Ctl) : Prop where
  inv : Inv s
  page : s.page = none
  scan : s.scan = none
  inq : s.inq = none
  later : s.later = []
  room : s.acl.length < 7
  mask : s.mask.testBit 2 = true ∧ s.mask.testBit 3 = true

/-- Whatever else they are connected with, two idle devices, one of them scanning for pages, are connected by Create
Connection, one page, Accept Connection Request and the answer. The one that accepts becomes the central exactly if
it asks to and the other allows it. Both hosts are told. -/
theorem C64_connects (n : Net) (hA : Ready n.a) (hB : Ready n.b) (ha : n.a.addr ≠ 0) (hb : n.b.addr ≠ 0) (hto : n.toA = [] ∧ n.toB = [])
    (h1 : n.b.addr ∉ peers n.a) (h2 : n.a.addr ∉ peers n.b) (hscan : n.b.pageScan = true) (t0 t1 t2 t3 t4 : Nat) (w t : Bool)
    (ht : t0 + 1000000000 ≤ t1 ∧ t1 < t0 + n.a.pageTimeout * 625000) :
    ∃ n' ea eb ka kb, nrun n [(t0, .hostA (.create n.b.addr w)), (t1, .tickA), (t2, .arriveB), (t3, .hostB (.accept n.a.addr t)), (t4, .arriveA)] =
        some (n', ea, eb) ∧
      n'.toA = [] ∧ n'.toB = [] ∧ roleWith n'.a n.b.addr = some (if w && t then .peripheral else .central) ∧
      roleWith n'.b n.a.addr = some (if w && t then .central else .peripheral) ∧
      Ev.connComplete 0 ka n.b.addr .acl ∈ ea ∧ Ev.connComplete 0 kb n.a.addr .acl ∈ eb := by
  obtain ⟨a, b, toA, toB⟩ := n
  simp only at *
  obtain ⟨rfl, rfl⟩ := hto
  have s1 : nstep ⟨a, b, [], []⟩ t0 (.hostA (.create b.addr w)) =
      some (⟨{ a with page := some ⟨b.addr, w, t0 + 1000000000, t0 + a.pageTimeout * 625000⟩ }, b, [], []⟩, [], []) := by
    simp [nstep, command, createConnection, hA.page, hA.scan, aclOf_none.2 h1, putA]
  have s2 : nstep ⟨{ a with page := some ⟨b.addr, w, t0 + 1000000000, t0 + a.pageTimeout * 625000⟩ }, b, [], []⟩ t1 .tickA =
      some (⟨{ a with later := [], page := some ⟨b.addr, w, t1 + 1000000000, t0 + a.pageTimeout * 625000⟩ }, b, [], [(b.addr, .page a.info.cod w)]⟩, [], []) := by
    have h3 : ¬ t0 + a.pageTimeout * 625000 ≤ t1 := by omega
    simp [nstep, tick, sendRejects, paging, inquiring, hA.later, hA.inq, hA.scan, h3, ht.1, putA]
  have tB : ∀ now, touch b now a.addr = b := by
    intro now
    unfold touch
    rw [aclOf_none.2 h2]
  have s3 : ∀ a' : Ctl, a'.addr = a.addr → nstep ⟨a', b, [], [(b.addr, .page a.info.cod w)]⟩ t2 .arriveB =
      some (⟨a', { b with scan := some ⟨a.addr, w⟩ }, [], []⟩, [], [.connRequest a.addr a.info.cod .acl]) := by
    intro a' ha'
    have hm : unmasked b 4 = true := hB.mask.2
    simp [nstep, incoming, ha', tB, dispatch, onPage, hscan, hm, aclOf_none.2 h2, hB.scan, putB]
  obtain ⟨kb, lastb, hcb⟩ : ∃ k last, connect { b with scan := some ⟨a.addr, w⟩ } t3 a.addr (acceptorRole t w) =
      .ok k { b with scan := some ⟨a.addr, w⟩, acl := (k, ⟨a.addr, acceptorRole t w, b.policy, t3⟩) :: b.acl, lastAcl := last, lm := a.addr :: b.lm } := by
    have hi : Inv { b with scan := some ⟨a.addr, w⟩ } := hB.inv.same rfl rfl rfl rfl rfl (fun p hp => hB.inv.page p hp) (by
      intro p hp
      injection hp with hp
      rw [← hp]
      exact ha)
    rcases connect_ok hi (now := t3) (role := acceptorRole t w) h2 ha with ⟨k, last, h3, -⟩ | ⟨-, h3⟩
    · exact ⟨k, last, h3⟩
    · have := hB.room
      simp only [] at h3
      omega
  have s4 : ∀ a' : Ctl, nstep ⟨a', { b with scan := some ⟨a.addr, w⟩ }, [], []⟩ t3 (.hostB (.accept a.addr t)) =
      some (⟨a', { b with scan := none, acl := (kb, ⟨a.addr, acceptorRole t w, b.policy, t3⟩) :: b.acl, lastAcl := lastb, lm := a.addr :: b.lm }, [(a.addr, .pageRsp t)], []⟩, [],
        (if acceptorRole t w = .central then tell b 0x12 (.roleChange 0 a.addr .central) else []) ++ [.connComplete 0 kb a.addr .acl]) := by
    intro a'
    have hm : unmasked b 3 = true := hB.mask.1
    have hpg : (if b.page.any (fun q => decide (q.addr = a.addr)) = true then none else b.page) = b.page := by simp [hB.page]
    have hm' : unmasked { b with scan := some ⟨a.addr, w⟩ } 3 = true := hm
    have hn : aclOf { b with scan := some ⟨a.addr, w⟩ } a.addr = none := aclOf_none.2 h2
    have htl : ∀ e, tell { b with scan := some ⟨a.addr, w⟩ } 0x12 e = tell b 0x12 e := fun _ => rfl
    have htl' : ∀ e, tell { b with scan := some ⟨a.addr, w⟩ } 0x03 e = [e] := fun e => if_pos hm'
    simp only [nstep, command, acceptConnection, Option.filter, decide_true, if_true, acceptPage, hn, hcb, Option.isSome_none, Bool.false_eq_true, if_false, putB, htl, htl', hpg]
    rfl
  obtain ⟨ka, lasta, hca⟩ : ∃ k last, connect { a with later := [], page := some ⟨b.addr, w, t1 + 1000000000, t0 + a.pageTimeout * 625000⟩ } t4 b.addr (pagerRole w t) =
      .ok k { a with later := [], page := some ⟨b.addr, w, t1 + 1000000000, t0 + a.pageTimeout * 625000⟩, acl := (k, ⟨b.addr, pagerRole w t, a.policy, t4⟩) :: a.acl, lastAcl := last, lm := b.addr :: a.lm } := by
    have hi : Inv { a with later := [], page := some ⟨b.addr, w, t1 + 1000000000, t0 + a.pageTimeout * 625000⟩ } := hA.inv.same rfl rfl rfl rfl rfl (by
      intro p hp
      injection hp with hp
      rw [← hp]
      exact ⟨h1, hb⟩) (fun p hp => hA.inv.scan p hp)
    rcases connect_ok hi (now := t4) (role := pagerRole w t) h1 hb with ⟨k, last, h3, -⟩ | ⟨-, h3⟩
    · exact ⟨k, last, h3⟩
    · have := hA.room
      simp only [] at h3
      omega
  have s5 : ∀ b' : Ctl, b'.addr = b.addr → nstep ⟨{ a with later := [], page := some ⟨b.addr, w, t1 + 1000000000, t0 + a.pageTimeout * 625000⟩ }, b', [(a.addr, .pageRsp t)], []⟩ t4 .arriveA =
      some (⟨{ a with later := [], page := none, acl := (ka, ⟨b.addr, pagerRole w t, a.policy, t4⟩) :: a.acl, lastAcl := lasta, lm := b.addr :: a.lm }, b', [], []⟩,
        (if pagerRole w t = .peripheral then tell a 0x12 (.roleChange 0 b.addr .peripheral) else []) ++ [.connComplete 0 ka b.addr .acl], []) := by
    intro b' hb'
    have hn : aclOf { a with later := [], page := some ⟨b.addr, w, t1 + 1000000000, t0 + a.pageTimeout * 625000⟩ } b.addr = none := aclOf_none.2 h1
    have hm' : unmasked { a with later := [], page := some ⟨b.addr, w, t1 + 1000000000, t0 + a.pageTimeout * 625000⟩ } 3 = true := hA.mask.1
    have htl : ∀ e, tell { a with later := [], page := some ⟨b.addr, w, t1 + 1000000000, t0 + a.pageTimeout * 625000⟩ } 0x12 e = tell a 0x12 e := fun _ => rfl
    have htl' : ∀ e, tell { a with later := [], page := some ⟨b.addr, w, t1 + 1000000000, t0 + a.pageTimeout * 625000⟩ } 0x03 e = [e] := fun e => if_pos hm'
    have hd : ¬(a.addr ≠ 0 ∧ a.addr ≠ a.addr) := by simp
    simp only [nstep, incoming, hb']
    rw [if_neg hd]
    simp only [touch, hn, dispatch, onPageRsp, ne_eq, not_true_eq_false, if_false, hca, putA, htl, htl']
    rfl
  refine ⟨⟨{ a with later := [], page := none, acl := (ka, ⟨b.addr, pagerRole w t, a.policy, t4⟩) :: a.acl, lastAcl := lasta, lm := b.addr :: a.lm },
      { b with scan := none, acl := (kb, ⟨a.addr, acceptorRole t w, b.policy, t3⟩) :: b.acl, lastAcl := lastb, lm := a.addr :: b.lm }, [], []⟩,
    (if pagerRole w t = .peripheral then tell a 0x12 (.roleChange 0 b.addr .peripheral) else []) ++ [.connComplete 0 ka b.addr .acl],
    [.connRequest a.addr a.info.cod .acl] ++ ((if acceptorRole t w = .central then tell b 0x12 (.roleChange 0 a.addr .central) else []) ++ [.connComplete 0 kb a.addr .acl]),
    ka, kb, ?_, ?_⟩
  · simp only [nrun]
    rw [s1]
    simp only []
    rw [s2]
    simp only []
    rw [s3 { a with later := [], page := some ⟨b.addr, w, t1 + 1000000000, t0 + a.pageTimeout * 625000⟩ } rfl]
    simp only []
    rw [s4]
    simp only []
    rw [s5 { b with scan := none, acl := (kb, ⟨a.addr, acceptorRole t w, b.policy, t3⟩) :: b.acl, lastAcl := lastb, lm := a.addr :: b.lm } rfl]
    simp
  · refine ⟨rfl, rfl, ?_, ?_, ?_, ?_⟩
    · simp [roleWith, pagerRole]
    · simp only [roleWith, acceptorRole, List.find?_cons, decide_true, Option.map_some]
      rw [Bool.and_comm]
    · simp
    · simp

/-- Two devices after construction, one of which scans. -/
example : Ready (Ctl.fresh 0xA exampleInfo 1) ∧ ∃ s' out ev, step (Ctl.fresh 0xB exampleInfo 1) 0 (.cmd (.writeScanEnable true true)) = .ok 0 s' out ev ∧ Ready s' :=
  ⟨⟨fresh_inv _ _ _, rfl, rfl, rfl, rfl, by decide, by decide⟩, _, _, _, rfl, ⟨inv_after (fresh_inv 0xB exampleInfo 1) (x := .cmd (.writeScanEnable true true)) (now := 0) trivial rfl, rfl, rfl, rfl, rfl, by decide, by decide⟩⟩

/-! ## Switching roles -/

theorem find_update {a h : Nat} {c c' : Acl} (hc : c'.addr = a) (t : Conn.Table Acl)
    (hf : t.find? (fun e => e.2.addr = a) = some (h, c)) : (update t h c').find? (fun e => e.2.addr = a) = some (h, c') := by
  induction t with
  | nil => simp at hf
  | cons e t ih =>
    simp only [update, List.map_cons] at *
    by_cases h1 : e.1 = h
    · rw [if_pos h1, List.find?_cons_of_pos (by simpa using hc)]
    · rw [if_neg h1]
      by_cases h2 : e.2.addr = a
      · rw [List.find?_cons_of_pos (by simpa using h2)] at hf
        cases hf
        exact absurd rfl h1
      · rw [List.find?_cons_of_neg (by simpa using h2)] at hf ⊢
        exact ih hf

theorem aclOf_touch {s : Ctl} {a h : Nat} {c : Acl} (now : Nat) (hf : aclOf s a = some (h, c)) :
    aclOf (touch s now a) a = some (h, { c with last := now }) := by
  have ha := (aclOf_some hf).2
  rw [aclOf_find?] at hf
  rw [aclOf_find?]
  simp only [touch, aclOf_find?, hf]
  exact find_update (c' := { c with last := now }) ha _ hf

/-- Two connected devices with nothing on its way, and no synchronous connection: one asks for the other role. If the
other's link policy allows it both change roles and both hosts are told their new role, and if not both keep them and
the host that asked is told so. -/
theorem C64_switch (n : Net) (r : Role) (hto : n.toA = [] ∧ n.toB = []) (hA : roleWith n.a n.b.addr = some r)
    (hB : roleWith n.b n.a.addr = some r.other) (hs : n.b.addr ∉ n.a.sco.map (fun e => e.2.addr))
    (hm : n.a.mask.testBit 17 = true ∧ n.b.mask.testBit 17 = true) (t0 t1 t2 : Nat) :
    ∃ n' ea eb, nrun n [(t0, .hostA (.switchRole n.b.addr r.other)), (t1, .arriveB), (t2, .arriveA)] = some (n', ea, eb) ∧
      n'.toA = [] ∧ n'.toB = [] ∧
      (allowsSwitch n.b n.a.addr = true → roleWith n'.a n.b.addr = some r.other ∧ roleWith n'.b n.a.addr = some r ∧
        ea = [.roleChange 0 n.b.addr r.other] ∧ eb = [.roleChange 0 n.a.addr r]) ∧
      (allowsSwitch n.b n.a.addr = false → roleWith n'.a n.b.addr = some r ∧ roleWith n'.b n.a.addr = some r.other ∧
        ea = [.roleChange 0x21 n.b.addr r] ∧ eb = []) := by
  obtain ⟨a, b, toA, toB⟩ := n
  simp only at *
  obtain ⟨rfl, rfl⟩ := hto
  simp only [roleWith, Option.map_eq_some_iff] at hA hB
  obtain ⟨⟨ha, ca⟩, hA, hra⟩ := hA
  obtain ⟨⟨hb, cb⟩, hB, hrb⟩ := hB
  simp only at hra hrb
  have hA' : aclOf a b.addr = some (ha, ca) := (aclOf_find? _ _).trans hA
  have hB' : aclOf b a.addr = some (hb, cb) := (aclOf_find? _ _).trans hB
  have haA := (aclOf_some hA').2
  have haB := (aclOf_some hB').2
  have hsco : scoOf a.sco b.addr = none := by
    rw [scoOf_find?, List.find?_eq_none]
    intro x hx h
    exact hs (List.mem_map.mpr ⟨x, hx, by simpa using h⟩)
  have hne : r.other ≠ ca.role := by rw [hra]; cases r <;> decide
  have hoo : r.other.other = r := by cases r <;> rfl
  have s1 : nstep ⟨a, b, [], []⟩ t0 (.hostA (.switchRole b.addr r.other)) = some (⟨a, b, [], [(b.addr, .roleReq)]⟩, [], []) := by
    simp only [nstep, command, switchRole, hA', hsco, Option.isSome_none, Bool.false_eq_true, if_false]
    rw [if_pos hne]
    rfl
  have tB := aclOf_touch t1 hB'
  have tA := aclOf_touch t2 hA'
  have hmA : ∀ e, tell (touch a t2 b.addr) 0x12 e = [e] := by
    intro e
    unfold tell unmasked
    rw [touch_eq]
    exact if_pos hm.1
  have hmB : ∀ e, tell (touch b t1 a.addr) 0x12 e = [e] := by
    intro e
    unfold tell unmasked
    rw [touch_eq]
    exact if_pos hm.2
  have hpol : allowsSwitch b a.addr = cb.policy.testBit 0 := by
    simp only [allowsSwitch, hB, Option.any_some]
  have hadB : (touch b t1 a.addr).addr = b.addr := by rw [touch_eq]
  have hadA : (touch a t2 b.addr).addr = a.addr := by rw [touch_eq]
  cases hp : cb.policy.testBit 0 with
  | true =>
    have s2 : nstep ⟨a, b, [], [(b.addr, .roleReq)]⟩ t1 .arriveB =
        some (⟨a, { touch b t1 a.addr with acl := update (touch b t1 a.addr).acl hb { cb with last := t1, role := r } }, [(a.addr, .roleRsp 0)], []⟩, [],
          [.roleChange 0 a.addr r]) := by
      simp only [nstep, incoming]
      rw [if_neg (by simp)]
      simp only [dispatch, onRoleReq, tB, hp, Bool.true_eq_false, if_false, hmB, hrb, hoo, putB]
      rfl
    have s3 : ∀ b' : Ctl, b'.addr = b.addr → nstep ⟨a, b', [(a.addr, .roleRsp 0)], []⟩ t2 .arriveA =
        some (⟨{ touch a t2 b.addr with acl := update (touch a t2 b.addr).acl ha { ca with last := t2, role := r.other } }, b', [], []⟩,
          [.roleChange 0 b.addr r.other], []) := by
      intro b' hb'
      simp only [nstep, incoming, hb']
      rw [if_neg (by simp)]
      simp only [dispatch, onRoleRsp, tA, hmA, hra, putA]
      rfl
    refine ⟨⟨{ touch a t2 b.addr with acl := update (touch a t2 b.addr).acl ha { ca with last := t2, role := r.other } },
        { touch b t1 a.addr with acl := update (touch b t1 a.addr).acl hb { cb with last := t1, role := r } }, [], []⟩,
      [.roleChange 0 b.addr r.other], [.roleChange 0 a.addr r], ?_, rfl, rfl, ?_, fun h => ?_⟩
    · simp only [nrun]
      rw [s1]
      simp only []
      rw [s2]
      simp only []
      rw [s3 { touch b t1 a.addr with acl := update (touch b t1 a.addr).acl hb { cb with last := t1, role := r } } hadB]
      rfl
    · intro _
      rw [aclOf_find?] at tA tB
      refine ⟨?_, ?_, rfl, rfl⟩
      · simp only [roleWith]
        rw [find_update (c' := { ca with last := t2, role := r.other }) haA _ tA]
        rfl
      · simp only [roleWith]
        rw [find_update (c' := { cb with last := t1, role := r }) haB _ tB]
        rfl
    · rw [hpol, hp] at h
      cases h
  | false =>
    have s2 : nstep ⟨a, b, [], [(b.addr, .roleReq)]⟩ t1 .arriveB =
        some (⟨a, touch b t1 a.addr, [(a.addr, .roleRsp 0x21)], []⟩, [], []) := by
      simp only [nstep, incoming]
      rw [if_neg (by simp)]
      simp only [dispatch, onRoleReq, tB, hp, if_true, putB]
      rfl
    have s3 : ∀ b' : Ctl, b'.addr = b.addr → nstep ⟨a, b', [(a.addr, .roleRsp 0x21)], []⟩ t2 .arriveA =
        some (⟨touch a t2 b.addr, b', [], []⟩, [.roleChange 0x21 b.addr r], []) := by
      intro b' hb'
      simp only [nstep, incoming, hb']
      rw [if_neg (by simp)]
      simp only [dispatch, onRoleRsp, tA, hmA, hra, putA]
      rfl
    refine ⟨⟨touch a t2 b.addr, touch b t1 a.addr, [], []⟩, [.roleChange 0x21 b.addr r], [], ?_, rfl, rfl, fun h => ?_, ?_⟩
    · simp only [nrun]
      rw [s1]
      simp only []
      rw [s2]
      simp only []
      rw [s3 _ hadB]
      rfl
    · rw [hpol, hp] at h
      cases h
    · intro _
      rw [aclOf_find?] at tA tB
      refine ⟨?_, ?_, rfl, rfl⟩
      · simp only [roleWith, tA, Option.map_some, hra]
      · simp only [roleWith, tB, Option.map_some, hrb]

/-- The connection of `courtship`, before the role switches. -/
example : (nrun exampleNet (courtship.take 8)).map (fun r => (roleWith r.1.a 0xB, roleWith r.1.b 0xA, allowsSwitch r.1.b 0xA, r.1.a.sco.length, r.1.toA.length + r.1.toB.length)) =
    some (some .peripheral, some .central, true, 0, 0) := by
  decide +kernel

/-- A device that asks for the role it has sends nothing, and its host is told so. -/
theorem C64_switch_same (s : Ctl) (now a : Nat) (r : Role) (hr : roleWith s a = some r) (hs : a ∉ s.sco.map (fun e => e.2.addr))
    (hm : s.mask.testBit 17 = true) : step s now (.cmd (.switchRole a r)) = .ok 0 s [] [.roleChange 0x35 a r] := by
  simp only [roleWith, Option.map_eq_some_iff] at hr
  obtain ⟨⟨h, c⟩, hA, hr⟩ := hr
  have hA' : aclOf s a = some (h, c) := (aclOf_find? _ _).trans hA
  have hsco : scoOf s.sco a = none := by
    rw [scoOf_find?, List.find?_eq_none]
    intro x hx h
    exact hs (List.mem_map.mpr ⟨x, hx, by simpa using h⟩)
  have ht : ∀ e, tell s 0x12 e = [e] := fun e => if_pos hm
  simp only at hr
  simp only [step, command, switchRole, hA', hsco, Option.isSome_none, Bool.false_eq_true, if_false, hr, ne_eq, not_true_eq_false, ht]
  rfl

end Verif.Br
