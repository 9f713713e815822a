import Verif.Pol.ReadLemmas
/-!
# C93: the commands about a connection
-/
namespace Verif.Pol
open Verif.Br (Ctl Cmd Ev Act Pkt Role Acl Inv Info)
open Verif.Conn (Table find)

/-- A controller with a connection to the device 0xB (handle 0) and an LE connection (handle 0x200). -/
def exampleP : P := ((prun (P.fresh (Ctl.fresh 0xA ⟨0, [], [], 0, 0, 0, 0, 0, 0⟩ 1)) [(0, .bredr (.cmd (.writeScanEnable true true))),
  (1, .bredr (.packet 0xB 0xA 0 (.page 0x200404 true))), (2, .bredr (.cmd (.accept 0xB false))), (3, .le (.up 0x200 1 1))]).map (·.1)).getD
    (P.fresh (Ctl.fresh 0 ⟨0, [], [], 0, 0, 0, 0, 0, 0⟩ 1))

theorem exampleP_reach : Reach exampleP := by
  refine ⟨0xA, ⟨0, [], [], 0, 0, 0, 0, 0, 0⟩, 1, [(0, .bredr (.cmd (.writeScanEnable true true))),
    (1, .bredr (.packet 0xB 0xA 0 (.page 0x200404 true))), (2, .bredr (.cmd (.accept 0xB false))), (3, .le (.up 0x200 1 1))], ((prun (P.fresh (Ctl.fresh 0xA ⟨0, [], [], 0, 0, 0, 0, 0, 0⟩ 1))
    [(0, .bredr (.cmd (.writeScanEnable true true))), (1, .bredr (.packet 0xB 0xA 0 (.page 0x200404 true))),
      (2, .bredr (.cmd (.accept 0xB false))), (3, .le (.up 0x200 1 1))]).map (·.2)).getD [], ?_, by decide +kernel⟩
  intro x hx y hy
  simp only [List.mem_cons, List.not_mem_nil, or_false] at hx
  rcases hx with rfl | rfl | rfl | rfl <;> cases hy <;> simp [Br.Named]

example : Connected exampleP 0 ∧ LeConnected exampleP 0x200 ∧ peerOf exampleP 0 = some 0xB ∧ ¬Connected exampleP 1 := by decide +kernel

/-! ## What is accepted -/

/-- A command about a connection that does not exist is refused with the status 0x02 and changes nothing; nothing is sent
and no event is raised. The reply has no values, or the handle and then zeros. -/
theorem C93_unknown (p : P) (hr : Reach p) (now : Nat) (c : PCmd) (h : Nat)
    (hc : (aclHandle c = some h ∧ ¬Connected p h) ∨ (leHandle c = some h ∧ ¬LeConnected p h) ∨
      (c = .readRssi h ∧ ¬Connected p h ∧ ¬LeConnected p h)) :
    ∃ vals, command p now c = some ⟨p, ⟨0x02, vals⟩, [], []⟩ ∧ (vals = [] ∨ ∃ n, vals = h :: List.replicate n 0) := by
  have close0 : ∀ {o : Option Out}, o = some ⟨p, ⟨0x02, []⟩, [], []⟩ →
      ∃ vals, o = some ⟨p, ⟨0x02, vals⟩, [], []⟩ ∧ (vals = [] ∨ ∃ n, vals = h :: List.replicate n 0) :=
    fun e => ⟨_, e, .inl rfl⟩
  have close1 : ∀ {o : Option Out} (n : Nat), o = some ⟨p, ⟨0x02, h :: List.replicate n 0⟩, [], []⟩ →
      ∃ vals, o = some ⟨p, ⟨0x02, vals⟩, [], []⟩ ∧ (vals = [] ∨ ∃ n, vals = h :: List.replicate n 0) :=
    fun n e => ⟨_, e, .inr ⟨n, rfl⟩⟩
  rcases hc with ⟨e, hn⟩ | ⟨e, hn⟩ | ⟨e, hn, hl⟩
  · have hf := none_of_not hn
    cases c with
    | base c =>
      cases c with
      | writePolicy k v =>
        cases e
        obtain ⟨-, hri⟩ := reach_inv hr
        refine close0 ?_
        simp only [command, rest, Br.step, Br.command, Br.writePolicy, hf, Br.refuse, rssiAfter, List.map_nil]
        have : p.rssi.filter (fun e => (find p.c.acl e.1).isSome) = p.rssi := by
          rw [List.filter_eq_self]
          intro e he
          have hk : (find p.rssi e.1).isSome = true := (Conn.find_isSome_iff _ _).mpr (List.mem_map_of_mem he)
          obtain ⟨r, hr'⟩ := Option.isSome_iff_exists.mp hk
          exact hri _ _ hr'
        rw [this]
        simp
        rfl
      | _ => cases e
    | _ =>
      first
        | (cases e; done)
        | (cases e; refine close0 ?_; simp [command, packetType, hold, sniff, qos, flow, onAcl, hf, say]; done)
        | (cases e; refine close1 0 ?_; simp [command, subrating, onAcl, hf, say]; done)
        | (cases e; refine close1 1 ?_; simp [command, onAcl, hf, say]; done)
  · have hf := leNone_of_not hn
    cases c with
    | _ =>
      first
        | (cases e; done)
        | (cases e; refine close0 ?_; simp [command, lePower, onLe, hf, say]; done)
        | (cases e; refine close1 0 ?_; simp [command, leDataLength, onLe, hf, say]; done)
        | (cases e; refine close1 2 ?_; simp [command, onLe, hf, say]; done)
  · subst e
    refine close1 1 ?_
    simp only [command, readRssi, onAcl, onLe, none_of_not hn, leNone_of_not hl, say]
    split
    · rfl
    · split <;> rfl

example : Reach exampleP ∧ ¬Connected exampleP 1 ∧ command exampleP 5 (.qos 1 0 0 0 0 0) = some ⟨exampleP, ⟨2, []⟩, [], []⟩ :=
  ⟨exampleP_reach, by decide +kernel, by decide +kernel⟩

/-- Hold mode, sniff mode, a flow specification and new link keys are never accepted, and ask nothing of anybody. The status
says whether the connection is unknown, a parameter out of range, or the command not allowed. -/
theorem C93_modes (p : P) (now : Nat) (c : PCmd) (bad : Bool)
    (hc : (∃ h max min, c = .hold h max min ∧ bad = decide (max < min)) ∨
      (∃ h max min attempt timeout, c = .sniff h max min attempt timeout ∧
        bad = decide (max < min ∨ attempt = 0 ∨ 32767 < attempt ∨ 32767 < timeout)) ∨
      (∃ h, c = .exitSniff h ∧ bad = false) ∨ (∃ h, c = .changeKey h ∧ bad = false) ∨ (∃ f, c = .centralKey f ∧ bad = false) ∨
      (∃ h direction service rate bucket bandwidth latency, c = .flow h direction service rate bucket bandwidth latency ∧
        bad = decide (1 < direction ∨ 2 < service))) :
    command p now c =
      some ⟨p, ⟨if (∃ h, aclHandle c = some h ∧ ¬Connected p h) then 0x02 else if bad then 0x12 else 0x0c, []⟩, [], []⟩ := by
  have key : ∀ h, (∃ k, some h = some k ∧ ¬Connected p k) ↔ find p.c.acl h = none := by
    intro h
    constructor
    · rintro ⟨k, e, hn⟩
      cases e
      exact none_of_not hn
    · intro hf
      refine ⟨h, rfl, fun hx => ?_⟩
      obtain ⟨c, hx⟩ := connected_iff.mp hx
      rw [hf] at hx
      cases hx
  rcases hc with ⟨h, a, b, rfl, rfl⟩ | ⟨h, a, b, x, y, rfl, rfl⟩ | ⟨h, rfl, rfl⟩ | ⟨h, rfl, rfl⟩ | ⟨f, rfl, rfl⟩ | ⟨h, d, s, r, u, v, w, rfl, rfl⟩
  · simp only [aclHandle, key, command, hold, onAcl]
    cases find p.c.acl h with
    | none => simp [say]
    | some c => by_cases hb : a < b <;> simp [say, hb]
  · simp only [aclHandle, key, command, sniff, onAcl]
    cases find p.c.acl h with
    | none => simp [say]
    | some c =>
      by_cases hb : a < b ∨ x = 0 ∨ 32767 < x ∨ 32767 < y
      · have hb' : a < b ∨ x < 1 ∨ x > 0x7FFF ∨ y > 0x7FFF := by omega
        simp only [hb, hb', if_true, say, decide_true]
        simp
      · have hb' : ¬(a < b ∨ x < 1 ∨ x > 0x7FFF ∨ y > 0x7FFF) := by omega
        simp only [hb, hb', if_false, say, decide_false]
        simp
  · simp only [aclHandle, key, command, onAcl]
    cases find p.c.acl h <;> simp [say]
  · simp only [aclHandle, key, command, onAcl]
    cases find p.c.acl h <;> simp [say]
  · simp [aclHandle, command, say]
  · simp only [aclHandle, key, command, flow, onAcl]
    cases find p.c.acl h with
    | none => simp [say]
    | some c => by_cases hb : 1 < d ∨ 2 < s <;> simp only [hb, say, gt_iff_lt, if_true, if_false, decide_true, decide_false] <;> simp

example : command exampleP 5 (.hold 0 10 20) = some ⟨exampleP, ⟨0x12, []⟩, [], []⟩ ∧
    command exampleP 5 (.sniff 0 20 10 1 0) = some ⟨exampleP, ⟨0x0c, []⟩, [], []⟩ := by decide +kernel

/-- The parameters of these commands are checked: on a connection they are accepted just if they are in the ranges of the
specification, and refused with the status 0x12 otherwise. -/
theorem C93_checked (p : P) (now h : Nat) (c : PCmd) (legal : Prop)
    (hc : (∃ a b d, c = .subrating h a b d ∧ legal = LegalSubrating a b d ∧ Connected p h) ∨
      (∃ s a b d e, c = .qos h s a b d e ∧ legal = LegalService s ∧ Connected p h) ∨
      (∃ o t, c = .leDataLength h o t ∧ legal = LegalDataLength o t ∧ LeConnected p h) ∨
      (∃ v, c = .base (.writePolicy h v) ∧ legal = LegalPolicy v ∧ Connected p h) ∨
      (∃ v, c = .base (.writeDefaultPolicy v) ∧ legal = LegalPolicy v)) :
    ∃ o, command p now c = some o ∧ (legal → o.reply.status = 0) ∧ (¬legal → o.reply.status = 0x12 ∧ o.p.c = p.c ∧ o.p.le = p.le ∧ o.ev = []) := by
  rcases hc with ⟨a, b, d, rfl, rfl, hf⟩ | ⟨s, a, b, d, e, rfl, rfl, hf⟩ | ⟨o, t, rfl, rfl, hf⟩ | ⟨v, rfl, rfl, hf⟩ | ⟨v, rfl, rfl⟩
  · obtain ⟨x, hf⟩ := connected_iff.mp hf
    simp only [command, subrating, onAcl, hf, say]
    split
    · rename_i hb
      exact ⟨_, rfl, fun hl => by unfold LegalSubrating at hl; omega, fun _ => ⟨rfl, rfl, rfl, rfl⟩⟩
    · rename_i hb
      exact ⟨_, rfl, fun _ => rfl, fun hl => by unfold LegalSubrating at hl; omega⟩
  · obtain ⟨x, hf⟩ := connected_iff.mp hf
    simp only [command, qos, onAcl, hf, say]
    split
    · rename_i hb
      exact ⟨_, rfl, fun hl => by unfold LegalService at hl; omega, fun _ => ⟨rfl, rfl, rfl, rfl⟩⟩
    · rename_i hb
      exact ⟨_, rfl, fun _ => rfl, fun hl => by unfold LegalService at hl; omega⟩
  · obtain ⟨x, hf⟩ := leConnected_iff.mp hf
    simp only [command, leDataLength, onLe, hf, say]
    split
    · rename_i hb
      exact ⟨_, rfl, fun hl => by unfold LegalDataLength at hl; omega, fun _ => ⟨rfl, rfl, rfl, rfl⟩⟩
    · split
      · rename_i hb
        exact ⟨_, rfl, fun hl => by unfold LegalDataLength at hl; omega, fun _ => ⟨rfl, rfl, rfl, rfl⟩⟩
      · rename_i hb
        exact ⟨_, rfl, fun _ => rfl, fun hl => by unfold LegalDataLength at hl; omega⟩
  · obtain ⟨x, hf⟩ := connected_iff.mp hf
    simp only [command, rest, Br.step, Br.command, Br.writePolicy, hf, Br.refuse, Br.Status.invalidParameters, Br.Status.success]
    by_cases hb : v > 7
    · simp only [hb, if_true]
      exact ⟨_, rfl, fun hl => by unfold LegalPolicy at hl; omega, fun _ => ⟨rfl, rfl, by simp, rfl⟩⟩
    · simp only [hb, if_false]
      exact ⟨_, rfl, fun _ => rfl, fun hl => by unfold LegalPolicy at hl; omega⟩
  · simp only [command, rest, Br.step, Br.command, Br.writeDefaultPolicy, Br.refuse, Br.Status.invalidParameters, Br.Status.success]
    by_cases hb : v > 7
    · simp only [hb, if_true]
      exact ⟨_, rfl, fun hl => by unfold LegalPolicy at hl; omega, fun _ => ⟨rfl, rfl, by simp, rfl⟩⟩
    · simp only [hb, if_false]
      exact ⟨_, rfl, fun _ => rfl, fun hl => by unfold LegalPolicy at hl; omega⟩

example : (answer exampleP (.subrating 0 2 0 0)).status = 0 ∧ (answer exampleP (.leDataLength 0x200 27 328)).status = 0 ∧
    (answer exampleP (.leDataLength 0x200 27 327)).status = 0x12 ∧ (answer exampleP (.base (.writePolicy 0 8))).status = 0x12 := by decide +kernel

/-- An accepted quality of service request changes nothing, and is answered by one event, unless it is masked: the service
type asked for, and each value asked for, or the value of the controller where the host has no preference. -/
theorem C93_qos (p : P) (now h service rate bandwidth latency variation : Nat) (hc : Connected p h) (hs : LegalService service) :
    command p now (.qos h service rate bandwidth latency variation) =
      some ⟨p, ⟨0, []⟩, [], if p.c.mask.testBit 12 then
        [.qos 0 h service (granted rate 100000) (granted bandwidth 200000) (granted latency 50000) (granted variation 10000)] else []⟩ := by
  obtain ⟨x, hf⟩ := connected_iff.mp hc
  have : ¬service > 2 := by unfold LegalService at hs; omega
  simp only [command, qos, onAcl, hf, this, if_false, Br.unmasked, selected, granted]
  rfl

example : (command exampleP 5 (.qos 0 1 0 7 0xffffffff 1)).map (·.ev) = some [.qos 0 0 1 100000 7 50000 1] := by decide +kernel

/-- A change of the packet types is accepted as asked, on each connection, and told in one event unless it is masked. -/
theorem C93_packet_types (p : P) (now h types : Nat) (hc : Connected p h) :
    command p now (.packetType h types) =
      some ⟨p, ⟨0, []⟩, [], if p.c.mask.testBit 28 then [.packetType 0 h types] else []⟩ := by
  obtain ⟨x, hf⟩ := connected_iff.mp hc
  simp only [command, packetType, onAcl, hf, Br.unmasked]
  rfl

example : (command exampleP 5 (.packetType 0 0xcc18)).map (·.ev) = some [.packetType 0 0 0xcc18] := by decide +kernel

/-! ## Link policy -/

/-- Link policy settings that were accepted are what is read. -/
theorem C93_policy_written (p : P) (now h v : Nat) (o : Out) (hs : command p now (.base (.writePolicy h v)) = some o) (hok : o.reply.status = 0) :
    answer o.p (.readPolicy h) = ⟨0, [h, v]⟩ := by
  simp only [command, rest, Br.step, Br.command, Br.writePolicy, Br.refuse, Br.Status.invalidParameters, Br.Status.unknownConnection] at hs
  cases hf : find p.c.acl h with
  | none =>
    simp only [hf] at hs
    cases hs
    cases hok
  | some c =>
    simp only [hf] at hs
    by_cases hb : v > 7
    · simp only [hb, if_true] at hs
      cases hs
      cases hok
    · simp only [hb, if_false] at hs
      cases hs
      refine answer_policy (c := { c with policy := v }) ?_
      rw [find_update]
      simp [hf]

/-- They stay as they are while the connection exists, whatever else happens, until others are accepted for the same
connection. -/
theorem C93_policy_kept (p : P) (hr : Reach p) (h : Nat) (as : List (Nat × PAct)) (hn : ∀ x ∈ as, PNamed x.2) (p' : P) (l : List PSeen)
    (hs : prun p as = some (p', l)) (hc : Always p as (Connected · h))
    (hw : ∀ x ∈ l, ∀ v, part x.act = some (.cmd (.writePolicy h v)) → x.reply.status ≠ 0) :
    answer p' (.readPolicy h) = answer p (.readPolicy h) := by
  have hi := (reach_inv hr).1
  clear hr
  induction as generalizing p l with
  | nil => cases hs; rfl
  | cons x as ih =>
    obtain ⟨now, a⟩ := x
    obtain ⟨o, l', h1, h2, rfl⟩ := prun_cons hs
    have hi' := pstep_inv hi (hn _ List.mem_cons_self) h1
    have ht : Always o.p as (Connected · h) := always_tail (x := (now, a)) h1 hc
    rw [ih o.p (fun x hx => hn x (List.mem_cons_of_mem _ hx)) l' h2 ht (fun x hx => hw x (List.mem_cons_of_mem _ hx)) hi']
    obtain ⟨c', hc'⟩ := connected_iff.mp (always_head ht)
    obtain ⟨c0, hc0⟩ := connected_iff.mp (always_head hc)
    rcases policy_step hi h1 hc' with ⟨c, hf, -, hp, -⟩ | ⟨hf, -⟩
    · rw [answer_policy hc', answer_policy hf]
      rcases hp with hp | ⟨hp, hp'⟩
      · rw [hp]
      · exact absurd hp' (hw _ List.mem_cons_self _ hp)
    · rw [hc0] at hf
      cases hf

/-- A new connection has the default settings. -/
theorem C93_policy_new (p : P) (hr : Reach p) (now h d : Nat) (a : PAct) (o : Out) (hs : pstep p now a = some o) (hb : ¬Connected p h)
    (hc : Connected o.p h) (hd : answer p .readDefault = ⟨0, [d]⟩) : answer o.p (.readPolicy h) = ⟨0, [h, d]⟩ := by
  obtain ⟨c', hc'⟩ := connected_iff.mp hc
  cases hd
  rcases policy_step (reach_inv hr).1 hs hc' with ⟨c, hf, -⟩ | ⟨-, hp⟩
  · exact absurd (connected_iff.mpr ⟨c, hf⟩) hb
  · rw [answer_policy hc', hp]

/-- The default settings are those accepted last, none after construction and after Reset. -/
theorem C93_policy_default (p : P) (hr : Reach p) (now : Nat) (a : PAct) (o : Out) (hs : pstep p now a = some o) :
    answer o.p .readDefault =
      (if isReset a then ⟨0, [0]⟩
       else match part a with
        | some (.cmd (.writeDefaultPolicy v)) => if o.reply.status = 0 then ⟨0, [v]⟩ else answer p .readDefault
        | _ => answer p .readDefault) ∧
    (∀ addr info n, answer (P.fresh (Ctl.fresh addr info n)) .readDefault = ⟨0, [0]⟩) := by
  refine ⟨?_, fun _ _ _ => rfl⟩
  have hread : ∀ q : P, answer q .readDefault = ⟨0, [q.c.policy]⟩ := fun _ => rfl
  simp only [hread]
  rcases pstep_cases hs with ⟨h0, h1, -⟩ | ⟨x, ev, h1, h2, -⟩
  · simp only [isReset, h0, h1, reduceCtorEq, if_false]
  · simp only [isReset, h1, Option.some.injEq]
    by_cases hx : x = .cmd .reset
    · subst hx
      simp only [Br.step, Br.command, Br.reset] at h2
      injection h2 with e1 e2
      rw [← e2]
      rfl
    · simp only [hx, if_false]
      rcases (step_kept (reach_inv hr).1 h2).dflt with hd | ⟨hd, hd'⟩ | hd
      · rw [hd]
        split
        · split
          · rename_i v e hst
            cases e
            simp only [Br.step, Br.command, Br.writeDefaultPolicy, Br.refuse, Br.Status.invalidParameters] at h2
            split at h2
            · injection h2 with e1
              rw [hst] at e1
              cases e1
            · injection h2 with e1 e2
              rw [← hd, ← e2]
          · rfl
        · rfl
      · rw [hd]
        simp [hd']
      · exact absurd hd hx

example : (prun exampleP [(4, .host (.base (.writePolicy 0 5))), (5, .host (.base (.writePolicy 0 9))), (6, .bredr (.packet 0xB 0xA 3 (.acl 2 0 [1]))),
    (7, .host (.readPolicy 0))]).map (fun r => r.2.map (·.reply)) = some [⟨0, []⟩, ⟨0x12, []⟩, ⟨0, []⟩, ⟨0, [0, 5]⟩] := by decide +kernel

/-! ## Role -/

/-- The role in a connection is the one the last Role Change event about its peer told, as long as the host does not mask
these events; without such an event it stays. -/
theorem C93_role (p : P) (hr : Reach p) (now h b : Nat) (a : PAct) (o : Out) (hs : pstep p now a = some o) (hc : Connected p h)
    (hc' : Connected o.p h) (hb : peerOf p h = some b) (hm : p.c.mask.testBit 17 = true) :
    (∀ r, PEv.base (.roleChange 0 b r) ∈ o.ev → answer o.p (.role h) = ⟨0, [h, match r with | .central => 0 | .peripheral => 1]⟩) ∧
    ((∀ r, PEv.base (.roleChange 0 b r) ∉ o.ev) → answer o.p (.role h) = answer p (.role h)) ∧ peerOf o.p h = some b := by
  obtain ⟨c', hf'⟩ := connected_iff.mp hc'
  obtain ⟨c, hf⟩ := connected_iff.mp hc
  have hi := (reach_inv hr).1
  rw [peerOf_some hf] at hb
  cases hb
  rcases policy_step hi hs hf' with ⟨c0, h0, ha, -, hr0⟩ | ⟨h0, -⟩
  · rw [hf] at h0
    cases h0
    refine ⟨?_, ?_, by rw [peerOf_some hf', ha]⟩
    · intro r he
      rcases pstep_cases hs with ⟨-, -, -, hx⟩ | ⟨x, ev, -, h2, h3, -⟩
      · exact absurd he (hx _)
      · rw [h3] at he
        obtain ⟨e, he, e'⟩ := List.mem_map.mp he
        cases e'
        rw [answer_role hf', (step_kept hi h2).told _ _ he h c' hf' ha]
        cases r <;> rfl
    · intro hno
      rcases hr0 with hr0 | hr0
      · rw [answer_role hf', answer_role hf, hr0]
      · exact absurd (hr0 hm) (hno _)
  · rw [hf] at h0
    cases h0

example : (prun exampleP [(4, .host (.role 0)), (5, .host (.base (.writePolicy 0 1))), (5, .bredr (.packet 0xB 0xA 3 .roleReq)), (7, .host (.role 0))]).map
    (fun r => r.2.map (fun x => (x.reply, x.ev))) = some [(⟨0, [0, 1]⟩, []), (⟨0, []⟩, []), (⟨0, []⟩, [.base (.roleChange 0 0xB .central)]), (⟨0, [0, 0]⟩, [])] := by
  decide +kernel

/-! ## RSSI -/

/-- The RSSI of a connection is the one of the last ACL data packet its peer sent since the connection was made, 0 if there
is none: data of others and other packets do not count, nor does what came over an earlier connection with the same handle. -/
theorem C93_rssi (p0 : P) (hr : Reach p0) (now h b : Nat) (a : PAct) (hn0 : PNamed a) (o : Out) (h0 : pstep p0 now a = some o) (hb : ¬Connected p0 h)
    (as : List (Nat × PAct)) (hn : ∀ x ∈ as, PNamed x.2) (p' : P) (l : List PSeen) (hs : prun o.p as = some (p', l))
    (hc : Always o.p as (Connected · h)) (hp : peerOf o.p h = some b) :
    answer p' (.readRssi h) = ⟨0, [h, lastHeard (heard p0.c.addr b) 0 as]⟩ := by
  obtain ⟨hi0, hri0⟩ := reach_inv hr
  have hi := pstep_inv hi0 hn0 h0
  have hz : find o.p.rssi h = none := by
    have hnone : find p0.rssi h = none := by
      cases hx : find p0.rssi h with
      | none => rfl
      | some r =>
        have := hri0 h r hx
        rw [none_of_not hb] at this
        cases this
    rcases pstep_cases h0 with ⟨-, -, h2, -⟩ | ⟨x, ev, h1, h2, -, h4, -⟩
    · rw [h2]; exact hnone
    · rw [h4]
      by_cases hx : ∃ src dst r pb bc d, x = .packet src dst r (.acl pb bc d)
      · obtain ⟨src, dst, r, pb, bc, d, rfl⟩ := hx
        simp only [rssiAfter]
        split
        · exact hnone
        · split
          · exact hnone
          · rename_i k d' hk
            have hne : k ≠ h := by
              intro e
              subst e
              have := (Br.mem_acl hi0).mp (Br.aclOf_some hk).1
              rw [none_of_not hb] at this
              cases this
            simp only [find, hne, if_false, find_erase, hne.symm]
            exact hnone
      · rw [rssiAfter_other (fun src dst r pb bc d e => hx ⟨src, dst, r, pb, bc, d, e⟩), find_filter _ (fun k => (find o.p.c.acl k).isSome), hnone]
        simp
  have haddr : o.p.c.addr = p0.c.addr := by
    rcases pstep_cases h0 with ⟨-, h1, -⟩ | ⟨x, ev, -, h2, -⟩
    · rw [h1]
    · exact Br.step_addr h2
  have key : ∀ (as : List (Nat × PAct)) (q : P) (l : List PSeen) (r : Nat), Inv q.c → (∀ x ∈ as, PNamed x.2) → prun q as = some (p', l) →
      Always q as (Connected · h) → peerOf q h = some b → q.c.addr = p0.c.addr → (find q.rssi h).getD 0 = r →
      answer p' (.readRssi h) = ⟨0, [h, lastHeard (heard p0.c.addr b) r as]⟩ := by
    intro as
    induction as with
    | nil =>
      intro q l r hi hn hs hc hp ha hq
      cases hs
      obtain ⟨c, hf⟩ := connected_iff.mp (always_head hc)
      rw [answer_rssi hi hf, hq]
      rfl
    | cons x as ih =>
      intro q l r hi hn hs hc hp ha hq
      obtain ⟨now, a⟩ := x
      obtain ⟨o', l', h1, h2, -⟩ := prun_cons hs
      have ht : Always o'.p as (Connected · h) := always_tail (x := (now, a)) h1 hc
      obtain ⟨c', hc'⟩ := connected_iff.mp (always_head ht)
      obtain ⟨c0, hc0⟩ := connected_iff.mp (always_head hc)
      obtain ⟨g1, g2, g3⟩ := rssi_step hi h1 hc0 hc'
      rw [peerOf_some hc0] at hp
      cases hp
      rw [lastHeard_cons]
      refine ih o'.p l' _ (pstep_inv hi (hn _ List.mem_cons_self) h1) (fun x hx => hn x (List.mem_cons_of_mem _ hx)) h2 ht ?_ ?_ ?_
      · rw [peerOf_some hc', g2]
      · rw [g3, ha]
      · rw [g1, hq, ha]
  exact key as o.p l 0 hi hn hs hc hp haddr (by rw [hz]; rfl)

example : (prun exampleP [(4, .host (.readRssi 0)), (5, .bredr (.packet 0xB 0xA 3 (.acl 2 0 [1]))), (6, .bredr (.packet 0xC 0xA 4 (.acl 2 0 [1]))),
    (7, .host (.readRssi 0))]).map (fun r => r.2.map (·.reply)) = some [⟨0, [0, 0]⟩, ⟨0, []⟩, ⟨0, []⟩, ⟨0, [0, 3]⟩] := by decide +kernel

/-- The same on an LE connection, and its PHYs are those it was given last. -/
theorem C93_le (p0 : P) (hr : Reach p0) (now h tx rx : Nat) (o : Out) (h0 : pstep p0 now (.le (.up h tx rx)) = some o) (hb : ¬LeConnected p0 h)
    (as : List (Nat × PAct)) (hu : ∀ x ∈ as, ∀ t r, x.2 ≠ .le (.up h t r)) (p' : P) (l : List PSeen) (hs : prun o.p as = some (p', l))
    (hc : Always o.p as (LeConnected · h)) :
    answer p' (.readRssi h) = ⟨0, [h, lastHeard (heardLe h) 0 as]⟩ ∧
    answer p' (.lePhy h) = ⟨0, [h, (lastHeard (physOf h) (tx, rx) as).1, (lastHeard (physOf h) (tx, rx) as).2]⟩ := by
  have hlo : LInv o.p := by
    intro k c hk
    rcases le_step h0 hk with ⟨c0, hc0, -⟩ | ⟨-, -, hk1, hk2, -⟩
    · exact reach_linv hr k c0 hc0
    · exact ⟨hk1, hk2⟩
  have key : ∀ (as : List (Nat × PAct)) (q : P) (l : List PSeen) (c : Le), LInv q → (∀ x ∈ as, ∀ t r, x.2 ≠ .le (.up h t r)) →
      prun q as = some (p', l) → Always q as (LeConnected · h) → find q.le h = some c →
      answer p' (.readRssi h) = ⟨0, [h, lastHeard (heardLe h) c.rssi as]⟩ ∧
      answer p' (.lePhy h) = ⟨0, [h, (lastHeard (physOf h) (c.tx, c.rx) as).1, (lastHeard (physOf h) (c.tx, c.rx) as).2]⟩ := by
    intro as
    induction as with
    | nil =>
      intro q l c hl hu hs hc hf
      cases hs
      exact answer_le hl hf
    | cons x as ih =>
      intro q l c hl hu hs hc hf
      obtain ⟨now, a⟩ := x
      obtain ⟨o', l', h1, h2, -⟩ := prun_cons hs
      have ht : Always o'.p as (LeConnected · h) := always_tail (x := (now, a)) h1 hc
      obtain ⟨c', hc'⟩ := leConnected_iff.mp (always_head ht)
      have hl' : LInv o'.p := by
        intro k d hk
        rcases le_step h1 hk with ⟨c0, hc0, -⟩ | ⟨-, -, hk1, hk2, -⟩
        · exact hl k c0 hc0
        · exact ⟨hk1, hk2⟩
      rcases le_step h1 hc' with ⟨c0, hc0, g1, g2⟩ | ⟨hx, -⟩
      · rw [hf] at hc0
        cases hc0
        rcases g2 with g2 | ⟨t, r, e, -⟩
        · have := ih o'.p l' c' hl' (fun x hx => hu x (List.mem_cons_of_mem _ hx)) h2 ht hc'
          rw [lastHeard_cons, lastHeard_cons, ← g1, ← g2]
          exact this
        · exact absurd e (hu _ List.mem_cons_self t r)
      · rw [hf] at hx
        cases hx
  obtain ⟨c, hf⟩ := leConnected_iff.mp (always_head hc)
  rcases le_step h0 hf with ⟨c0, hc0, -⟩ | ⟨-, g1, -, -, g2⟩
  · exact absurd (leConnected_iff.mpr ⟨c0, hc0⟩) hb
  · have := key as o.p l c hlo hu hs hc hf
    simp only [physOf, if_true, Option.some.injEq] at g2
    rw [g1, ← g2] at this
    exact this

example : (prun exampleP [(4, .host (.lePhy 0x200)), (5, .le (.data 0x200 7)), (6, .le (.phys 0x200 2 3)), (7, .host (.readRssi 0x200)), (8, .host (.lePhy 0x200))]).map
    (fun r => r.2.map (·.reply)) = some [⟨0, [0x200, 1, 1]⟩, ⟨0, []⟩, ⟨0, []⟩, ⟨0, [0x200, 7]⟩, ⟨0, [0x200, 2, 3]⟩] := by decide +kernel

/-! ## Out of band data -/

/-- Out of band data that was read is not given again in the next 65535 reads, without a Reset. -/
theorem C93_oob_fresh (p : P) (now now' : Nat) (c : PCmd) (hc : c = .oob ∨ c = .oobExtended) (o o' : Out) (h1 : command p now c = some o)
    (as : List (Nat × PAct)) (hn : ∀ x ∈ as, ¬isReset x.2) (hl : reads as < 65535) (p' : P) (l : List PSeen) (hs : prun o.p as = some (p', l))
    (h2 : command p' now' c = some o') : o.reply.vals ≠ o'.reply.vals := by
  have key : ∀ (as : List (Nat × PAct)) (q : P) (l : List PSeen), (∀ x ∈ as, ¬isReset x.2) → prun q as = some (p', l) →
      p'.oob % 65536 = (q.oob + reads as) % 65536 := by
    intro as
    induction as with
    | nil => intro q l hn hs; cases hs; rfl
    | cons x as ih =>
      intro q l hn hs
      obtain ⟨now, a⟩ := x
      obtain ⟨o, l', g1, g2, -⟩ := prun_cons hs
      rw [ih o.p l' (fun x hx => hn x (List.mem_cons_of_mem _ hx)) g2]
      have hra := hn _ List.mem_cons_self
      have hra' : a ≠ .host (.base .reset) ∧ a ≠ .bredr (.cmd .reset) := by
        constructor
        · intro e; subst e; exact hra rfl
        · intro e; subst e; exact hra rfl
      rw [pstep_oob hra' g1]
      by_cases hx : a = .host .oob ∨ a = .host .oobExtended
      · have : reads ((now, a) :: as) = reads as + 1 := by simp [reads, hx]
        rw [if_pos hx, this]
        simp only [nextOob]
        omega
      · have : reads ((now, a) :: as) = reads as := by simp only [reads, List.filter_cons, hx, decide_false]; simp
        rw [if_neg hx, this]
  have hk := key as o.p l hn hs
  rcases hc with rfl | rfl
  · cases h1
    cases h2
    intro e
    have e1 := List.append_inj_left e rfl
    have := oobBytes_inj e1
    simp only [nextOob] at hk
    omega
  · cases h1
    cases h2
    intro e
    have e1 := List.append_inj_left (List.append_inj_left (List.append_inj_left e rfl) rfl) rfl
    have := oobBytes_inj e1
    simp only [nextOob] at hk
    omega

/-- Each of the arrays has sixteen bytes, and no two of them are the same. -/
theorem C93_oob_arrays (p : P) :
    (∃ c r, answer p .oob = ⟨0, c ++ r⟩ ∧ c.length = 16 ∧ r.length = 16 ∧ c ≠ r ∧ (∀ x ∈ c ++ r, x < 256)) ∧
    (∃ c1 r1 c2 r2, answer p .oobExtended = ⟨0, c1 ++ r1 ++ c2 ++ r2⟩ ∧ [c1, r1, c2, r2].Nodup ∧ (∀ x ∈ [c1, r1, c2, r2], x.length = 16) ∧
      (∀ x ∈ c1 ++ r1 ++ c2 ++ r2, x < 256)) := by
  have hb : ∀ t : List Nat, (∀ x ∈ t, x < 256) → ∀ x ∈ oobBytes t p.oob, x < 256 := by
    intro t ht x hx
    simp only [oobBytes, List.mem_append, List.mem_cons, List.not_mem_nil, or_false] at hx
    rcases hx with hx | hx | hx
    · exact ht x hx
    · omega
    · omega
  refine ⟨⟨oobBytes cText p.oob, oobBytes rText p.oob, rfl, rfl, rfl, ?_, ?_⟩,
    ⟨oobBytes c192Text p.oob, oobBytes r192Text p.oob, oobBytes c256Text p.oob, oobBytes r256Text p.oob, rfl, ?_, ?_, ?_⟩⟩
  · simp [oobBytes, cText, rText]
  · intro x hx
    rcases List.mem_append.mp hx with hx | hx
    · exact hb _ (by decide) x hx
    · exact hb _ (by decide) x hx
  · simp [oobBytes, c192Text, r192Text, c256Text, r256Text]
  · intro x hx
    simp only [List.mem_cons, List.not_mem_nil, or_false] at hx
    rcases hx with rfl | rfl | rfl | rfl <;> rfl
  · intro x hx
    simp only [List.mem_append] at hx
    rcases hx with ((hx | hx) | hx) | hx <;> exact hb _ (by decide) x hx

example : (prun exampleP [(4, .host .oob), (5, .host .oobExtended), (6, .host .oob)]).map (fun r => r.2.map (fun x => x.reply.vals.drop 30)) =
    some [[0, 1], [0, 2, 99, 32, 97, 114, 114, 97, 121, 32, 50, 53, 54, 48, 48, 48, 0, 2, 114, 32, 97, 114, 114, 97, 121, 32, 50, 53, 54, 48, 48, 48, 0, 2], [0, 3]] := by
  decide +kernel

/-! ## What the code does otherwise -/

/-- After a Reset the controller gives the same out of band data again: the data of one session is known from the last. -/
theorem C93_oob_violated : ∃ p, Reach p ∧ ∃ o r o', command p 0 .oob = some o ∧ pstep o.p 1 (.host (.base .reset)) = some r ∧
    command r.p 2 .oob = some o' ∧ o.reply.vals = o'.reply.vals := by
  refine ⟨exampleP, exampleP_reach, ⟨_, _, _, rfl, rfl, rfl, by decide +kernel⟩⟩

/-- The transmit power of PHYs that do not exist can be read, and reports can be set to a value that is reserved. -/
theorem C93_power_violated (p : P) (h : Nat) (hc : LeConnected p h) :
    (∃ phy, ¬LegalPowerPhy phy ∧ answer p (.lePower h phy) = ⟨0, []⟩) ∧ (∃ a b, ¬LegalReporting a b ∧ answer p (.leReporting h a b) = ⟨0, [h]⟩) := by
  obtain ⟨c, hf⟩ := leConnected_iff.mp hc
  refine ⟨⟨5, by unfold LegalPowerPhy; omega, ?_⟩, ⟨2, 0, by unfold LegalReporting; omega, ?_⟩⟩
  · simp only [answer, command, lePower, onLe, hf]
  · simp only [answer, command, onLe, hf, say]

example : LeConnected exampleP 0x200 := by decide +kernel

/-- The part that holds: on a connection a legal request is accepted, and answered by one event with the PHY asked for. -/
theorem C93_power_partial (p : P) (now h phy : Nat) (hc : LeConnected p h) (_hl : LegalPowerPhy phy) :
    command p now (.lePower h phy) = some ⟨p, ⟨0, []⟩, [], [.power 0 h phy]⟩ := by
  obtain ⟨c, hf⟩ := leConnected_iff.mp hc
  simp only [command, lePower, onLe, hf]

example : LegalPowerPhy 4 ∧ (command exampleP 4 (.lePower 0x200 4)).map (·.ev) = some [.power 0 0x200 4] :=
  ⟨by unfold LegalPowerPhy; omega, by decide +kernel⟩

/-- The key size of a connection is 16 just after it was made, when there is no key: the specification has the status 0x2F
(Insufficient Security) for a connection that is not encrypted. -/
theorem C93_key_size_violated (p : P) (h : Nat) (hc : Connected p h) : answer p (.keySize h) = ⟨0, [h, 16]⟩ := by
  obtain ⟨c, hf⟩ := connected_iff.mp hc
  simp only [answer, command, onAcl, hf, say]

example : Connected exampleP 0 := by decide +kernel

end Verif.Pol
