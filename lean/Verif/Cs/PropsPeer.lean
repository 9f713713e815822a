import Verif.Cs.Props
import Verif.Cs.PeerLemmas
/-!
# C41, C60 and C61: what the two sides of a connection do to each other

The statements of the properties are in `Verif.Cs.Props`. -/
namespace Verif.Cs

/-! ## C41: aborts -/

/-- No sequence of PDUs makes a controller abort whose host does not support channel sounding, or masks the
procedure event, or set the parameters of all configurations before the peer (which may do anything but create
more). Missing: the other cases, see below. -/
theorem C41_no_abort_partial (e : End) (ds : List Pdu)
    (h : e.hostSupport = false ∨ e.mask.proc = false ∨
      (∀ c ∈ e.configs, c.proc ≠ none) ∧ ∀ d ∈ ds, ∀ id role s, d ≠ .configReq id 1 role s) :
    receive e ds ≠ none := by
  induction ds generalizing e with
  | nil => exact nofun
  | cons d ds ih =>
    simp only [receive]
    cases hi : incoming e d with
    | abort =>
      exfalso
      obtain ⟨h1, h2, id, c, hs, hc, hp⟩ := (C41_abort_iff e d).1 hi
      rcases h with h | h | h
      · simp [h1] at h
      · simp [h2] at h
      · exact h.1 c (find_mem hc) hp
    | ok st e' out ev =>
      obtain ⟨f1, f2, _, _⟩ := incoming_fixed hi
      apply ih
      rcases h with h | h | h
      · exact .inl (f1.trans h)
      · exact .inr (.inl (by rw [f2]; exact h))
      · refine .inr (.inr ⟨?_, fun d hd => h.2 d (by simp [hd])⟩)
        intro c hc
        have hcr : d.creates = false := by
          cases d with
          | configReq id action role s =>
            simp only [Pdu.creates, beq_eq_false_iff_ne, ne_eq]
            rintro rfl
            exact h.2 _ (by simp) id role s rfl
          | _ => rfl
        obtain ⟨c0, hc0, _, hp, _⟩ := incoming_configs hcr hi c hc
        rw [hp]; exact h.1 c0 hc0

/-- The peripheral after a creation and the parameters. -/
example : (peripheralAfter (prepare ++ create 0 exampleSettings ++ [.cmdP (.setParameters 0 exampleProc)])).map
    (fun e => e.configs.all (·.proc.isSome) && e.configs.length == 1 && e.hostSupport && e.mask.proc) = some true := by
  decide +kernel

/-- Two unmodified controllers: the central creates a configuration for both sides, its host sets the procedure
parameters and starts the procedure. The peripheral's host need not set parameters, and its controller aborts. -/
theorem C41_peripheral_aborts_violated :
    quietAfter (prepare ++ create 0 exampleSettings ++ [.cmdC (.setParameters 0 exampleProc)]) = true ∧
    run exampleLink (prepare ++ create 0 exampleSettings ++
      [.cmdC (.setParameters 0 exampleProc), .cmdC (.procedureEnable 0 true), .deliverP, .deliverC]) ≠ none ∧
    run exampleLink (prepare ++ create 0 exampleSettings ++
      [.cmdC (.setParameters 0 exampleProc), .cmdC (.procedureEnable 0 true), .deliverP, .deliverC, .deliverP]) = none := by
  decide +kernel

/-- Two unmodified controllers: configuration 1, which the central starts, was removed by the peripheral's host.
The refusal of the peripheral names configuration 0, for which the central has no parameters, and the central
aborts. -/
theorem C41_central_aborts_violated :
    run exampleLink (prepare ++ create 0 exampleSettings ++ create 1 exampleSettings ++
      [.cmdC (.setParameters 1 exampleProc), .cmdP (.removeConfig 1), .deliverC, .deliverP,
       .cmdC (.procedureEnable 1 true), .deliverP]) ≠ none ∧
    run exampleLink (prepare ++ create 0 exampleSettings ++ create 1 exampleSettings ++
      [.cmdC (.setParameters 1 exampleProc), .cmdP (.removeConfig 1), .deliverC, .deliverP,
       .cmdC (.procedureEnable 1 true), .deliverP, .deliverC]) = none := by
  decide +kernel

/-- A single response from a peer is enough: the central aborts when it has a configuration without parameters. -/
theorem C41_response_aborts_violated (e : End) (id : Nat) (c : Config) (st : Status) (slot : Slot)
    (h1 : e.central = true) (h2 : e.hostSupport = true) (h3 : e.mask.proc = true) (h4 : e.config id = some c)
    (h5 : c.proc = none) : incoming e (.csRsp st id slot) = .abort :=
  (C41_abort_iff e _).2 ⟨h2, h3, id, c, ⟨rfl, h1⟩, h4, h5⟩

/-! ## C41: removal and termination -/

/-- The command removes the configuration of its own side and leaves the others. -/
theorem C41_remove_local (e : End) (id : Nat) (e' : End) (out : List Pdu) (ev : List Ev)
    (h : command e (.removeConfig id) = .ok Status.success e' out ev) :
    e.config id ≠ none ∧ e'.config id = none ∧ ∀ k, k ≠ id → e'.config k = e.config k := by
  simp only [command, removeConfig] at h
  split at h
  · unfold refuse at h; injection h with h _; exact absurd h (by decide)
  · rename_i c hc
    cases h
    refine ⟨by rw [show e.config id = some c from hc]; exact nofun, find_erase_self _ _, fun k hk => find_erase_other _ hk⟩

/-- But no peer removes it: the PDU asks for channel selection algorithm 3b, which every controller refuses. The
peer stays as it was, whatever its state. -/
theorem C41_remove_violated (e : End) (id : Nat) (e' : End) (out : List Pdu) (ev : List Ev)
    (h : command e (.removeConfig id) = .ok Status.success e' out ev) :
    ∃ d, out = [d] ∧ ∀ b : End, ∃ st k, st ≠ Status.success ∧ incoming b d = .ok 0 b [.configRsp st k] [] := by
  simp only [command, removeConfig] at h
  split at h
  · unfold refuse at h; injection h with h _; exact absurd h (by decide)
  · cases h
    refine ⟨_, rfl, fun b => ?_⟩
    simp only [incoming, onConfigReq]
    by_cases hh : b.hostSupport = false
    · rw [if_pos hh]; exact ⟨_, _, by decide, rfl⟩
    · rw [if_neg hh, if_pos (by simp [configReqOk, removeSettings])]
      exact ⟨_, _, by decide, rfl⟩

/-- Two unmodified controllers: after the removal and all PDUs the peripheral still has the configuration. -/
theorem C41_remove_run_violated :
    quietAfter (prepare ++ create 0 exampleSettings ++ [.cmdC (.removeConfig 0), .deliverP, .deliverC]) = true ∧
    ((centralAfter (prepare ++ create 0 exampleSettings ++ [.cmdC (.removeConfig 0), .deliverP, .deliverC])).map
      (fun e => (e.config 0).isSome)) = some false ∧
    ((peripheralAfter (prepare ++ create 0 exampleSettings ++ [.cmdC (.removeConfig 0), .deliverP, .deliverC])).map
      (fun e => (e.config 0).isSome)) = some true := by
  decide +kernel

/-- A removal that the peer does not refuse removes the configuration. Missing: that the peer does not refuse. -/
theorem C41_remove_partial (b : End) (id role : Nat) (s : Settings) (b' : End) (out : List Pdu) (ev : List Ev)
    (h : incoming b (.configReq id 0 role s) = .ok 0 b' out ev) :
    (∃ st k, st ≠ Status.success ∧ b' = b ∧ out = [.configRsp st k]) ∨
      (b'.config id = none ∧ (∀ k, k ≠ id → b'.config k = b.config k) ∧ out = [.configRsp Status.success id]) := by
  simp only [incoming, onConfigReq, if_neg (show ¬(0 = 1) by decide)] at h
  split at h
  · cases h; exact .inl ⟨_, _, by decide, rfl, rfl⟩
  split at h
  · cases h; exact .inl ⟨_, _, by decide, rfl, rfl⟩
  · cases h
    exact .inr ⟨find_erase_self _ _, fun k hk => find_erase_other _ hk, rfl⟩

example : incoming (.fresh false true ⟨true, true, true, true, true⟩ defaultCaps none)
    (.configReq 0 0 0 { removeSettings with selection := 1, jump := 2 }) =
    .ok 0 (.fresh false true ⟨true, true, true, true, true⟩ defaultCaps none) [.configRsp Status.success 0]
      [.config Status.success 0 false 0 removeSettings 2] := by decide +kernel

/-- A request to terminate changes nothing at the peer, which says that it is done: a procedure that is enabled
there stays enabled. -/
theorem C41_terminate_violated (b : End) (id count : Nat) (c : Config) (hc : b.config id = some c) :
    ∃ ev, incoming b (.termReq id count Status.success) = .ok 0 b [.termRsp id count Status.success] ev := by
  have h : termStatus b id Status.success = Status.success := by
    unfold termStatus
    rw [show find b.configs id = some c from hc]; rfl
  simp only [incoming, onTermReq, h]
  exact ⟨_, rfl⟩

/-- A procedure that is enabled cannot be disabled by its host. -/
theorem C41_disable_violated (e : End) (id : Nat) (c : Config) (hc : e.config id = some c) (hon : c.enabled = true)
    (b : Bool) : command e (.procedureEnable id b) = .ok Status.commandDisallowed e [] [] := by
  have hf : find e.configs id = some c := hc
  simp only [command, procedureEnable, hf, hon, refuse]
  cases c.proc <;> rfl

example : ((centralAfter (prepare ++ create 0 exampleSettings ++
      [.cmdC (.setParameters 0 exampleProc), .cmdC (.procedureEnable 0 true)])).map
    (fun e => (e.config 0).map (·.enabled))) = some (some true) := by decide +kernel

/-- And PDUs of a peer disable or enable nothing: a configuration keeps its flag unless the peer creates it again
or removes it. -/
theorem C41_flag_violated (e : End) (d : Pdu) (hd : ∀ id role s, d ≠ .configReq id 1 role s) (st : Status) (e' : End)
    (out : List Pdu) (ev : List Ev) (h : incoming e d = .ok st e' out ev) (c : Config) (hc : c ∈ e'.configs) :
    ∃ c0 ∈ e.configs, c0.id = c.id ∧ c0.enabled = c.enabled := by
  have hcr : d.creates = false := by
    cases d with
    | configReq id action role s =>
      simp only [Pdu.creates, beq_eq_false_iff_ne, ne_eq]
      rintro rfl
      exact hd id role s rfl
    | _ => rfl
  obtain ⟨c0, hc0, h1, _, h3, _⟩ := incoming_configs hcr h c hc
  exact ⟨c0, hc0, h1.symm, h3.symm⟩

/-! ## C60: creation -/

/-- A creation for both sides with a peer whose host supports channel sounding, and its answer: if the peer agrees,
both sides hold the configuration with the same settings and opposite roles. If not, the creator drops it and the
peer is as before. Missing: a peer that held an earlier configuration with the identifier keeps it, and a peer
whose host does not support channel sounding, see below. -/
theorem C60_created_partial (a b : End) (id role : Nat) (s : Settings) (r : Nat) (a1 : End) (out : List Pdu) (ev : List Ev)
    (h : command a (.createConfig id 1 role s r) = .ok Status.success a1 out ev) (hb : b.hostSupport = true) :
    ∃ d st b1 ev1 a2 ev2, out = [d] ∧ incoming b d = .ok 0 b1 [.configRsp st id] ev1 ∧
      incoming a1 (.configRsp st id) = .ok 0 a2 [] ev2 ∧
      (st = Status.success → Agree a2 b1 id ∧ ∃ c, a2.config id = some c ∧ c.s = s ∧ c.role = role) ∧
      (st ≠ Status.success → a2.config id = none ∧ b1 = b) := by
  obtain ⟨_, rfl, ⟨_, rfl, rfl⟩ | ⟨h', _⟩⟩ := createConfig_success h
  · have hfind : find (put a.configs ⟨id, role, s, false, none⟩) id = some ⟨id, role, s, false, none⟩ := find_put_self _ _
    rcases onConfigReq_create b id role s hb with ⟨_, h1⟩ | ⟨_, h1⟩
    · refine ⟨_, _, _, _, { a with configs := erase (put a.configs ⟨id, role, s, false, none⟩) id },
        tell a.mask.config (.config Status.unsupportedLlParameter id true role s 0), rfl, h1, ?_,
        fun h => absurd h (by decide), fun _ => ⟨?_, rfl⟩⟩
      · simp only [incoming, onConfigRsp, hfind]
        rfl
      · exact find_erase_self _ _
    · refine ⟨_, _, _, _, { a with configs := put a.configs ⟨id, role, s, false, none⟩ },
        tell a.mask.config (.config Status.success id true role s 0), rfl, h1, ?_,
        fun _ => ⟨⟨_, _, hfind, find_put_self _ _, rfl, rfl⟩, _, hfind, rfl, rfl⟩, fun h => absurd rfl h⟩
      · simp only [incoming, onConfigRsp, hfind]
        rfl
  · exact absurd rfl h'

/-- A run that meets the hypotheses; both hold the configuration, the peripheral as the reflector. -/
example : (run exampleLink (prepare ++ create 0 exampleSettings)).map (fun l =>
    ((l.c.config 0).map (fun c => (c.role, decide (c.s = exampleSettings))),
     (l.p.config 0).map (fun c => (c.role, decide (c.s = exampleSettings))))) =
    some (some (0, true), some (1, true)) := by decide +kernel

/-- What a peer agrees to, if it was asked by a controller that knows its capabilities: only main mode 1. The role
the peer looks for among its own is that of the sender. -/
theorem C60_agreed_iff (a b : End) (id role : Nat) (s : Settings) (r : Nat) (a1 : End) (out : List Pdu) (ev : List Ev)
    (hrole : role = 0 ∨ role = 1) (hcaps : a.remote = some b.caps.sent) (hb : b.hostSupport = true)
    (h : command a (.createConfig id 1 role s r) = .ok Status.success a1 out ev) :
    (∃ b1 ev1, incoming b (.configReq id 1 role s) = .ok 0 b1 [.configRsp Status.success id] ev1) ↔
      s.main = 1 ∧ b.caps.modes.testBit 0 = true ∧ b.caps.roles.testBit role = true := by
  obtain ⟨hc, _⟩ := createConfig_success h
  obtain ⟨_, _, _, hsel, hshape, hj1, hj2, ⟨rem, hrem, _, hrtt, hphy, _, _⟩, hsub, _⟩ := createCheck_success hc
  rw [hcaps] at hrem
  injection hrem with hrem
  subst hrem
  have hrtt : rttOk b.caps s.rtt = true := hrtt
  have hphy : phyOk b.caps s.phy = true := hphy
  have key : configReqOk b.caps role s = true ↔
      s.main = 1 ∧ b.caps.modes.testBit 0 = true ∧ b.caps.roles.testBit role = true := by
    unfold configReqOk
    have hr : (if role = 1 then 1 else 0) = role := by rcases hrole with rfl | rfl <;> rfl
    rw [hr]
    simp only [Bool.and_eq_true, beq_iff_eq, Bool.or_eq_true, decide_eq_true_eq]
    constructor
    · rintro ⟨⟨⟨⟨⟨⟨⟨h1, h2, h3⟩, _⟩, _⟩, _⟩, _⟩, _⟩, _⟩; exact ⟨h2, h3, h1⟩
    · rintro ⟨h1, h2, h3⟩; exact ⟨⟨⟨⟨⟨⟨⟨h3, h1, h2⟩, by omega⟩, hrtt⟩, hphy⟩, hsel⟩, hshape⟩, hj1, hj2⟩
  rcases onConfigReq_create b id role s hb with ⟨h0, h1⟩ | ⟨h0, h1⟩
  · constructor
    · rintro ⟨b1, ev1, h2⟩
      have h2 : onConfigReq b id 1 role s = _ := h2
      rw [h1] at h2
      injection h2 with _ _ h2 _
      injection h2 with h2 _
      injection h2 with h2 _
      exact absurd h2 (by decide)
    · intro h2; rw [key.2 h2] at h0; exact absurd h0 (by decide)
  · exact ⟨fun _ => key.1 h0, fun _ => ⟨_, _, h1⟩⟩

/-- The peer compares the main mode with the bits of its capabilities, so a configuration with main mode 2 or 3 is
accepted by the creator's controller but by no peer. -/
theorem C60_main_mode_violated (b : End) (id role : Nat) (s : Settings) (hm : s.main ≠ 1) :
    ∃ st k, st ≠ Status.success ∧ incoming b (.configReq id 1 role s) = .ok 0 b [.configRsp st k] [] := by
  simp only [incoming, onConfigReq]
  by_cases hh : b.hostSupport = false
  · rw [if_pos hh]; exact ⟨_, _, by decide, rfl⟩
  · rw [if_neg hh, if_pos (by simp [configReqOk, hm])]
    exact ⟨_, _, by decide, rfl⟩

example : (centralAfter prepare).map (fun e => match command e (.createConfig 0 1 0 { exampleSettings with main := 2 } 0) with
    | .ok st _ _ _ => st
    | .abort => 1) = some Status.success := by decide +kernel

/-- A peripheral that can only be a reflector. -/
def exampleReflector : End := .fresh false true ⟨true, true, true, true, true⟩ { defaultCaps with roles := 2 } none

/-- A central that knows it, and has enabled the initiator's role. -/
def exampleInitiator : End :=
  { End.fresh true true ⟨true, true, true, true, true⟩ defaultCaps none with remote := some exampleReflector.caps, roleEnable := 1 }

/-- A device that can only be a reflector refuses the configuration of an initiator, although the initiator's
controller knows its role and accepts the command. -/
theorem C60_role_violated :
    (∃ a ev, command exampleInitiator (.createConfig 0 1 0 exampleSettings 0) =
      .ok Status.success a [.configReq 0 1 0 exampleSettings] ev) ∧
    incoming exampleReflector (.configReq 0 1 0 exampleSettings) =
      .ok 0 exampleReflector [.configRsp Status.unsupportedLlParameter 0] [] := by
  refine ⟨⟨{ exampleInitiator with configs := [⟨0, 0, exampleSettings, false, none⟩] }, [], ?_⟩, ?_⟩ <;> decide +kernel

/-- A refused change of a configuration both sides have: the creator drops it, the peer keeps it. -/
theorem C60_stale_violated :
    quietAfter (prepare ++ create 0 exampleSettings ++ create 0 { exampleSettings with main := 2 }) = true ∧
    ((centralAfter (prepare ++ create 0 exampleSettings ++ create 0 { exampleSettings with main := 2 })).map
      (fun e => (e.config 0).isSome)) = some false ∧
    ((peripheralAfter (prepare ++ create 0 exampleSettings ++ create 0 { exampleSettings with main := 2 })).map
      (fun e => (e.config 0).isSome)) = some true := by
  decide +kernel

/-- A peer whose host does not support channel sounding names configuration 0 in its refusal: the creator keeps the
configuration that was refused, and drops configuration 0. -/
theorem C60_unsupported_violated (b : End) (hb : b.hostSupport = false) (id role : Nat) (s : Settings) (hid : id ≠ 0)
    (a : End) (c : Config) (hc : a.config id = some c) :
    ∃ st a2 ev, incoming b (.configReq id 1 role s) = .ok 0 b [.configRsp st 0] [] ∧ st ≠ Status.success ∧
      incoming a (.configRsp st 0) = .ok 0 a2 [] ev ∧ a2.config id = some c ∧ a2.config 0 = none := by
  have h1 : incoming b (.configReq id 1 role s) = .ok 0 b [.configRsp Status.unsupportedRemote 0] [] := by
    simp only [incoming, onConfigReq]; rw [if_pos hb]
  cases h0 : find a.configs 0 with
  | none =>
    refine ⟨_, a, tell a.mask.config (.config Status.unsupportedRemote 0 false 0 zeroSettings 0), h1, by decide, ?_, hc, h0⟩
    simp only [incoming, onConfigRsp, h0]
  | some c0 =>
    refine ⟨_, { a with configs := erase a.configs 0 },
      tell a.mask.config (.config Status.unsupportedRemote 0 true c0.role c0.s 0), h1, by decide, ?_, ?_, ?_⟩
    · simp only [incoming, onConfigRsp, h0]; rfl
    · exact (find_erase_other _ hid).trans hc
    · exact find_erase_self _ _

/-- The event of the peer's host has the reserved field in the place of the jump: it says 0 for a jump of at
least 2. -/
theorem C60_event_violated (b : End) (id role : Nat) (s : Settings) (hb : b.hostSupport = true)
    (hm : b.mask.config = true) (b1 : End) (st : Status) (ev : List Ev) (hst : st = Status.success)
    (h : incoming b (.configReq id 1 role s) = .ok 0 b1 [.configRsp st id] ev) :
    ∃ s' r, ev = [.config Status.success id true (opposite role) s' r] ∧ s'.jump = 0 ∧ 2 ≤ s.jump := by
  subst hst
  rcases onConfigReq_create b id role s hb with ⟨_, h1⟩ | ⟨h0, h1⟩
  · have h : onConfigReq b id 1 role s = _ := h
    rw [h1] at h
    injection h with _ _ h _
    injection h with h _
    injection h with h _
    exact absurd h (by decide)
  · have h : onConfigReq b id 1 role s = _ := h
    rw [h1] at h
    injection h with _ _ _ h
    refine ⟨_, _, by rw [← h, tell, if_pos hm], rfl, ?_⟩
    unfold configReqOk at h0
    simp only [Bool.and_eq_true, decide_eq_true_eq] at h0
    exact h0.2.1

/-- Capabilities are exchanged: a side that asks learns the peer's, and the peer learns those of the side that
asked. -/
theorem C60_capabilities (a b : End) (ha : a.hostSupport = true) (hf : a.features ≠ some false) (hr : a.remote = none)
    (hb : b.hostSupport = true) :
    ∃ d b1 d1 ev1 a1 ev2, command a .readCaps = .ok Status.success a [d] [] ∧ incoming b d = .ok 0 b1 [d1] ev1 ∧
      incoming a d1 = .ok 0 a1 [] ev2 ∧ a1.remote = some { b.caps with subfeatures := 0 } ∧
      b1.remote = some { a.caps with subfeatures := 0 } := by
  refine ⟨.capsReq a.caps.sent, { b with remote := some a.caps.sent }, .capsRsp Status.success b.caps.sent,
    tell b.mask.caps (.caps Status.success), { a with remote := some b.caps.sent }, tell a.mask.caps (.caps Status.success),
    ?_, ?_, ?_, rfl, rfl⟩
  · simp [command, readCaps, ha, hf, hr]
  · simp [incoming, onCapsReq, hb]
  · simp [incoming, onCapsRsp]

/-- The roles a host enables are roles its controller has, and a refused command changes nothing. -/
theorem C60_roles (e : End) (roles antenna : Nat) :
    ∃ st e', command e (.setDefaults roles antenna) = .ok st e' [] [] ∧
      (st = 0 → (∀ i, roles.testBit i = true → e.caps.roles.testBit i = true) ∧ e' = { e with roleEnable := roles }) ∧
      (st ≠ 0 → e' = e) := by
  have h : ∀ i, roles &&& e.caps.roles = roles → roles.testBit i = true → e.caps.roles.testBit i = true := by
    intro i h hi
    rw [← h, Nat.testBit_and, Bool.and_eq_true] at hi
    exact hi.2
  simp only [command, setDefaults, refuse]
  (repeat' split) <;>
    first
    | exact ⟨_, _, rfl, nofun, fun _ => rfl⟩
    | exact ⟨_, _, rfl, fun _ => ⟨fun i => h i (Decidable.of_not_not (by assumption)), rfl⟩, fun h => absurd rfl h⟩

/-- The roles of a peripheral that can only reflect. -/
example : command exampleReflector (.setDefaults 2 1) = .ok 0 { exampleReflector with roleEnable := 2 } [] [] ∧
    command exampleReflector (.setDefaults 3 1) = .ok 0x11 exampleReflector [] [] := by
  decide +kernel

/-- The procedure parameters a host may set: those of a configuration it has whose procedure does not run, with
subevents of 1250 µs to 4 s, an antenna configuration below the number of antennas and a PHY the controller has. -/
theorem C61_parameters (e : End) (id : Nat) (p : Proc) :
    (∃ e', command e (.setParameters id p) = .ok 0 e' [] []) ↔
      (∃ c, e.config id = some c ∧ c.enabled = false) ∧ 1250 ≤ p.minSubevent ∧ p.minSubevent ≤ p.maxSubevent ∧
        p.maxSubevent < 4000000 ∧ p.antenna < e.caps.antennas ∧
        (p.phy = 1 ∨ p.phy = 2 ∧ e.caps.phys.testBit 2 = true ∨ p.phy = 3 ∧ e.caps.phys.testBit 3 = true) := by
  have phy : procPhyOk e.caps p.phy = true ↔
      (p.phy = 1 ∨ p.phy = 2 ∧ e.caps.phys.testBit 2 = true ∨ p.phy = 3 ∧ e.caps.phys.testBit 3 = true) := by
    unfold procPhyOk
    (repeat' split) <;> simp_all
  rw [← phy]
  have hf : find e.configs id = e.config id := rfl
  simp only [command, setParameters, hf]
  cases hc : e.config id with
  | none =>
    constructor
    · rintro ⟨e', h⟩
      cases h
    · rintro ⟨⟨c, h, _⟩, _⟩
      cases h
  | some c =>
    simp only []
    have no : ∀ st : Nat, st ≠ 0 → ∀ e' : End, refuse e st ≠ .ok 0 e' [] [] := by
      intro st hst e' h
      injection h with h
      exact hst h
    constructor
    · rintro ⟨e', h⟩
      (repeat' split at h) <;>
        first
        | exact absurd h (no _ (by decide) _)
        | skip
      refine ⟨⟨c, rfl, ?_⟩, ?_, ?_, ?_, ?_, ?_⟩
      · exact Bool.eq_false_iff.2 (by assumption)
      · omega
      · omega
      · omega
      · omega
      · exact (Bool.eq_false_or_eq_true _).resolve_right (by assumption)
    · rintro ⟨⟨c', h1, h2⟩, h3, h4, h5, h6, h7⟩
      injection h1 with h1
      subst h1
      rw [if_neg (by simp [h2]), if_neg (by omega), if_neg (by omega), if_neg (by omega), if_neg (by omega), if_neg (by simp [h7])]
      exact ⟨_, rfl⟩

/-- The parameters of the examples, and the same with an antenna configuration the controller lacks. -/
example :
    (∃ e', command { exampleInitiator with configs := [⟨1, 0, exampleSettings, false, none⟩] } (.setParameters 1 exampleProc) = .ok 0 e' [] []) ∧
      ¬ ∃ e', command { exampleInitiator with configs := [⟨1, 0, exampleSettings, false, none⟩] } (.setParameters 1 { exampleProc with antenna := 1 }) = .ok 0 e' [] [] := by
  rw [C61_parameters, C61_parameters]
  exact ⟨⟨⟨_, rfl, rfl⟩, by decide +kernel⟩, fun h => absurd h.2.2.2.2.1 (by decide +kernel)⟩

/-! ## C61: starting a procedure -/

/-- A peripheral agrees to a procedure only if it has the configuration, channel sounding security and the
frequency error table. Missing: the central, and what is told to the hosts, see below. -/
theorem C61_agrees_partial (b : End) (id : Nat) (slot : Slot) (b1 : End) (k : Nat) (slot' : Slot) (ev : List Ev)
    (h : incoming b (.csReq id slot) = .ok 0 b1 [.csRsp Status.success k slot'] ev) :
    b1 = b ∧ k = id ∧ slot' = slot ∧ ev = [] ∧ b.hostSupport = true ∧ b.central = false ∧ b.config id ≠ none ∧ b.iv ≠ 0 ∧
      b.fae ≠ none := by
  simp only [incoming, onCsReq] at h
  split at h
  · injection h with _ _ h _; injection h with h _; injection h with h _; exact absurd h (by decide)
  rename_i h1
  split at h
  · injection h with _ _ h _; injection h with h _; injection h with h _; exact absurd h (by decide)
  rename_i c hc
  split at h
  · injection h with _ _ h _; injection h with h _; injection h with h _; exact absurd h (by decide)
  rename_i h2
  split at h
  · injection h with _ _ h _; injection h with h _; injection h with h _; exact absurd h (by decide)
  rename_i h3
  split at h
  · rename_i h4
    cases h
    refine ⟨rfl, rfl, rfl, rfl, by simpa using h1, h4, ?_, h2, h3⟩
    rw [show b.config id = some c from hc]; exact nofun
  · obtain ⟨_, h5⟩ := reportStarted_ok h
    injection h5 with h5 _
    exact absurd h5 nofun

example : (peripheralAfter (prepare ++ create 0 exampleSettings)).map (fun e => match incoming e (.csReq 0 zeroSlot) with
    | .ok _ _ out _ => out
    | .abort => []) = some [.csRsp Status.success 0 zeroSlot] := by decide +kernel

/-- The central does not look at the status of the answer: it tells its host and the peer that the procedure has
started, even though the peer refused it. -/
theorem C61_refused_violated (e : End) (id : Nat) (c : Config) (p : Proc) (st : Status) (slot : Slot)
    (h1 : e.central = true) (h2 : e.hostSupport = true) (h3 : e.mask.proc = true) (h4 : e.config id = some c)
    (h5 : c.proc = some p) :
    incoming e (.csRsp st id slot) = .ok 0 e [.csInd Status.success id slot]
      [.proc Status.success id true p.antenna p.txDelta slot p.minInterval p.maxCount p.maxLen] := by
  have h4 : find e.configs id = some c := h4
  simp only [incoming, onCsRsp, reportStarted, h4, h5]
  rw [if_neg (by simp [h2]), if_pos h1, if_neg (by simp [h3])]

/-- Two unmodified controllers: the connection has no channel sounding security and the peripheral refuses, yet the
central's host is told of success. -/
theorem C61_refused_run_violated :
    (match (run exampleLink ([.cmdC .readCaps, .deliverP, .deliverC, .cmdC (.setDefaults 3 1)] ++ create 0 exampleSettings ++
        [.cmdC (.setParameters 0 exampleProc), .cmdC (.procedureEnable 0 true), .deliverP])) with
      | some l => decide (l.toC = [.csRsp Status.pinOrKeyMissing 0 zeroSlot]) && decide (l.c.secure = false) &&
          (match incoming l.c (.csRsp Status.pinOrKeyMissing 0 zeroSlot) with
            | .ok _ _ _ ev => decide (ev = [.proc Status.success 0 true 0 0 zeroSlot 1 1 100])
            | .abort => false)
      | none => false) = true := by
  decide +kernel

/-- The indication is not checked at all by the peripheral: neither security nor the frequency error table. -/
theorem C61_indication_violated (e : End) (id : Nat) (c : Config) (p : Proc) (st : Status) (slot : Slot)
    (h1 : e.central = false) (h2 : e.hostSupport = true) (h3 : e.mask.proc = true) (h4 : e.config id = some c)
    (h5 : c.proc = some p) :
    incoming e (.csInd st id slot) = .ok 0 e []
      [.proc Status.success id true p.antenna p.txDelta slot p.minInterval p.maxCount p.maxLen] := by
  have h4 : find e.configs id = some c := h4
  simp only [incoming, onCsInd, reportStarted, h4, h5]
  rw [if_neg (by simp [h2]), if_pos h1, if_neg (by simp [h3])]

/-- A key exists on a side only after security was enabled on an encrypted connection. -/
theorem C61_key_encrypted (e : End) (h0 : e.iv ≠ 0 → e.encrypted = true) :
    (∀ x st e' out ev, command e x = .ok st e' out ev → e'.iv ≠ 0 → e'.encrypted = true) ∧
    (∀ d st e' out ev, incoming e d = .ok st e' out ev → e'.iv ≠ 0 → e'.encrypted = true) := by
  constructor
  · intro x st e' out ev h
    cases x with
    | encrypt => cases h; exact fun _ => rfl
    | securityEnable =>
      simp only [command, securityEnable, refuse] at h
      split at h
      · cases h; exact h0
      split at h
      · cases h; exact h0
      rename_i he
      split at h
      · cases h; exact h0
      · cases h; exact fun _ => by simpa using he
    | createConfig => simp only [command, createConfig, refuse] at h; (repeat' split at h) <;> cases h <;> exact h0
    | readCaps => simp only [command, readCaps, refuse] at h; (repeat' split at h) <;> cases h <;> exact h0
    | setDefaults => simp only [command, setDefaults, refuse] at h; (repeat' split at h) <;> cases h <;> exact h0
    | readFae => simp only [command, readFae, refuse] at h; (repeat' split at h) <;> cases h <;> exact h0
    | writeFae => simp only [command, writeFae, refuse] at h; (repeat' split at h) <;> cases h <;> exact h0
    | writeCaps => simp only [command, writeCaps, refuse] at h; (repeat' split at h) <;> cases h <;> exact h0
    | classify => simp only [command, classify, refuse] at h; (repeat' split at h) <;> cases h <;> exact h0
    | removeConfig => simp only [command, removeConfig, refuse] at h; (repeat' split at h) <;> cases h <;> exact h0
    | setParameters => simp only [command, setParameters, refuse] at h; (repeat' split at h) <;> cases h <;> exact h0
    | procedureEnable => simp only [command, procedureEnable, refuse] at h; (repeat' split at h) <;> cases h <;> exact h0
  · intro d st e' out ev h
    cases d with
    | capsReq c => simp only [incoming, onCapsReq] at h; split at h <;> cases h <;> exact h0
    | capsRsp s c => simp only [incoming, onCapsRsp] at h; split at h <;> cases h <;> exact h0
    | faeReq => simp only [incoming, onFaeReq] at h; split at h <;> cases h <;> exact h0
    | faeRsp s t => simp only [incoming, onFaeRsp] at h; split at h <;> cases h <;> exact h0
    | configReq id action role s =>
      simp only [incoming, onConfigReq] at h
      (repeat' split at h) <;> cases h <;> exact h0
    | configRsp s id =>
      simp only [incoming, onConfigRsp] at h
      (repeat' split at h) <;> cases h <;> exact h0
    | secReq =>
      simp only [incoming, onSecReq] at h
      split at h
      · cases h; exact h0
      rename_i he
      split at h
      · cases h; exact h0
      · cases h; exact fun _ => by simpa using he
    | secRsp s => simp only [incoming, onSecRsp] at h; split at h <;> cases h <;> exact h0
    | csReq id slot =>
      simp only [incoming, onCsReq] at h
      (repeat' split at h) <;> first
        | (cases h; exact h0)
        | (obtain ⟨rfl, -⟩ := reportStarted_ok h; exact h0)
    | csRsp s id slot =>
      simp only [incoming, onCsRsp] at h
      (repeat' split at h) <;> first
        | (cases h; exact h0)
        | (obtain ⟨rfl, -⟩ := reportStarted_ok h; exact h0)
    | csInd s id slot =>
      simp only [incoming, onCsInd] at h
      (repeat' split at h) <;> first
        | (cases h; exact h0)
        | (obtain ⟨rfl, -⟩ := reportStarted_ok h; exact h0)
    | mapInd m => cases h; exact h0
    | termReq id count err => cases h; exact h0
    | termRsp id count err => cases h; exact h0

end Verif.Cs
