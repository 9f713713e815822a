import Verif.Cs.Spec

/-!
# When a channel sounding command is refused

Core Specification 6.0, Vol 4, Part E, 7.8.130 to 7.8.140: for each command the reasons to refuse it, each with its error code.
The first that applies counts. The codes: 0x0C command disallowed, 0x0D rejected for limited resources, 0x11 unsupported feature
or parameter value, 0x12 invalid parameters, 0x2F insufficient security. -/
namespace Verif.Cs

/-- A reason and its code. -/
abbrev Reason := Bool × Nat

/-- The code of the first reason that applies, 0 if none does. -/
def firstOf : List Reason → Nat
  | [] => 0
  | (b, code) :: rest => if b then code else firstOf rest

/-- The peer is known to have no table of frequency errors. -/
def peerLacksTable (e : End) : Bool := e.remote.elim false (fun c => (c.subfeatures / 2) % 2 = 1)

/-- Whether a controller can measure with the round trip type: 0 by the access address, 1 and 2 with a sounding sequence, 3 to 6
with a random sequence. -/
def canMeasure (c : Caps) (rtt : Nat) : Bool :=
  match rtt with
  | 0 => c.rttAa != 0
  | 1 | 2 => c.rttSounding != 0
  | 3 | 4 | 5 | 6 => c.rttRandom != 0
  | _ => false

/-- Whether a controller can send CS_SYNC on the PHY: 1 is LE 1M, which all can; 2 is LE 2M, bit 1; 3 is LE 2M 2BT, bit 2. -/
def canSync (c : Caps) (phy : Nat) : Bool :=
  match phy with
  | 1 => true
  | 2 => (c.phys / 2) % 2 = 1
  | 3 => (c.phys / 4) % 2 = 1
  | _ => false

/-- Whether a controller can do the mode: 1 and 2 always, 3 if bit 0 says so. -/
def canMode (c : Caps) (mode : Nat) : Bool :=
  match mode with
  | 1 | 2 => true
  | 3 => c.modes % 2 = 1
  | _ => false

/-- Main modes and submodes that go together; 255 is none. -/
def goTogether (main sub : Nat) : Bool := sub == 255 || (main, sub) ∈ [(2, 1), (2, 3), (3, 2)]

/-- The reasons to refuse a configuration that need no more than its parameters. -/
def badSettings (s : Settings) (reserved : Nat) : Bool :=
  !(s.main ∈ [1, 2, 3]) || !(s.sub ∈ [1, 2, 3, 255]) || !(s.mainRepetition ≤ 3) || !(s.mode0 ∈ [1, 2, 3]) || s.repetition == 0 ||
    (s.selection == 1 && (!(s.shape ∈ [0, 1]) || !(2 ≤ s.jump && s.jump ≤ 8))) ||
    (s.sub != 255 && !(1 ≤ s.minSteps && s.minSteps ≤ s.maxSteps)) ||
    !decide (AlmostUsable s.map) || !goTogether s.main s.sub || reserved != 0

/-- What only the two controllers can tell. -/
def beyond (c r : Caps) (id role : Nat) (s : Settings) : Bool :=
  c.numConfig ≤ id || r.numConfig ≤ id || !c.roles.testBit role || !r.roles.testBit (opposite role) ||
    !canMode c s.main || !canMode r s.main || (s.sub != 255 && (!canMode c s.sub || !canMode r s.sub)) ||
    !canMeasure c s.rtt || !canMeasure r s.rtt || !canSync c s.phy || !canSync r s.phy || s.selection != 1

/-- The reasons. -/
def reasons (e : End) : Cmd → List Reason
  | .encrypt => []
  | .readCaps => [(!e.hostSupport, 0x0C), (e.features == some false, 0x0C)]
  | .setDefaults roles antenna =>
    [(roles == 0 && !e.configs.isEmpty, 0x12), (roles &&& e.caps.roles != roles, 0x11),
      (!(antenna ∈ [1, 2, 3, 4, 253, 254, 255]), 0x11), (antenna ≤ 4 && decide (e.caps.antennas < antenna), 0x11)]
  | .readFae => [(!e.hostSupport, 0x0C), (peerLacksTable e, 0x11)]
  | .writeFae _ => [(peerLacksTable e, 0x11), (e.fae.isSome, 0x0C), (!e.configs.isEmpty, 0x0C)]
  | .writeCaps _ => [(!e.hostSupport, 0x0C), (e.remote.isSome, 0x0C), (!e.configs.isEmpty, 0x0C)]
  | .createConfig id context role s reserved =>
    [(e.remote.isNone, 0x0C), (!e.roleEnable.testBit role, 0x12), (!(id ≤ 3), 0x12), (!(context ≤ 1), 0x12), (badSettings s reserved, 0x12),
      (e.remote.elim false (fun r => beyond e.caps r id role s), 0x11)]
  | .classify now m => [(e.classified.elim false (fun t => now < t + 1000000000), 0x0C), (!decide (Usable m), 0x12)]
  | .removeConfig id => [((e.config id).isNone, 0x12)]
  | .securityEnable => [(!e.central, 0x0C), (!e.encrypted, 0x2F), (!e.hostSupport, 0x0C)]
  | .setParameters id p =>
    [((e.config id).isNone, 0x12), ((e.config id).elim false (·.enabled), 0x0C),
      (!(1250 ≤ p.minSubevent && p.minSubevent ≤ p.maxSubevent && p.maxSubevent < 4000000), 0x0D), (!(p.antenna < e.caps.antennas), 0x0D),
      (!(p.phy == 1 || p.phy == 2 && e.caps.phys.testBit 2 || p.phy == 3 && e.caps.phys.testBit 3), 0x0D)]
  | .procedureEnable id _ =>
    [((e.config id).isNone, 0x12), ((e.config id).elim false (·.proc.isNone), 0x0C), ((e.config id).elim false (·.enabled), 0x0C)]

/-- Roles are 0 and 1. -/
def Cmd.wellFormed : Cmd → Prop
  | .createConfig _ _ role _ _ => role ≤ 1
  | _ => True

/-- What an accepted command leaves behind. -/
def left (e : End) : Cmd → End
  | .encrypt => { e with encrypted := true }
  | .readCaps | .readFae => e
  | .setDefaults roles _ => { e with roleEnable := roles }
  | .writeFae t => { e with fae := some t }
  | .writeCaps c => { e with remote := some c }
  | .createConfig id _ role s _ => { e with configs := ⟨id, role, s, false, none⟩ :: e.configs.filter (fun c => c.id != id) }
  | .classify now m => { e with classified := some now, configs := e.configs.map (fun c => { c with s := { c.s with map := m } }) }
  | .removeConfig id => { e with configs := e.configs.filter (fun c => c.id != id) }
  | .securityEnable => { e with iv := 0x1122334455667788 }
  | .setParameters id p => { e with configs := e.configs.map (fun c => if c.id = id then { c with proc := some p } else c) }
  | .procedureEnable id on => { e with configs := e.configs.map (fun c => if c.id = id then { c with enabled := on } else c) }

/-- Ten octets, all zero. -/
def zeros : ChannelMap := #v[0, 0, 0, 0, 0, 0, 0, 0, 0, 0]

/-- The question an accepted command puts to the peer. -/
inductive Asks (e : End) : Cmd → List Pdu → Prop
  | encrypt : Asks e .encrypt []
  | capsKnown : e.remote.isSome → Asks e .readCaps []
  | caps : e.remote = none → Asks e .readCaps [.capsReq { e.caps with subfeatures := 0 }]
  | defaults r a : Asks e (.setDefaults r a) []
  | tableKnown : e.fae.isSome → Asks e .readFae []
  | table : e.fae = none → Asks e .readFae [.faeReq]
  | writeTable t : Asks e (.writeFae t) []
  | writeCaps c : Asks e (.writeCaps c) []
  | createAlone id role s r : Asks e (.createConfig id 0 role s r) []
  | create id role s r : Asks e (.createConfig id 1 role s r) [.configReq id 1 role s]
  | classify now m : Asks e (.classify now m) [.mapInd m]
  | remove id : Asks e (.removeConfig id)
      [.configReq id 0 0 { map := zeros, repetition := 0, main := 1, sub := 255, minSteps := 0, maxSteps := 0, mainRepetition := 0, mode0 := 0, phy := 1, rtt := 0, selection := 0, shape := 0, jump := 0 }]
  | security : Asks e .securityEnable [.secReq]
  | parameters id p : Asks e (.setParameters id p) []
  | start id c p : e.config id = some c → c.proc = some p → Asks e (.procedureEnable id true)
      [.csReq id { eventCount := 0, offMin := 0, offMax := 0, eventInterval := 0, perEvent := 1, subeventInterval := 0, subeventLen := p.minSubevent, aci := p.antenna, phy := p.phy, delta := p.txDelta }]
  | stop id : Asks e (.procedureEnable id false) [.termReq id 1 0]

/-- The events of an accepted command: what the host asks for and the controller knows already, unless the event is masked. -/
inductive Tells (e : End) : Cmd → List Ev → Prop
  | none (x : Cmd) : x ≠ .readCaps → x ≠ .readFae → (∀ id k role s r, x ≠ .createConfig id k role s r) → Tells e x []
  | caps : e.remote.isSome → Tells e .readCaps (if e.mask.caps then [.caps 0] else [])
  | later : e.remote = none → Tells e .readCaps []
  | table t : e.fae = some t → Tells e .readFae (if e.mask.fae then [.fae 0 t] else [])
  | tableLater : e.fae = none → Tells e .readFae []
  | create id role s r : Tells e (.createConfig id 0 role s r) (if e.mask.config then [.config 0 id true role s 0] else [])
  | createLater id role s r : Tells e (.createConfig id 1 role s r) []

end Verif.Cs
