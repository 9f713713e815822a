/-!
# Channel sounding at one end of an LE connection

model/controller/le_controller.cc:2312-3935 and model/controller/le_cs_parameters.h.

Simplifications of the whole file:

* One connection; the handle checks (`UNKNOWN_CONNECTION`) are left out.
* An enumeration of a command ranges over its declared values (packets/hci_packets.pdl). Octets and
  status codes are natural numbers. The fields of a PDU are taken as they are: the values a controller
  puts into a PDU fit its fields.
* Events handed to the scheduler without delay are sent at once.
* The capabilities contain only the fields the code looks at.
* The host's channel sounding feature (`channel_sounding_host_support_`), the event masks, the local
  capabilities and the peer's feature bits do not change during the connection. -/
namespace Verif.Cs

/-- A status octet, packets/hci_packets.pdl:919-969. -/
abbrev Status := Nat
namespace Status
abbrev success : Status := 0x00
abbrev pinOrKeyMissing : Status := 0x06
abbrev commandDisallowed : Status := 0x0C
abbrev limitedResources : Status := 0x0D
abbrev unsupportedFeature : Status := 0x11
abbrev invalidParameters : Status := 0x12
abbrev unsupportedRemote : Status := 0x1A
abbrev invalidLlParameters : Status := 0x1E
abbrev unsupportedLlParameter : Status := 0x20
abbrev insufficientSecurity : Status := 0x2F
end Status

/-- `std::array<uint8_t, 10> channel_map`: ten octets. -/
abbrev ChannelMap := Vector (BitVec 8) 10

/-- The fields of `LeCsConfig` both sides of a connection share, le_cs_parameters.h:56-74. -/
structure Settings where
  map : ChannelMap
  repetition : Nat
  main : Nat
  sub : Nat
  minSteps : Nat
  maxSteps : Nat
  mainRepetition : Nat
  mode0 : Nat
  phy : Nat
  rtt : Nat
  selection : Nat
  shape : Nat
  jump : Nat
deriving DecidableEq

/-- `LeCsProcedureParameters`, le_cs_parameters.h:41-54. -/
structure Proc where
  maxLen : Nat
  minInterval : Nat
  maxInterval : Nat
  maxCount : Nat
  minSubevent : Nat
  maxSubevent : Nat
  antenna : Nat
  phy : Nat
  txDelta : Nat
  peerAntenna : Nat
  snrInitiator : Nat
  snrReflector : Nat
deriving DecidableEq

/-- `LeCsConfig`, le_cs_parameters.h:56-74. The role is 0 for the initiator, 1 for the reflector. -/
structure Config where
  id : Nat
  role : Nat
  s : Settings
  enabled : Bool
  proc : Option Proc
deriving DecidableEq

/-- `CsLocalSupportedCapabilities`, controller_properties.h:52-83, the fields that are looked at. -/
structure Caps where
  numConfig : Nat
  antennas : Nat
  roles : Nat
  modes : Nat
  rttAa : Nat
  rttSounding : Nat
  rttRandom : Nat
  phys : Nat
  subfeatures : Nat
deriving DecidableEq

/-- `IsLeEventUnmasked` for the five subevents. -/
structure Mask where
  caps : Bool
  fae : Bool
  config : Bool
  sec : Bool
  proc : Bool
deriving DecidableEq

/-- One end of the connection: its `LeCsParameters` (le_cs_parameters.h:76-87), what the code reads of the
connection and the controller, and `last_le_cs_set_channel_classification_time_` in nanoseconds
(nothing for `time_point::min()`, its value after a reset). `configs` is the unordered map `config_map`, as a list with one entry for an identifier. `features` is
the channel sounding host bit of `remote_supported_features`, if these are known. -/
structure End where
  central : Bool
  hostSupport : Bool
  mask : Mask
  caps : Caps
  encrypted : Bool
  features : Option Bool
  remote : Option Caps
  fae : Option (List Nat)
  roleEnable : Nat
  configs : List Config
  secure : Bool
  iv : Nat
  classified : Option Nat
deriving DecidableEq

/-- The timing fields of LL_CS_REQ, LL_CS_RSP and LL_CS_IND, packets/link_layer_packets.pdl:530-584. The
fields of LL_CS_REQ no receiver reads are left out; LL_CS_IND has no `offMax`. -/
structure Slot where
  eventCount : Nat
  offMin : Nat
  offMax : Nat
  eventInterval : Nat
  perEvent : Nat
  subeventInterval : Nat
  subeventLen : Nat
  aci : Nat
  phy : Nat
  delta : Nat
deriving DecidableEq

/-- The channel sounding PDUs, packets/link_layer_packets.pdl:417-603. -/
inductive Pdu where
  | capsReq (c : Caps)
  | capsRsp (st : Status) (c : Caps)
  | faeReq
  | faeRsp (st : Status) (table : List Nat)
  | configReq (id action role : Nat) (s : Settings)
  | configRsp (st : Status) (id : Nat)
  | secReq
  | secRsp (st : Status)
  | csReq (id : Nat) (slot : Slot)
  | csRsp (st : Status) (id : Nat) (slot : Slot)
  | csInd (st : Status) (id : Nat) (slot : Slot)
  | mapInd (map : ChannelMap)
  | termReq (id count : Nat) (err : Status)
  | termRsp (id count : Nat) (err : Status)
deriving DecidableEq

/-- The events. `config` has the settings in the order of the event's fields, so that `s.jump` is the field
ch3c_jump and `reserved` the one after it. Those of the capabilities event are left out. -/
inductive Ev where
  | caps (st : Status)
  | fae (st : Status) (table : List Nat)
  | config (st : Status) (id : Nat) (created : Bool) (role : Nat) (s : Settings) (reserved : Nat)
  | sec (st : Status)
  | proc (st : Status) (id : Nat) (on : Bool) (antenna txPower : Nat) (slot : Slot) (interval count len : Nat)
deriving DecidableEq

/-- What a command or PDU does: the status of the command (0 for a PDU), the new state, the PDUs and the
events. `abort`: an uncaught `std::bad_optional_access`. -/
inductive Res where
  | ok (st : Status) (e : End) (out : List Pdu) (ev : List Ev)
  | abort
deriving DecidableEq

/-- `config_map.find`. -/
def find (l : List Config) (id : Nat) : Option Config := l.find? (fun c => c.id == id)

/-- `config_map.erase`. -/
def erase (l : List Config) (id : Nat) : List Config := l.filter (fun c => c.id != id)

/-- `config_map[id] = c`. -/
def put (l : List Config) (c : Config) : List Config := c :: erase l c.id

/-- A command that ends with an error: nothing changes. -/
def refuse (e : End) (st : Status) : Res := .ok st e [] []

/-- `if (IsLeEventUnmasked(…)) send_event_(…)`. -/
def tell (b : Bool) (v : Ev) : List Ev := if b then [v] else []

/-- The capabilities as they are sent, le_controller.cc:68-120: both PDUs have the field no_fae zero, and the
receiver fills the subfeatures from it. -/
def Caps.sent (c : Caps) : Caps := { c with subfeatures := 0 }

/-- LeCsReadRemoteSupportedCapabilities, le_controller.cc:2312-2354. -/
def readCaps (e : End) : Res :=
  if e.hostSupport = false ∨ e.features = some false then refuse e Status.commandDisallowed
  else if e.remote.isSome then .ok Status.success e [] (tell e.mask.caps (.caps Status.success))
  else .ok Status.success e [.capsReq e.caps.sent] []

/-- LeCsSetDefaultSettings, le_controller.cc:2356-2406. `role_enable & ~roles_supported` is not zero if a bit
is set on the left and not on the right. The power is not looked at. -/
def setDefaults (e : End) (roleEnable antenna : Nat) : Res :=
  if roleEnable = 0 ∧ e.configs ≠ [] then refuse e Status.invalidParameters
  else if roleEnable &&& e.caps.roles ≠ roleEnable then refuse e Status.unsupportedFeature
  else if 1 ≤ antenna ∧ antenna ≤ 4 then
    if antenna > e.caps.antennas then refuse e Status.unsupportedFeature
    else .ok Status.success { e with roleEnable := roleEnable } [] []
  else if antenna = 0xFD ∨ antenna = 0xFE ∨ antenna = 0xFF then
    .ok Status.success { e with roleEnable := roleEnable } [] []
  else refuse e Status.unsupportedFeature

/-- The peer's capabilities are known and say that it has no table of mode 0 frequency errors. -/
def noFae (e : End) : Bool := match e.remote with
  | some c => c.subfeatures.testBit 1
  | none => false

/-- LeCsReadRemoteFaeTable, le_controller.cc:2408-2450. -/
def readFae (e : End) : Res :=
  if e.hostSupport = false then refuse e Status.commandDisallowed
  else if noFae e = true then refuse e Status.unsupportedFeature
  else match e.fae with
  | some t => .ok Status.success e [] (tell e.mask.fae (.fae Status.success t))
  | none => .ok Status.success e [.faeReq] []

/-- LeCsWriteCachedRemoteFaeTable, le_controller.cc:2452-2488. -/
def writeFae (e : End) (table : List Nat) : Res :=
  if noFae e = true then refuse e Status.unsupportedFeature
  else if e.fae.isSome then refuse e Status.commandDisallowed
  else if e.configs ≠ [] then refuse e Status.commandDisallowed
  else .ok Status.success { e with fae := some table } [] []

/-- LeCsWriteCachedRemoteSupportedCapabilities, le_controller.cc:2490-2552. -/
def writeCaps (e : End) (c : Caps) : Res :=
  if e.hostSupport = false then refuse e Status.commandDisallowed
  else if e.remote.isSome then refuse e Status.commandDisallowed
  else if e.configs ≠ [] then refuse e Status.commandDisallowed
  else .ok Status.success { e with remote := some c } [] []

/-- `__builtin_popcount` of an octet. -/
def popcount (b : BitVec 8) : Nat := (List.range 8).countP b.getLsbD

/-- The loop over a channel map, le_controller.cc:2661-2667 and 2882-2888: nothing if a channel of the mask
is on, otherwise the number of channels. -/
def countChannels : List (BitVec 8) → List (BitVec 8) → Nat → Option Nat
  | b :: bs, r :: rs, n => if b &&& r ≠ 0 then none else countChannels bs rs (n + popcount b)
  | _, _, n => some n

/-- `reserved_mask`, le_controller.cc:2652-2659. -/
def createMask : List (BitVec 8) := [0b00000011, 0, 0b10000000, 0b00000011, 0, 0, 0, 0, 0, 0b01100000]

/-- `reserved_mask`, le_controller.cc:2880-2881. -/
def classMask : List (BitVec 8) := [0x03, 0x00, 0x80, 0x03, 0x00, 0x00, 0x00, 0x00, 0x00, 0xE0]

/-- The map passes the loop and has at least 15 channels, le_controller.cc:2661-2671 and 2882-2895. -/
def mapOk (mask : List (BitVec 8)) (m : ChannelMap) : Bool := match countChannels m.toList mask 0 with
  | none => false
  | some n => !decide (n < 15)

/-- The round trip types a controller can do, le_controller.cc:2770-2789 and 3427-3442. -/
def rttOk (c : Caps) (rtt : Nat) : Bool :=
  if rtt = 0 then c.rttAa != 0
  else if rtt = 1 ∨ rtt = 2 then c.rttSounding != 0
  else if 3 ≤ rtt ∧ rtt ≤ 6 then c.rttRandom != 0
  else false

/-- The PHYs a controller can do, le_controller.cc:2795-2813 and 3452-3466. -/
def phyOk (c : Caps) (phy : Nat) : Bool :=
  if phy = 1 then true
  else if phy = 2 then c.phys.testBit 1
  else if phy = 3 then c.phys.testBit 2
  else false

/-- `check_mode_supported`, le_controller.cc:2731-2742. -/
def mainOk (c : Caps) (main : Nat) : Bool :=
  if main = 1 ∨ main = 2 then true else if main = 3 then c.modes.testBit 0 else false

/-- `check_sub_mode_supported`, le_controller.cc:2744-2756, under the condition of 2763. -/
def subOk (c : Caps) (sub : Nat) : Bool :=
  if sub = 0xFF ∨ sub = 1 ∨ sub = 2 then true else if sub = 3 then c.modes.testBit 0 else false

/-- The checks of LeCsCreateConfig, le_controller.cc:2571-2822, in their order. `context` is 0 for the local
controller only, 1 for both. -/
def createCheck (e : End) (id context role : Nat) (s : Settings) (reserved : Nat) : Status :=
  match e.remote with
  | none => Status.commandDisallowed
  | some r =>
    if e.roleEnable.testBit (if role = 0 then 0 else 1) = false then Status.invalidParameters
    else if id > 3 then Status.invalidParameters
    else if ¬(context = 0 ∨ context = 1) then Status.invalidParameters
    else if s.main ≠ 1 ∧ s.main ≠ 2 ∧ s.main ≠ 3 then Status.invalidParameters
    else if s.sub ≠ 0xFF ∧ s.sub ≠ 1 ∧ s.sub ≠ 2 ∧ s.sub ≠ 3 then Status.invalidParameters
    else if s.mainRepetition > 3 then Status.invalidParameters
    else if s.mode0 < 1 ∨ s.mode0 > 3 then Status.invalidParameters
    else if s.repetition < 1 then Status.invalidParameters
    else if s.selection = 1 ∧ ¬(s.shape = 0 ∨ s.shape = 1) then Status.invalidParameters
    else if s.selection = 1 ∧ (s.jump < 2 ∨ s.jump > 8) then Status.invalidParameters
    else if s.sub ≠ 0xFF ∧ (s.minSteps < 1 ∨ s.maxSteps < 1 ∨ s.maxSteps < s.minSteps) then Status.invalidParameters
    else if mapOk createMask s.map = false then Status.invalidParameters
    else if ¬(s.sub = 0xFF ∨ (s.main = 2 ∧ s.sub = 1) ∨ (s.main = 2 ∧ s.sub = 3) ∨ (s.main = 3 ∧ s.sub = 2)) then
      Status.invalidParameters
    else if reserved ≠ 0 then Status.invalidParameters
    else if id ≥ e.caps.numConfig ∨ id ≥ r.numConfig then Status.unsupportedFeature
    else if e.caps.roles.testBit role = false ∨ r.roles.testBit (if role = 0 then 1 else 0) = false then
      Status.unsupportedFeature
    else if mainOk e.caps s.main = false ∨ mainOk r s.main = false then Status.unsupportedFeature
    else if subOk e.caps s.sub = false ∨ subOk r s.sub = false then Status.unsupportedFeature
    else if rttOk e.caps s.rtt = false ∨ rttOk r s.rtt = false then Status.unsupportedFeature
    else if phyOk e.caps s.phy = false ∨ phyOk r s.phy = false then Status.unsupportedFeature
    else if s.selection ≠ 1 then Status.unsupportedFeature
    else Status.success

/-- LeCsCreateConfig, le_controller.cc:2554-2869: after the checks the configuration is stored, then the peer
is asked or the host told. -/
def createConfig (e : End) (id context role : Nat) (s : Settings) (reserved : Nat) : Res :=
  if createCheck e id context role s reserved ≠ Status.success then
    refuse e (createCheck e id context role s reserved)
  else if context = 1 then
    .ok Status.success { e with configs := put e.configs ⟨id, role, s, false, none⟩ } [.configReq id 1 role s] []
  else
    .ok Status.success { e with configs := put e.configs ⟨id, role, s, false, none⟩ } []
      (tell e.mask.config (.config Status.success id true role s 0))

/-- Gives a configuration another channel map. -/
def Config.withMap (c : Config) (m : ChannelMap) : Config := { c with s := { c.s with map := m } }

/-- Less than a second has passed, le_controller.cc:2876. -/
def tooEarly (last : Option Nat) (now : Nat) : Bool := match last with
  | none => false
  | some t => decide (now < t + 1000000000)

/-- LeCsSetChannelClassification, le_controller.cc:2871-2914. `now` is the steady clock in nanoseconds. -/
def classify (e : End) (now : Nat) (m : ChannelMap) : Res :=
  if tooEarly e.classified now = true then refuse e Status.commandDisallowed
  else if mapOk classMask m = false then refuse e Status.invalidParameters
  else .ok Status.success { e with classified := some now, configs := e.configs.map (·.withMap m) } [.mapInd m] []

/-- The zeros of `std::array<uint8_t, 10>{}`. -/
def noChannels : ChannelMap := Vector.replicate 10 0

/-- The fields of the PDU LeCsRemoveConfig sends, le_controller.cc:2936-2943. -/
def removeSettings : Settings := ⟨noChannels, 0, 1, 0xFF, 0, 0, 0, 0, 1, 0, 0, 0, 0⟩

/-- LeCsRemoveConfig, le_controller.cc:2916-2948. -/
def removeConfig (e : End) (id : Nat) : Res := match find e.configs id with
  | none => refuse e Status.invalidParameters
  | some _ => .ok Status.success { e with configs := erase e.configs id } [.configReq id 0 0 removeSettings] []

/-- LeCsSecurityEnable, le_controller.cc:2950-2991. Of the three values only the first is looked at later. -/
def securityEnable (e : End) : Res :=
  if e.central = false then refuse e Status.commandDisallowed
  else if e.encrypted = false then refuse e Status.insufficientSecurity
  else if e.hostSupport = false then refuse e Status.commandDisallowed
  else .ok Status.success { e with iv := 0x1122334455667788 } [.secReq] []

/-- The PHY check of LeCsSetProcedureParameters, le_controller.cc:3054-3070. -/
def procPhyOk (c : Caps) (phy : Nat) : Bool :=
  if phy = 1 then true
  else if phy = 2 then c.phys.testBit 2
  else if phy = 3 then c.phys.testBit 3
  else false

/-- Sets the procedure parameters of a configuration. -/
def setProc (l : List Config) (id : Nat) (p : Proc) : List Config :=
  l.map (fun c => if c.id = id then { c with proc := some p } else c)

/-- Sets the flag of a configuration. -/
def setEnabled (l : List Config) (id : Nat) (b : Bool) : List Config :=
  l.map (fun c => if c.id = id then { c with enabled := b } else c)

/-- LeCsSetProcedureParameters, le_controller.cc:2993-3093. -/
def setParameters (e : End) (id : Nat) (p : Proc) : Res := match find e.configs id with
  | none => refuse e Status.invalidParameters
  | some c =>
    if c.enabled = true then refuse e Status.commandDisallowed
    else if p.minSubevent < 1250 ∨ p.minSubevent > 3999999 then refuse e Status.limitedResources
    else if p.maxSubevent < 1250 ∨ p.maxSubevent > 3999999 then refuse e Status.limitedResources
    else if p.minSubevent > p.maxSubevent then refuse e Status.limitedResources
    else if p.antenna ≥ e.caps.antennas then refuse e Status.limitedResources
    else if procPhyOk e.caps p.phy = false then refuse e Status.limitedResources
    else .ok Status.success { e with configs := setProc e.configs id p } [] []

/-- LeCsProcedureEnable, le_controller.cc:3095-3179. -/
def procedureEnable (e : End) (id : Nat) (on : Bool) : Res := match find e.configs id with
  | none => refuse e Status.invalidParameters
  | some c => match c.proc with
    | none => refuse e Status.commandDisallowed
    | some p =>
      if c.enabled = true then refuse e Status.commandDisallowed
      else if on = true then
        .ok Status.success { e with configs := setEnabled e.configs id true }
          [.csReq id ⟨0, 0, 0, 0, 1, 0, p.minSubevent, p.antenna, p.phy, p.txDelta⟩] []
      else
        .ok Status.success { e with configs := setEnabled e.configs id false } [.termReq id 1 Status.success] []

/-- IncomingLlCsCapabilitiesReq, le_controller.cc:3181-3241. The subfeatures
of `c` are 2 if the PDU says that there is no frequency error table, 0 otherwise. -/
def onCapsReq (e : End) (c : Caps) : Res :=
  if e.hostSupport = false then .ok 0 e [.capsRsp Status.unsupportedRemote e.caps.sent] []
  else .ok 0 { e with remote := some c } [.capsRsp Status.success e.caps.sent] (tell e.mask.caps (.caps Status.success))

/-- IncomingLlCsCapabilitiesRsp, le_controller.cc:3243-3302. -/
def onCapsRsp (e : End) (st : Status) (c : Caps) : Res :=
  if st ≠ Status.success then .ok 0 e [] (tell e.mask.caps (.caps st))
  else .ok 0 { e with remote := some c } [] (tell e.mask.caps (.caps Status.success))

/-- The table of le_controller.cc:3322-3325. -/
def faeTable : List Nat := (List.range 72).map (· + 1)

/-- IncomingLlCsFaeReq, le_controller.cc:3304-3329. -/
def onFaeReq (e : End) : Res :=
  if e.hostSupport = false then .ok 0 e [.faeRsp Status.unsupportedRemote (List.replicate 72 0)] []
  else .ok 0 e [.faeRsp Status.success faeTable] []

/-- IncomingLlCsFaeRsp, le_controller.cc:3331-3352. -/
def onFaeRsp (e : End) (st : Status) (table : List Nat) : Res :=
  if st ≠ Status.success then .ok 0 e [] (tell e.mask.fae (.fae st (List.replicate 72 0)))
  else .ok 0 { e with fae := some table } [] (tell e.mask.fae (.fae Status.success table))

/-- The checks of IncomingLlCsConfigReq after that of the host's support, le_controller.cc:3375-3506. All of
them answer with the same error. The role is compared with the values of `CsRolesSupported` (initiator 1,
reflector 2), the main mode with those of `CsModesSupported` (mode 3 is 1). -/
def configReqOk (c : Caps) (role : Nat) (s : Settings) : Bool :=
  c.roles.testBit (if role = 1 then 1 else 0) &&
  (s.main == 1 && c.modes.testBit 0) &&
  (s.sub == 0xFF || s.sub == 2) &&
  rttOk c s.rtt && phyOk c s.phy &&
  s.selection == 1 &&
  (s.shape == 0 || s.shape == 1) &&
  (decide (2 ≤ s.jump) && decide (s.jump ≤ 8))

/-- The settings of the event of IncomingLlCsConfigReq, le_controller.cc:3553-3583: for a configuration that is
not created the enumerations have fixed values, and `0 /*reserved*/` takes the place of ch3c_jump. -/
def reqSettings (created : Bool) (s : Settings) : Settings :=
  if created then { s with jump := 0 }
  else { s with main := 1, sub := 0xFF, rtt := 0, phy := 1, selection := 0, shape := 0, jump := 0 }

/-- IncomingLlCsConfigReq, le_controller.cc:3354-3592. -/
def onConfigReq (e : End) (id action role : Nat) (s : Settings) : Res :=
  if e.hostSupport = false then .ok 0 e [.configRsp Status.unsupportedRemote 0] []
  else if configReqOk e.caps role s = false then .ok 0 e [.configRsp Status.unsupportedLlParameter id] []
  else if action = 1 then
    .ok 0 { e with configs := put e.configs ⟨id, if role = 0 then 1 else 0, s, false, none⟩ }
      [.configRsp Status.success id]
      (tell e.mask.config (.config Status.success id true (if role = 0 then 1 else 0) (reqSettings true s) s.jump))
  else if action = 0 then
    .ok 0 { e with configs := erase e.configs id } [.configRsp Status.success id]
      (tell e.mask.config (.config Status.success id false 0 (reqSettings false s) s.jump))
  else
    .ok 0 e [.configRsp Status.success id]
      (tell e.mask.config (.config Status.success id false 0 (reqSettings false s) s.jump))

/-- The zeros of the event of le_controller.cc:3608-3619. -/
def zeroSettings : Settings := ⟨noChannels, 0, 0, 0, 0, 0, 0, 0, 0, 0, 0, 0, 0⟩

/-- IncomingLlCsConfigRsp, le_controller.cc:3594-3644. -/
def onConfigRsp (e : End) (st : Status) (id : Nat) : Res := match find e.configs id with
  | none => .ok 0 e [] (tell e.mask.config (.config st id false 0 zeroSettings 0))
  | some c =>
    if st ≠ Status.success then
      .ok 0 { e with configs := erase e.configs id } [] (tell e.mask.config (.config st id true c.role c.s 0))
    else .ok 0 e [] (tell e.mask.config (.config st id true c.role c.s 0))

/-- IncomingLlCsSecurityReq, le_controller.cc:3646-3695. -/
def onSecReq (e : End) : Res :=
  if e.encrypted = false then .ok 0 e [.secRsp Status.insufficientSecurity] []
  else if e.hostSupport = false then .ok 0 e [.secRsp Status.unsupportedRemote] []
  else .ok 0 { e with iv := 0x1234567890ABCDEF, secure := true } [.secRsp Status.success]
    (tell e.mask.sec (.sec Status.success))

/-- IncomingLlCsSecurityRsp, le_controller.cc:3697-3717. -/
def onSecRsp (e : End) (st : Status) : Res :=
  if st ≠ Status.success then .ok 0 e [] (tell e.mask.sec (.sec st))
  else .ok 0 { e with secure := true } [] (tell e.mask.sec (.sec Status.success))

/-- The slot of a response that refuses, le_controller.cc:3732-3734. -/
def zeroSlot : Slot := ⟨0, 0, 0, 0, 0, 0, 0, 0, 0, 0⟩

/-- The event a started procedure is reported with, le_controller.cc:3796-3808, 3836-3848 and 3876-3888:
`procedure_parameters.value()` throws if there are none. -/
def reportStarted (e : End) (id : Nat) (slot : Slot) (out : List Pdu) : Res :=
  if e.mask.proc = false then .ok 0 e out []
  else match find e.configs id with
  | none => .ok 0 e out []
  | some c => match c.proc with
    | none => .abort
    | some p => .ok 0 e out [.proc Status.success id true p.antenna p.txDelta slot p.minInterval p.maxCount p.maxLen]

/-- IncomingLlCsReq, le_controller.cc:3719-3810. -/
def onCsReq (e : End) (id : Nat) (slot : Slot) : Res :=
  if e.hostSupport = false then .ok 0 e [.csRsp Status.unsupportedRemote 0 zeroSlot] []
  else match find e.configs id with
  | none => .ok 0 e [.csRsp Status.invalidLlParameters 0 zeroSlot] []
  | some _ =>
    if e.iv = 0 then .ok 0 e [.csRsp Status.pinOrKeyMissing id zeroSlot] []
    else if e.fae = none then .ok 0 e [.csRsp Status.commandDisallowed id zeroSlot] []
    else if e.central = false then .ok 0 e [.csRsp Status.success id slot] []
    else reportStarted e id slot [.csInd Status.success id slot]

/-- IncomingLlCsRsp, le_controller.cc:3812-3850: the status is not looked at. -/
def onCsRsp (e : End) (id : Nat) (slot : Slot) : Res :=
  if e.hostSupport = false then .ok 0 e [] []
  else if e.central = true then reportStarted e id slot [.csInd Status.success id slot]
  else .ok 0 e [] []

/-- IncomingLlCsChannelMapInd, le_controller.cc:3852-3862. -/
def onMapInd (e : End) (m : ChannelMap) : Res :=
  .ok 0 { e with configs := e.configs.map (fun c => if c.enabled then c.withMap m else c) } [] []

/-- IncomingLlCsInd, le_controller.cc:3864-3890. -/
def onCsInd (e : End) (id : Nat) (slot : Slot) : Res :=
  if e.hostSupport = false then .ok 0 e [] []
  else if e.central = false then reportStarted e id slot []
  else .ok 0 e [] []

/-- The status of the answer to LL_CS_TERMINATE_REQ, le_controller.cc:3896-3906. -/
def termStatus (e : End) (id : Nat) (err : Status) : Status :=
  if (find e.configs id).isNone then Status.commandDisallowed else err

/-- IncomingLlCsTerminateReq, le_controller.cc:3892-3920. -/
def onTermReq (e : End) (id count : Nat) (err : Status) : Res :=
  .ok 0 e [.termRsp id count (termStatus e id err)]
    (tell e.mask.proc (.proc (termStatus e id err) id false 0 0 zeroSlot 0 0 0))

/-- IncomingLlCsTerminateRsp, le_controller.cc:3922-3935. -/
def onTermRsp (e : End) (id : Nat) (err : Status) : Res :=
  .ok 0 e [] (tell e.mask.proc (.proc err id false 0 0 zeroSlot 0 0 0))

/-- The commands; `encrypt` is the start of encryption on the connection, which the code of other commands
does. -/
inductive Cmd where
  | encrypt
  | readCaps
  | setDefaults (roleEnable antenna : Nat)
  | readFae
  | writeFae (table : List Nat)
  | writeCaps (c : Caps)
  | createConfig (id context role : Nat) (s : Settings) (reserved : Nat)
  | classify (now : Nat) (m : ChannelMap)
  | removeConfig (id : Nat)
  | securityEnable
  | setParameters (id : Nat) (p : Proc)
  | procedureEnable (id : Nat) (on : Bool)
deriving DecidableEq

/-- The command dispatch, dual_mode_controller.cc:1714-1880. -/
def command (e : End) : Cmd → Res
  | .encrypt => .ok 0 { e with encrypted := true } [] []
  | .readCaps => readCaps e
  | .setDefaults r a => setDefaults e r a
  | .readFae => readFae e
  | .writeFae t => writeFae e t
  | .writeCaps c => writeCaps e c
  | .createConfig id context role s r => createConfig e id context role s r
  | .classify now m => classify e now m
  | .removeConfig id => removeConfig e id
  | .securityEnable => securityEnable e
  | .setParameters id p => setParameters e id p
  | .procedureEnable id on => procedureEnable e id on

/-- The PDU dispatch of LeController::IncomingPacket, le_controller.cc:4191-4233. -/
def incoming (e : End) : Pdu → Res
  | .capsReq c => onCapsReq e c
  | .capsRsp st c => onCapsRsp e st c
  | .faeReq => onFaeReq e
  | .faeRsp st t => onFaeRsp e st t
  | .configReq id action role s => onConfigReq e id action role s
  | .configRsp st id => onConfigRsp e st id
  | .secReq => onSecReq e
  | .secRsp st => onSecRsp e st
  | .csReq id slot => onCsReq e id slot
  | .csRsp _ id slot => onCsRsp e id slot
  | .csInd _ id slot => onCsInd e id slot
  | .mapInd m => onMapInd e m
  | .termReq id count err => onTermReq e id count err
  | .termRsp id _ err => onTermRsp e id err

/-! ## Two controllers connected to each other -/

/-- The two ends and the PDUs on their way to each, oldest first. -/
structure Link where
  c : End
  p : End
  toC : List Pdu
  toP : List Pdu
deriving DecidableEq

/-- A step of the link: a host gives a command, or the oldest PDU arrives. -/
inductive Act where
  | cmdC (c : Cmd)
  | cmdP (c : Cmd)
  | deliverC
  | deliverP
deriving DecidableEq

/-- One step. Nothing: a controller aborted. A delivery without a PDU changes nothing. -/
def step (l : Link) : Act → Option Link
  | .cmdC x => match command l.c x with
    | .ok _ e out _ => some { l with c := e, toP := l.toP ++ out }
    | .abort => none
  | .cmdP x => match command l.p x with
    | .ok _ e out _ => some { l with p := e, toC := l.toC ++ out }
    | .abort => none
  | .deliverC => match l.toC with
    | [] => some l
    | d :: rest => match incoming l.c d with
      | .ok _ e out _ => some { l with c := e, toC := rest, toP := l.toP ++ out }
      | .abort => none
  | .deliverP => match l.toP with
    | [] => some l
    | d :: rest => match incoming l.p d with
      | .ok _ e out _ => some { l with p := e, toP := rest, toC := l.toC ++ out }
      | .abort => none

/-- A run. -/
def run (l : Link) : List Act → Option Link
  | [] => some l
  | a :: as => match step l a with
    | none => none
    | some l' => run l' as

/-- A device when the connection is made. -/
def End.fresh (central hostSupport : Bool) (mask : Mask) (caps : Caps) (features : Option Bool) : End :=
  { central := central, hostSupport := hostSupport, mask := mask, caps := caps, encrypted := false,
    features := features, remote := none, fae := none, roleEnable := 0, configs := [], secure := false,
    iv := 0, classified := none }

/-- Two devices when the connection is made. -/
def Link.fresh (c p : End) : Link := ⟨c, p, [], []⟩

end Verif.Cs
