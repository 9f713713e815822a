import Verif.Cfg.Rows
import Verif.Cfg.Checks
import Verif.Hci.Model
/-! # The checks and the constructors of `ControllerProperties` -/
namespace Verif.Cfg
open Verif.Hci (Preset)

/-- `CheckSupportedFeatures`, controller_properties.cc 475-748: the first condition that holds ends it with
`false`. -/
def Props.checkFeatures (p : Props) : Bool := !p.faults.any id

/-- `check_command_requirement`, controller_properties.cc 804-822. -/
def checkRequirement (br : Bool) (forBr : Requirement) (le : Bool) (forLe : Requirement) (supported : Bool) : Bool :=
  let r : Requirement :=
    if !br then forLe
    else if !le then forBr
    else if forLe = .mandatory || forBr = .mandatory then .mandatory
    else if forLe = .optional || forBr = .optional then .optional
    else .excluded
  if r = .mandatory && !supported then false
  else if r = .excluded && supported then false
  else true

/-- One use of `check_command_`, controller_properties.cc 1322-1329: the message it logs, if any. It does not end
the function. -/
def Props.checkRow (p : Props) (r : Nat × Cond × Cond) : List Nat :=
  if checkRequirement p.br (p.need r.2.1) p.le (p.need r.2.2) (p.command r.1) then [] else [r.1]

/-- `CheckSupportedCommands`, controller_properties.cc 750-1694: what it returns and the commands it logs. -/
def Props.checkCommands (p : Props) : Bool × List Nat := (true, rows.flatMap p.checkRow)

/-- A message of the log. -/
inductive Message
  /-- The text of `check_command_`, 1326. -/
  | command (index : Nat)
  /-- "Warning: LMP and/or LE features are not consistent", 1701-1703 and 2011-2013. -/
  | features
  /-- "Warning: supported commands are not consistent", 1707-1709 and 2017-2019. -/
  | commands
  deriving DecidableEq, Repr

/-- The checks at the end of the constructors, controller_properties.cc 1700-1710 and 2010-2020. The messages of
`CheckSupportedFeatures` itself are left out. -/
def Props.log (p : Props) : List Message :=
  (if !p.checkFeatures then [.features] else []) ++ p.checkCommands.2.map .command ++
    (if !p.checkCommands.1 then [.commands] else [])

/-- `Page0LmpFeatures`, controller_properties.cc 31-90. -/
def page0Default : Nat :=
  [Lmp0.lmp3SlotPackets, Lmp0.lmp5SlotPackets, Lmp0.encryption, Lmp0.slotOffset, Lmp0.timingAccuracy, Lmp0.roleSwitch,
    Lmp0.holdMode, Lmp0.sniffMode, Lmp0.powerControlRequests, Lmp0.channelQualityDrivenDataRate, Lmp0.scoLink,
    Lmp0.hv2Packets, Lmp0.hv3Packets, Lmp0.mLawLogSynchronousData, Lmp0.aLawLogSynchronousData,
    Lmp0.cvsdSynchronousData, Lmp0.pagingParameterNegotiation, Lmp0.powerControl, Lmp0.transparentSynchronousData,
    Lmp0.broadcastEncryption, Lmp0.enhancedDataRateAcl2MbSMode, Lmp0.enhancedDataRateAcl3MbSMode,
    Lmp0.enhancedInquiryScan, Lmp0.interlacedInquiryScan, Lmp0.interlacedPageScan, Lmp0.rssiWithInquiryResults,
    Lmp0.extendedScoLink, Lmp0.ev4Packets, Lmp0.ev5Packets, Lmp0.afhCapablePeripheral,
    Lmp0.afhClassificationPeripheral, Lmp0.leSupportedController, Lmp0.lmp3SlotEnhancedDataRateAclPackets,
    Lmp0.lmp5SlotEnhancedDataRateAclPackets, Lmp0.sniffSubrating, Lmp0.pauseEncryption, Lmp0.afhCapableCentral,
    Lmp0.afhClassificationCentral, Lmp0.enhancedDataRateEsco2MbSMode, Lmp0.enhancedDataRateEsco3MbSMode,
    Lmp0.lmp3SlotEnhancedDataRateEscoPackets, Lmp0.extendedInquiryResponse, Lmp0.simultaneousLeAndBrController,
    Lmp0.secureSimplePairingController, Lmp0.encapsulatedPdu, Lmp0.hciLinkSupervisionTimeoutChangedEvent,
    Lmp0.variableInquiryTxPowerLevel, Lmp0.enhancedPowerControl, Lmp0.extendedFeatures].foldl (· ||| ·) 0

/-- `Page2LmpFeatures`, controller_properties.cc 92-103. -/
def page2Default : Nat := [Lmp2.secureConnectionsControllerSupport, Lmp2.ping].foldl (· ||| ·) 0

/-- `LlFeatures`, controller_properties.cc 105-130. -/
def leDefault : Nat :=
  [Ll.leEncryption, Ll.connectionParametersRequestProcedure, Ll.extendedRejectIndication,
    Ll.peripheralInitiatedFeaturesExchange, Ll.lePing, Ll.leDataPacketLengthExtension, Ll.llPrivacy,
    Ll.extendedScannerFilterPolicies, Ll.le2mPhy, Ll.leCodedPhy, Ll.leExtendedAdvertising, Ll.lePeriodicAdvertising,
    Ll.connectedIsochronousStreamCentral, Ll.connectedIsochronousStreamPeripheral, Ll.lePowerControlRequest,
    Ll.connectionSubrating, Ll.channelSounding].foldl (· ||| ·) 0

/-- The preset, controller_properties.cc 1823-1933, with the defaults of controller_properties.h 57, 124, 130 and
131. -/
def base : Preset → Props
  | .default =>
    { lmpVersion := 0x0c, br := true, le := true, commands := Preset.default.bytes, page0 := page0Default, page1 := 0, page2 := page2Default, leFeatures := leDefault, roles := 3 }
  | .laird =>
    { lmpVersion := 0x0d, br := false, le := true, commands := Preset.laird.bytes, page0 := 0x6000000000, page1 := 0, page2 := 0, leFeatures := 0x19beff017fff, roles := 3 }
  | .csrDongle =>
    { lmpVersion := 0x08, br := true, le := true, commands := Preset.csrDongle.bytes, page0 := 0x875b1fd87e8fffff, page1 := 0, page2 := 0x30f, leFeatures := 0x1f, roles := 3 }
  | .intel =>
    { lmpVersion := 0x0d, br := true, le := true, commands := Preset.intel.bytes, page0 := 0x877bffdbfe0ffebf, page1 := 0, page2 := 0x300, leFeatures := 0x80059ff, roles := 3 }

/-- `ControllerFeatures`, proto/rootcanal/configuration.proto 34-46: each field may be left out. -/
structure Choice where
  extended : Option Bool
  periodic : Option Bool
  privacy : Option Bool
  phy2m : Option Bool
  coded : Option Bool
  iso : Option Bool
  subrating : Option Bool
  sounding : Option Bool
  power : Option Bool
  deriving DecidableEq, Repr

/-- The features that name commands. -/
def Choice.named (c : Choice) : Hci.Features := ⟨c.extended, c.periodic, c.privacy, c.iso, c.subrating, c.sounding, c.power⟩

/-- `SetLLFeatureBit`, controller_properties.cc 1803-1809; `~` of a `uint64_t`. -/
def setFeature (mask bit : Nat) (on : Bool) : Nat :=
  if on then mask ||| bit else mask &&& (0xffffffffffffffff ^^^ bit)

/-- One `if (features.has_…())`. -/
def optional (o : Option Bool) (bit mask : Nat) : Nat := match o with
  | none => mask
  | some b => setFeature mask bit b

/-- The LE features of a configuration, in the order of controller_properties.cc 1936-1986. -/
def features (c : Choice) (mask : Nat) : Nat :=
  optional c.power Ll.lePowerControlRequest (optional c.sounding Ll.channelSounding
    (optional c.subrating Ll.connectionSubrating (optional c.iso Ll.connectedIsochronousStreamPeripheral
      (optional c.iso Ll.connectedIsochronousStreamCentral (optional c.coded Ll.leCodedPhy (optional c.phy2m Ll.le2mPhy
        (optional c.privacy Ll.llPrivacy (optional c.periodic Ll.lePeriodicAdvertising
          (optional c.extended Ll.leExtendedAdvertising mask)))))))))

/-- `ControllerProperties(rootcanal::configuration::Controller const&)`, controller_properties.cc 1823-2021. A
configuration without a preset is that of `ControllerPreset::DEFAULT`, one without features that of no choice.
Quirks, the vendor commands and `strict` are left out. -/
def construct (p : Preset) (c : Choice) : Props :=
  { base p with commands := Hci.configured p c.named, leFeatures := features c (base p).leFeatures }

/-- `ControllerProperties()`, controller_properties.cc 1696-1711. -/
def constructDefault : Props := base .default

end Verif.Cfg
