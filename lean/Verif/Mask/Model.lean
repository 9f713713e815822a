/-
Event masks: which HCI events the host has asked for.

Modelled code: `model/controller/le_controller.cc` 141-157 and
`model/controller/bredr_controller.cc` 64-75 (the two mask tests), the setters of
`le_controller.h` 684-686 and `bredr_controller.h` 157, 315, the commands of
`dual_mode_controller.cc` 714-725, 823-834, 1517-1528, the defaults and Reset
(`le_controller.cc` 6595-6597, `bredr_controller.cc` 1105-1106), and every place that
sends an event other than Command Complete and Command Status.
-/
namespace Verif.Mask

/-- The masks of one half of the controller (`le_controller.h` 748-750,
`bredr_controller.h` 394-395; the BR/EDR half has no LE mask, its field stays unused). -/
structure Masks where
  mask : BitVec 64 := 0x00001fffffffffff#64
  page2 : BitVec 64 := 0#64
  le : BitVec 64 := 0x1f#64
deriving DecidableEq, Repr

/-- An event, by its event code (`packets/hci_packets.pdl` 776-834), or an LE event by its
subevent code (836-889). -/
inductive Event where
  | hci (code : Nat)
  | le (sub : Nat)
deriving DecidableEq, Repr

/-- `UINT64_C(1) << n`: undefined (`none`) unless `0 ≤ n < 64`. The argument is the code
from which the program subtracts one. -/
def bit (code : Nat) : Option (BitVec 64) :=
  if code = 0 then none
  else if 64 ≤ code - 1 then none
  else some (1#64 <<< (code - 1))

/-- `IsEventUnmasked` (`le_controller.cc` 141-152, `bredr_controller.cc` 64-75); `none` is
undefined behaviour. -/
def isEventUnmasked (m : Masks) (evt : Nat) : Option Bool :=
  if evt ≤ 64 then (bit evt).map fun b => m.mask &&& b != 0#64
  else (bit (evt - 64)).map fun b => m.page2 &&& b != 0#64

/-- `EventCode::LE_META_EVENT`. -/
def leMetaEvent : Nat := 0x3e

/-- `IsLeEventUnmasked` (`le_controller.cc` 154-157). -/
def isLeEventUnmasked (m : Masks) (sub : Nat) : Option Bool :=
  (bit sub).bind fun b => (isEventUnmasked m leMetaEvent).map fun lm =>
    lm && (m.le &&& b != 0#64)

/-- The mask test in front of a place that sends an event. -/
inductive Guard where
  | none
  | event (code : Nat)
  | le (sub : Nat)
deriving DecidableEq, Repr

/-- A place in the source that sends one event: file and line, the event and the test.
Whatever else decides whether the place is reached is left out. -/
structure Site where
  at_ : String
  event : Event
  guard : Guard
deriving DecidableEq, Repr

/-- The outcome of a mask test. -/
def test (m : Masks) : Guard → Option Bool
  | .none => some true
  | .event code => isEventUnmasked m code
  | .le sub => isLeEventUnmasked m sub

/-- The events sent to the host when the place is reached. -/
def send (m : Masks) (s : Site) : Option (List Event) :=
  (test m s.guard).map fun b => if b then [s.event] else []

/-- The places of `model/controller/le_controller.cc` that send an
event, with the line of the call, the event and the mask test that guards the call. -/
def leSites : List Site := [
  ⟨"le_controller.cc:570", .le 0x0c, .le 0x0c⟩, -- LePhyUpdateComplete
  ⟨"le_controller.cc:609", .le 0x0c, .le 0x0c⟩, -- LePhyUpdateComplete
  ⟨"le_controller.cc:634", .le 0x0c, .le 0x0c⟩, -- LePhyUpdateComplete
  ⟨"le_controller.cc:1192", .le 0x0e, .le 0x0e⟩, -- LePeriodicAdvertisingSyncEstablishedV1
  ⟨"le_controller.cc:1948", .le 0x21, .none⟩, -- LeTransmitPowerReporting
  ⟨"le_controller.cc:2178", .le 0x23, .le 0x23⟩, -- LeSubrateChange
  ⟨"le_controller.cc:2271", .le 0x23, .le 0x23⟩, -- LeSubrateChange
  ⟨"le_controller.cc:2305", .le 0x23, .le 0x23⟩, -- LeSubrateChange
  ⟨"le_controller.cc:2336", .le 0x2c, .le 0x2c⟩, -- LeCsReadRemoteSupportedCapabilitiesComplete
  ⟨"le_controller.cc:2439", .le 0x2d, .le 0x2d⟩, -- LeCsReadRemoteFaeTableComplete
  ⟨"le_controller.cc:2857", .le 0x2f, .le 0x2f⟩, -- LeCsConfigComplete
  ⟨"le_controller.cc:3231", .le 0x2c, .le 0x2c⟩, -- LeCsReadRemoteSupportedCapabilitiesComplete
  ⟨"le_controller.cc:3251", .le 0x2c, .le 0x2c⟩, -- LeCsReadRemoteSupportedCapabilitiesComplete
  ⟨"le_controller.cc:3292", .le 0x2c, .le 0x2c⟩, -- LeCsReadRemoteSupportedCapabilitiesComplete
  ⟨"le_controller.cc:3339", .le 0x2d, .le 0x2d⟩, -- LeCsReadRemoteFaeTableComplete
  ⟨"le_controller.cc:3349", .le 0x2d, .le 0x2d⟩, -- LeCsReadRemoteFaeTableComplete
  ⟨"le_controller.cc:3590", .le 0x2f, .le 0x2f⟩, -- LeCsConfigComplete
  ⟨"le_controller.cc:3608", .le 0x2f, .le 0x2f⟩, -- LeCsConfigComplete
  ⟨"le_controller.cc:3631", .le 0x2f, .le 0x2f⟩, -- LeCsConfigComplete
  ⟨"le_controller.cc:3691", .le 0x2e, .le 0x2e⟩, -- LeCsSecurityEnableComplete
  ⟨"le_controller.cc:3706", .le 0x2e, .le 0x2e⟩, -- LeCsSecurityEnableComplete
  ⟨"le_controller.cc:3714", .le 0x2e, .le 0x2e⟩, -- LeCsSecurityEnableComplete
  ⟨"le_controller.cc:3801", .le 0x30, .le 0x30⟩, -- LeCsProcedureEnableComplete
  ⟨"le_controller.cc:3841", .le 0x30, .le 0x30⟩, -- LeCsProcedureEnableComplete
  ⟨"le_controller.cc:3881", .le 0x30, .le 0x30⟩, -- LeCsProcedureEnableComplete
  ⟨"le_controller.cc:3913", .le 0x30, .le 0x30⟩, -- LeCsProcedureEnableComplete
  ⟨"le_controller.cc:3928", .le 0x30, .le 0x30⟩, -- LeCsProcedureEnableComplete
  ⟨"le_controller.cc:4285", .hci 0x0c, .event 0x0c⟩, -- ReadRemoteVersionInformationComplete
  ⟨"le_controller.cc:4476", .le 0x0b, .le 0x0b⟩, -- LeDirectedAdvertisingReport
  ⟨"le_controller.cc:4504", .le 0x02, .le 0x02⟩, -- LeAdvertisingReport
  ⟨"le_controller.cc:4537", .le 0x0d, .le 0x0d⟩, -- LeExtendedAdvertisingReport
  ⟨"le_controller.cc:4954", .le 0x0d, .le 0x0d⟩, -- LeExtendedAdvertisingReport
  ⟨"le_controller.cc:5273", .le 0x0e, .le 0x0e⟩, -- LePeriodicAdvertisingSyncEstablishedV1
  ⟨"le_controller.cc:5330", .le 0x0f, .le 0x0f⟩, -- LePeriodicAdvertisingReportV1
  ⟨"le_controller.cc:5428", .hci 0x13, .none⟩, -- NumberOfCompletedPackets
  ⟨"le_controller.cc:5440", .hci 0x13, .none⟩, -- NumberOfCompletedPackets
  ⟨"le_controller.cc:5587", .le 0x14, .le 0x14⟩, -- LeChannelSelectionAlgorithm
  ⟨"le_controller.cc:5801", .le 0x12, .le 0x12⟩, -- LeAdvertisingSetTerminated
  ⟨"le_controller.cc:5868", .le 0x06, .le 0x06⟩, -- LeRemoteConnectionParameterRequest
  ⟨"le_controller.cc:5901", .le 0x03, .le 0x03⟩, -- LeConnectionUpdateComplete
  ⟨"le_controller.cc:5917", .le 0x05, .event 0x3e⟩, -- LeLongTermKeyRequest
  ⟨"le_controller.cc:5941", .hci 0x30, .event 0x30⟩, -- EncryptionKeyRefreshComplete
  ⟨"le_controller.cc:5947", .hci 0x08, .event 0x08⟩, -- EncryptionChange
  ⟨"le_controller.cc:5952", .hci 0x08, .event 0x08⟩, -- EncryptionChange
  ⟨"le_controller.cc:5977", .le 0x04, .event 0x3e⟩, -- LeReadRemoteFeaturesPage0Complete
  ⟨"le_controller.cc:6202", .le 0x02, .le 0x02⟩, -- LeAdvertisingReport
  ⟨"le_controller.cc:6241", .le 0x0d, .le 0x0d⟩, -- LeExtendedAdvertisingReport
  ⟨"le_controller.cc:6268", .le 0x11, .le 0x11⟩, -- LeScanTimeout
  ⟨"le_controller.cc:6314", .le 0x10, .le 0x10⟩, -- LePeriodicAdvertisingSyncLost
  ⟨"le_controller.cc:6362", .hci 0x05, .event 0x05⟩, -- DisconnectionComplete
  ⟨"le_controller.cc:6416", .le 0x03, .le 0x03⟩, -- LeConnectionUpdateComplete
  ⟨"le_controller.cc:6470", .le 0x03, .le 0x03⟩, -- LeConnectionUpdateComplete
  ⟨"le_controller.cc:6533", .hci 0x30, .event 0x30⟩ -- EncryptionKeyRefreshComplete
]

/-- The places of `model/controller/le_advertiser.cc` that send an
event, with the line of the call, the event and the mask test that guards the call. -/
def advertiserSites : List Site := [
  ⟨"le_advertiser.cc:1594", .le 0x01, .le 0x01⟩, -- LeConnectionComplete
  ⟨"le_advertiser.cc:1685", .le 0x12, .le 0x12⟩, -- LeAdvertisingSetTerminated
  ⟨"le_advertiser.cc:1702", .le 0x12, .le 0x12⟩ -- LeAdvertisingSetTerminated
]

/-- The places of `model/controller/bredr_controller.cc` that send an
event, with the line of the call, the event and the mask test that guards the call. -/
def brEdrSites : List Site := [
  ⟨"bredr_controller.cc:215", .hci 0x03, .event 0x03⟩, -- ConnectionComplete
  ⟨"bredr_controller.cc:262", .hci 0x12, .event 0x12⟩, -- RoleChange
  ⟨"bredr_controller.cc:271", .hci 0x03, .event 0x03⟩, -- ConnectionComplete
  ⟨"bredr_controller.cc:330", .hci 0x03, .event 0x03⟩, -- ConnectionComplete
  ⟨"bredr_controller.cc:365", .hci 0x1d, .event 0x1d⟩, -- ConnectionPacketTypeChanged
  ⟨"bredr_controller.cc:554", .hci 0x2c, .none⟩, -- SynchronousConnectionComplete
  ⟨"bredr_controller.cc:587", .hci 0x2c, .none⟩, -- SynchronousConnectionComplete
  ⟨"bredr_controller.cc:926", .hci 0x0d, .event 0x0d⟩, -- QosSetupComplete
  ⟨"bredr_controller.cc:985", .hci 0x12, .event 0x12⟩, -- RoleChange
  ⟨"bredr_controller.cc:1534", .hci 0x07, .event 0x07⟩, -- RemoteNameRequestComplete
  ⟨"bredr_controller.cc:1549", .hci 0x3d, .event 0x3d⟩, -- RemoteHostSupportedFeaturesNotification
  ⟨"bredr_controller.cc:1572", .hci 0x0b, .event 0x0b⟩, -- ReadRemoteSupportedFeaturesComplete
  ⟨"bredr_controller.cc:1602", .hci 0x23, .event 0x23⟩, -- ReadRemoteExtendedFeaturesComplete
  ⟨"bredr_controller.cc:1629", .hci 0x0c, .event 0x0c⟩, -- ReadRemoteVersionInformationComplete
  ⟨"bredr_controller.cc:1651", .hci 0x1c, .event 0x1c⟩, -- ReadClockOffsetComplete
  ⟨"bredr_controller.cc:1741", .hci 0x02, .event 0x02⟩, -- InquiryResult
  ⟨"bredr_controller.cc:1761", .hci 0x22, .event 0x22⟩, -- InquiryResultWithRssi
  ⟨"bredr_controller.cc:1770", .hci 0x2f, .none⟩, -- ExtendedInquiryResult
  ⟨"bredr_controller.cc:1818", .hci 0x04, .none⟩, -- ConnectionRequest
  ⟨"bredr_controller.cc:1856", .hci 0x03, .none⟩, -- ConnectionComplete
  ⟨"bredr_controller.cc:1860", .hci 0x2c, .none⟩, -- SynchronousConnectionComplete
  ⟨"bredr_controller.cc:1872", .hci 0x03, .none⟩, -- ConnectionComplete
  ⟨"bredr_controller.cc:1877", .hci 0x2c, .none⟩, -- SynchronousConnectionComplete
  ⟨"bredr_controller.cc:1944", .hci 0x13, .none⟩, -- NumberOfCompletedPackets
  ⟨"bredr_controller.cc:1992", .hci 0x04, .event 0x04⟩, -- ConnectionRequest
  ⟨"bredr_controller.cc:2012", .hci 0x03, .event 0x03⟩, -- ConnectionComplete
  ⟨"bredr_controller.cc:2050", .hci 0x12, .event 0x12⟩, -- RoleChange
  ⟨"bredr_controller.cc:2054", .hci 0x03, .event 0x03⟩, -- ConnectionComplete
  ⟨"bredr_controller.cc:2116", .hci 0x03, .event 0x03⟩, -- ConnectionComplete
  ⟨"bredr_controller.cc:2125", .hci 0x05, .event 0x05⟩, -- DisconnectionComplete
  ⟨"bredr_controller.cc:2167", .hci 0x12, .event 0x12⟩, -- RoleChange
  ⟨"bredr_controller.cc:2196", .hci 0x12, .event 0x12⟩, -- RoleChange
  ⟨"bredr_controller.cc:2232", .hci 0x03, .none⟩, -- ConnectionComplete
  ⟨"bredr_controller.cc:2263", .hci 0x01, .event 0x01⟩ -- InquiryComplete
]

/-- The places of `model/controller/dual_mode_controller.cc` that send an
event, with the line of the call, the event and the mask test that guards the call. -/
def dualModeSites : List Site := [
  ⟨"dual_mode_controller.cc:151", .hci 0x13, .none⟩, -- NumberOfCompletedPackets
  ⟨"dual_mode_controller.cc:165", .hci 0x13, .none⟩, -- NumberOfCompletedPackets
  ⟨"dual_mode_controller.cc:185", .hci 0x13, .none⟩, -- NumberOfCompletedPackets
  ⟨"dual_mode_controller.cc:226", .hci 0x19, .none⟩, -- LoopbackCommand
  ⟨"dual_mode_controller.cc:237", .hci 0x10, .none⟩, -- HardwareError
  ⟨"dual_mode_controller.cc:710", .hci 0x39, .event 0x39⟩, -- EnhancedFlushComplete
  ⟨"dual_mode_controller.cc:2421", .le 0x08, .none⟩, -- LeReadLocalP256PublicKeyComplete
  ⟨"dual_mode_controller.cc:3498", .hci 0x03, .none⟩, -- ConnectionComplete
  ⟨"dual_mode_controller.cc:3503", .hci 0x03, .none⟩ -- ConnectionComplete
]

/-- The places of `rust/src/lmp/procedure/encryption.rs` that send an
event, with the line of the call, the event and the mask test that guards the call. -/
def lmpEncryptionSites : List Site := [
  ⟨"encryption.rs:59", .hci 0x08, .none⟩, -- EncryptionChange
  ⟨"encryption.rs:93", .hci 0x08, .none⟩ -- EncryptionChange
]

/-- The places of `rust/src/lmp/procedure/secure_simple_pairing.rs` that send an
event, with the line of the call, the event and the mask test that guards the call. -/
def lmpPairingSites : List Site := [
  ⟨"secure_simple_pairing.rs:195", .hci 0x33, .none⟩, -- UserConfirmationRequest
  ⟨"secure_simple_pairing.rs:234", .hci 0x34, .none⟩, -- UserPasskeyRequest
  ⟨"secure_simple_pairing.rs:273", .hci 0x35, .none⟩, -- RemoteOobDataRequest
  ⟨"secure_simple_pairing.rs:310", .hci 0x31, .none⟩, -- IoCapabilityRequest
  ⟨"secure_simple_pairing.rs:350", .hci 0x36, .none⟩, -- SimplePairingComplete
  ⟨"secure_simple_pairing.rs:370", .hci 0x32, .none⟩, -- IoCapabilityResponse
  ⟨"secure_simple_pairing.rs:424", .hci 0x3b, .none⟩, -- UserPasskeyNotification
  ⟨"secure_simple_pairing.rs:469", .hci 0x36, .none⟩, -- SimplePairingComplete
  ⟨"secure_simple_pairing.rs:485", .hci 0x36, .none⟩, -- SimplePairingComplete
  ⟨"secure_simple_pairing.rs:502", .hci 0x36, .none⟩, -- SimplePairingComplete
  ⟨"secure_simple_pairing.rs:516", .hci 0x18, .none⟩, -- LinkKeyNotification
  ⟨"secure_simple_pairing.rs:534", .hci 0x32, .none⟩, -- IoCapabilityResponse
  ⟨"secure_simple_pairing.rs:545", .hci 0x31, .none⟩, -- IoCapabilityRequest
  ⟨"secure_simple_pairing.rs:592", .hci 0x36, .none⟩, -- SimplePairingComplete
  ⟨"secure_simple_pairing.rs:643", .hci 0x3b, .none⟩, -- UserPasskeyNotification
  ⟨"secure_simple_pairing.rs:681", .hci 0x36, .none⟩, -- SimplePairingComplete
  ⟨"secure_simple_pairing.rs:695", .hci 0x36, .none⟩, -- SimplePairingComplete
  ⟨"secure_simple_pairing.rs:710", .hci 0x36, .none⟩, -- SimplePairingComplete
  ⟨"secure_simple_pairing.rs:730", .hci 0x36, .none⟩, -- SimplePairingComplete
  ⟨"secure_simple_pairing.rs:744", .hci 0x18, .none⟩ -- LinkKeyNotification
]

/-- The places of `rust/src/lmp/procedure/authentication.rs` that send an
event, with the line of the call, the event and the mask test that guards the call. -/
def lmpAuthenticationSites : List Site := [
  ⟨"authentication.rs:56", .hci 0x17, .none⟩, -- LinkKeyRequest
  ⟨"authentication.rs:102", .hci 0x06, .none⟩, -- AuthenticationComplete
  ⟨"authentication.rs:115", .hci 0x17, .none⟩ -- LinkKeyRequest
]

/-- The places of `rust/src/lmp/procedure/legacy_pairing.rs` that send an
event, with the line of the call, the event and the mask test that guards the call. -/
def lmpLegacySites : List Site := [
  ⟨"legacy_pairing.rs:23", .hci 0x16, .none⟩, -- PinCodeRequest
  ⟨"legacy_pairing.rs:50", .hci 0x18, .none⟩, -- LinkKeyNotification
  ⟨"legacy_pairing.rs:60", .hci 0x16, .none⟩, -- PinCodeRequest
  ⟨"legacy_pairing.rs:84", .hci 0x18, .none⟩ -- LinkKeyNotification
]

/-- The places of `rust/src/llcp/iso.rs` that send an
event, with the line of the call, the event and the mask test that guards the call. -/
def isoSites : List Site := [
  ⟨"iso.rs:354", .hci 0x05, .none⟩, -- DisconnectionComplete
  ⟨"iso.rs:365", .le 0x19, .none⟩, -- LeCisEstablishedV1
  ⟨"iso.rs:396", .le 0x19, .none⟩, -- LeCisEstablishedV1
  ⟨"iso.rs:1426", .hci 0x05, .none⟩, -- DisconnectionComplete
  ⟨"iso.rs:1469", .le 0x1a, .none⟩, -- LeCisRequest
  ⟨"iso.rs:1500", .le 0x19, .none⟩, -- LeCisEstablishedV1
  ⟨"iso.rs:1543", .le 0x19, .none⟩, -- LeCisEstablishedV1
  ⟨"iso.rs:1586", .le 0x19, .none⟩, -- LeCisEstablishedV1
  ⟨"iso.rs:1621", .hci 0x05, .none⟩, -- DisconnectionComplete
  ⟨"iso.rs:1844", .le 0x1b, .none⟩, -- LeCreateBigComplete
  ⟨"iso.rs:1894", .le 0x1c, .none⟩ -- LeTerminateBigComplete
]

/-- Every modelled place. -/
def sites : List Site :=
  leSites ++ advertiserSites ++ brEdrSites ++ dualModeSites ++
  lmpEncryptionSites ++ lmpPairingSites ++ lmpAuthenticationSites ++ 
  lmpLegacySites ++ isoSites

/-- The end of `HandleLeConnection` (`le_controller.cc` 5548-5573), and likewise 1685-1697 and
`le_advertiser.cc` 1664-1675: the enhanced form if it is wanted, else the legacy form. -/
def connectionComplete (m : Masks) : Option (List Event) :=
  (isLeEventUnmasked m 0x0a).bind fun enhanced =>
    if enhanced then some [.le 0x0a]
    else (isLeEventUnmasked m 0x01).map fun legacy => if legacy then [.le 0x01] else []

/-- The end of the Long Term Key Request Reply (`le_controller.cc` 6536-6546): version 2 if
it is wanted, else version 1. -/
def encryptionChange (m : Masks) : Option (List Event) :=
  (isEventUnmasked m 0x59).bind fun v2 =>
    if v2 then some [.hci 0x59]
    else (isEventUnmasked m 0x08).map fun v1 => if v1 then [.hci 0x08] else []

/-- The two halves of the controller. -/
structure State where
  le : Masks := {}
  brEdr : Masks := {}
deriving DecidableEq, Repr

/-- The commands that touch the masks. -/
inductive Op where
  | setEventMask (m : BitVec 64)
  | setEventMaskPage2 (m : BitVec 64)
  | leSetEventMask (m : BitVec 64)
  | reset
deriving DecidableEq, Repr

/-- `SetEventMask` (`dual_mode_controller.cc` 823-834), `SetEventMaskPage2` (714-725),
`LeSetEventMask` (1517-1528), and the mask part of `Reset` (`le_controller.cc` 6595-6597,
`bredr_controller.cc` 1105-1106). -/
def step (s : State) : Op → State
  | .setEventMask m => { le := { s.le with mask := m }, brEdr := { s.brEdr with mask := m } }
  | .setEventMaskPage2 m => { le := { s.le with page2 := m }, brEdr := { s.brEdr with page2 := m } }
  | .leSetEventMask m => { s with le := { s.le with le := m } }
  | .reset =>
    { le := { mask := 0x00001fffffffffff#64, page2 := 0#64, le := 0x1f#64 },
      brEdr := { s.brEdr with mask := 0x00001fffffffffff#64, page2 := 0#64 } }

/-- A history of commands. -/
def run (s : State) (ops : List Op) : State := ops.foldl step s

end Verif.Mask
