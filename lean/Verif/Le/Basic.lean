/-!
# LE command layer: types and state

Data types shared by the models of the LE advertising, scanning, initiating
and list management commands (`model/controller/le_controller.{h,cc}`,
`model/controller/le_advertiser.{h,cc}`).

Simplifications common to all files of this directory:

* enumerations range over the values declared in `packets/hci_packets.pdl`;
  undeclared values are only represented for `Operation`, where the code has
  an explicit default branch;
* `uint16_t`/`uint8_t` parameters are natural numbers (the handlers only
  compare them, the widths never matter except where stated);
* times are natural numbers of microseconds;
* `std::unordered_map` is an association list with distinct keys, iterated in
  list order (the C++ iteration order is unspecified; no theorem depends on it);
* log output is dropped.
-/

namespace Verif.Le

/-- `bluetooth::hci::Address` (`include/hci/address.h` 30-): six bytes, here one
48-bit number; `Address::kEmpty` is 0. -/
abbrev Address := BitVec 48

/-- Identity resolving key: `std::array<uint8_t, kIrkSize>` (le_controller.h 76). -/
abbrev Irk := BitVec 128

/-- `ErrorCode` (`packets/hci_packets.pdl`), the values used by the LE commands. -/
inductive Status where
  | success | unknownConnection | memoryCapacityExceeded | connectionAlreadyExists
  | commandDisallowed | unsupportedFeatureOrParameterValue | invalidHciCommandParameters
  | connectionFailedEstablishment | unknownAdvertisingIdentifier | packetTooLong
  deriving DecidableEq, Repr

/-- `PeerAddressType` (hci_packets.pdl 3276-3279). -/
inductive PeerAddressType where
  | pub | random
  deriving DecidableEq, Repr

/-- `AddressType` (hci_packets.pdl 3289-3294). -/
inductive AddressType where
  | publicDevice | randomDevice | publicIdentity | randomIdentity
  deriving DecidableEq, Repr

/-- `OwnAddressType` (hci_packets.pdl 3296-3301). -/
inductive OwnAddressType where
  | pub | random | resolvableOrPublic | resolvableOrRandom
  deriving DecidableEq, Repr

/-- `FilterAcceptListAddressType` (hci_packets.pdl 3451-3455). -/
inductive FalAddressType where
  | pub | random | anonymous
  deriving DecidableEq, Repr

/-- `AdvertisingType` (hci_packets.pdl 3281-3287). -/
inductive AdvertisingType where
  | advInd | advDirectIndHigh | advScanInd | advNonconnInd | advDirectIndLow
  deriving DecidableEq, Repr

/-- `AdvertisingFilterPolicy` (hci_packets.pdl 3269-3274). -/
inductive AdvertisingFilterPolicy where
  | allDevices | listedScan | listedConnect | listedScanAndConnect
  deriving DecidableEq, Repr

/-- `LeScanningFilterPolicy` (hci_packets.pdl 3360-3365). -/
inductive ScanFilterPolicy where
  | acceptAll | filterAcceptListOnly | checkInitiatorsIdentity
  | filterAcceptListAndInitiatorsIdentity
  deriving DecidableEq, Repr

/-- `InitiatorFilterPolicy` (hci_packets.pdl 3396-3401). -/
inductive InitiatorFilterPolicy where
  | usePeerAddress | useFilterAcceptListWithPeerAddress | useDecisionPdus
  | useFilterAcceptListWithDecisionPdus
  deriving DecidableEq, Repr

/-- `PrivacyMode` (hci_packets.pdl). -/
inductive PrivacyMode where
  | network | device
  deriving DecidableEq, Repr

/-- `Operation` (hci_packets.pdl 3991-3997); `other` stands for 5, 6 and 7. -/
inductive Operation where
  | intermediateFragment | firstFragment | lastFragment | completeAdvertisement
  | unchangedData | other
  deriving DecidableEq, Repr

/-- `PrimaryPhyType` (hci_packets.pdl): 1M or coded. -/
inductive PrimaryPhy where
  | le1m | leCoded
  deriving DecidableEq, Repr

/-- `SecondaryPhyType` (hci_packets.pdl). -/
inductive SecondaryPhy where
  | noPackets | le1m | le2m | leCoded
  deriving DecidableEq, Repr

/-- `FilterDuplicates` (hci_packets.pdl). -/
inductive FilterDuplicates where
  | disabled | enabled | resetEachPeriod
  deriving DecidableEq, Repr

/-- `LeScanType` (hci_packets.pdl). -/
inductive ScanType where
  | passive | active
  deriving DecidableEq, Repr

/-- `AddressWithType` (`include/hci/address_with_type.h` 30-). -/
structure AddressWithType where
  address : Address
  type : AddressType
  deriving DecidableEq, Repr

/-- The part of `ControllerProperties` the LE commands consult
(`model/controller/controller_properties.h` 174-237), and the public address. -/
structure Config where
  publicAddress : Address
  filterAcceptListSize : Nat
  resolvingListSize : Nat
  periodicAdvertiserListSize : Nat
  maxAdvertisingDataLength : Nat
  numSupportedAdvertisingSets : Nat
  supports2mPhy : Bool
  supportsCodedPhy : Bool
  supportsPeriodicAdvertisingAdi : Bool
  supportsSetPeriodicAdvertisingReceiveEnable : Bool

/-- The defaults of `controller_properties.h` (174, 177, 184, 189, 192). -/
def Config.default : Config where
  publicAddress := 0x112233445566#48
  filterAcceptListSize := 16
  resolvingListSize := 16
  periodicAdvertiserListSize := 8
  maxAdvertisingDataLength := 512
  numSupportedAdvertisingSets := 16
  supports2mPhy := true
  supportsCodedPhy := true
  supportsPeriodicAdvertisingAdi := true
  supportsSetPeriodicAdvertisingReceiveEnable := true

/-- `FilterAcceptListEntry` (le_controller.h). -/
structure FalEntry where
  type : FalAddressType
  address : Address
  deriving DecidableEq, Repr

/-- `ResolvingListEntry` (le_controller.h). -/
structure RlEntry where
  peerType : PeerAddressType
  peerAddress : Address
  peerIrk : Irk
  localIrk : Irk
  privacyMode : PrivacyMode
  localRpa : Option Address
  peerRpa : Option Address
  deriving DecidableEq, Repr

/-- `PeriodicAdvertiserListEntry` (le_controller.h). `AdvertiserAddressType` has
the same two values as `PeerAddressType`. -/
structure PalEntry where
  type : PeerAddressType
  address : Address
  sid : Nat
  deriving DecidableEq, Repr

/-- `LegacyAdvertiser` (le_advertiser.h 40-109). -/
structure LegacyAdv where
  enable : Bool := false
  advertisingAddress : AddressWithType := ⟨0, .publicDevice⟩
  targetAddress : AddressWithType := ⟨0, .publicDevice⟩
  nextEvent : Nat := 0
  timeout : Option Nat := none
  interval : Nat := 0x800
  type : AdvertisingType := .advInd
  ownAddressType : OwnAddressType := .pub
  peerAddressType : PeerAddressType := .pub
  peerAddress : Address := 0
  channelMap : Nat := 7
  filterPolicy : AdvertisingFilterPolicy := .allDevices
  data : List UInt8 := []
  scanResponse : List UInt8 := []
  deriving DecidableEq, Repr

/-- `AdvertisingEventProperties` (hci_packets.pdl 3900-3912). -/
structure EventProperties where
  connectable : Bool := false
  scannable : Bool := false
  directed : Bool := false
  highDutyCycle : Bool := false
  legacy : Bool := false
  anonymous : Bool := false
  includeTxPower : Bool := false
  deriving DecidableEq, Repr

/-- `ExtendedAdvertiser` (le_advertiser.h 40-62, 111-195). The handle is the key
of the map; `constant_tone_extensions` is never set by the code. -/
structure ExtAdv where
  enable : Bool := false
  advertisingAddress : AddressWithType := ⟨0, .publicDevice⟩
  targetAddress : AddressWithType := ⟨0, .publicDevice⟩
  nextEvent : Nat := 0
  timeout : Option Nat := none
  properties : EventProperties := {}
  interval : Nat := 0
  channelMap : Nat := 0
  ownAddressType : OwnAddressType := .pub
  peerAddressType : PeerAddressType := .pub
  peerAddress : Address := 0
  randomAddress : Option Address := none
  filterPolicy : AdvertisingFilterPolicy := .allDevices
  txPower : Nat := 0
  primaryPhy : PrimaryPhy := .le1m
  secondaryMaxSkip : Nat := 0
  secondaryPhy : SecondaryPhy := .noPackets
  sid : Nat := 0
  scanRequestNotification : Bool := false
  data : List UInt8 := []
  scanResponse : List UInt8 := []
  partialData : Bool := false
  partialScanResponse : Bool := false
  periodicEnable : Bool := false
  periodicLatch : Bool := false
  periodicInterval : Nat := 0
  periodicData : List UInt8 := []
  partialPeriodicData : Bool := false
  nextPeriodicEvent : Nat := 0
  maxEvents : Nat := 0
  numCompletedEvents : Nat := 0
  constantToneExtensions : Bool := false
  deriving DecidableEq, Repr

/-- `Scanner::PhyParameters` (le_controller.h). -/
structure ScanPhy where
  enabled : Bool := false
  scanType : ScanType := .passive
  interval : Nat := 0
  window : Nat := 0
  deriving DecidableEq, Repr

/-- `Scanner` (le_controller.h) without `pending_scan_requests` and `history`,
which only influence which reports are generated. -/
structure Scanner where
  enable : Bool := false
  period : Nat := 0
  duration : Nat := 0
  filterDuplicates : FilterDuplicates := .disabled
  ownAddressType : OwnAddressType := .pub
  filterPolicy : ScanFilterPolicy := .acceptAll
  le1m : ScanPhy := {}
  leCoded : ScanPhy := {}
  timeout : Option Nat := none
  periodicalTimeout : Option Nat := none
  deriving DecidableEq, Repr

/-- The connection parameters of `Initiator::PhyParameters` (le_controller.h) and
of the HCI structure `InitiatingPhyParameters` (hci_packets.pdl). -/
structure ConnParams where
  scanInterval : Nat := 0
  scanWindow : Nat := 0
  intervalMin : Nat := 0
  intervalMax : Nat := 0
  maxLatency : Nat := 0
  supervisionTimeout : Nat := 0
  minCeLength : Nat := 0
  maxCeLength : Nat := 0
  deriving DecidableEq, Repr

/-- `Initiator::PhyParameters` (le_controller.h). -/
structure InitPhy where
  enabled : Bool := false
  params : ConnParams := {}
  deriving DecidableEq, Repr

/-- `Initiator` (le_controller.h). -/
structure Initiator where
  enable : Bool := false
  filterPolicy : InitiatorFilterPolicy := .usePeerAddress
  peerAddress : AddressWithType := ⟨0, .publicDevice⟩
  ownAddressType : OwnAddressType := .pub
  le1m : InitPhy := {}
  le2m : InitPhy := {}
  leCoded : InitPhy := {}
  initiatingAddress : Address := 0
  pendingConnectRequest : Option AddressWithType := none
  deriving DecidableEq, Repr

/-- `PeriodicAdvertisingOptions` (hci_packets.pdl). -/
structure SyncOptions where
  useList : Bool := false
  disableReporting : Bool := false
  duplicateFiltering : Bool := false
  deriving DecidableEq, Repr

/-- `Synchronizing` (le_controller.h). -/
structure Synchronizing where
  options : SyncOptions
  advertiser : PalEntry
  syncTimeout : Nat
  deriving DecidableEq, Repr

/-- `Synchronized` (le_controller.h); the handle is the key of the map. -/
structure Synchronized where
  advertiser : PalEntry
  syncTimeout : Nat
  timeout : Nat
  deriving DecidableEq, Repr

/-- The LE part of `LeController` (le_controller.h 720-990) that is driven by the
LE commands modelled in this directory. -/
structure State where
  randomAddress : Address := 0
  rpaTimeout : Nat := 0x384
  filterAcceptList : List FalEntry := []
  resolvingList : List RlEntry := []
  resolvingListEnabled : Bool := false
  periodicAdvertiserList : List PalEntry := []
  legacyInUse : Bool := false
  extendedInUse : Bool := false
  legacyAdv : LegacyAdv := {}
  extAdv : List (UInt8 × ExtAdv) := []
  scanner : Scanner := {}
  initiator : Initiator := {}
  synchronizing : Option Synchronizing := none
  synchronized : List (Nat × Synchronized) := []
  deriving DecidableEq, Repr

/-! ### Maps -/

/-- `std::unordered_map::find`. -/
def mapFind {κ α : Type} [DecidableEq κ] (m : List (κ × α)) (k : κ) : Option α :=
  (m.find? (fun e => e.1 = k)).map (·.2)

/-- `std::unordered_map::insert_or_assign`. -/
def mapSet {κ α : Type} [DecidableEq κ] : List (κ × α) → κ → α → List (κ × α)
  | [], k, a => [(k, a)]
  | (k', a') :: m, k, a => if k' = k then (k', a) :: m else (k', a') :: mapSet m k a

/-- `std::unordered_map::erase`. -/
def mapErase {κ α : Type} [DecidableEq κ] (m : List (κ × α)) (k : κ) : List (κ × α) :=
  m.filter (fun e => ¬ e.1 = k)

/-! ### Command validation

Most handlers are a sequence of `if (condition) return error;` statements
followed by the update. The sequence is represented by the list of its
conditions and errors. -/

/-- The error of the first condition that holds, `success` if none does. -/
def firstError : List (Bool × Status) → Status
  | [] => .success
  | (c, e) :: r => if c then e else firstError r

/-- Run the checks, return the first error, or go on when all of them pass. -/
def checkedThen (checks : List (Bool × Status)) (s : State) (next : State × Status) :
    State × Status :=
  if firstError checks = .success then next else (s, firstError checks)

/-- Run the checks, and apply the update when all of them pass. -/
def checked (checks : List (Bool × Status)) (s : State) (update : State) : State × Status :=
  checkedThen checks s (update, .success)

end Verif.Le
