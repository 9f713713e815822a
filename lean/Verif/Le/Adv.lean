import Verif.Le.Scan
/-!
# LE command layer: advertising

Model of `model/controller/le_advertiser.cc`.
-/

namespace Verif.Le

/-- `max_legacy_advertising_pdu_size` (le_advertiser.cc 55). -/
def maxLegacyPdu : Nat := 31

/-- `max_extended_advertising_pdu_size` (le_advertiser.cc 56). -/
def maxExtendedPdu : Nat := 1650

/-! ### Legacy advertising commands -/

/-- The parameters of LE Set Advertising Parameters. -/
structure LegacyParams where
  intervalMin : Nat
  intervalMax : Nat
  type : AdvertisingType
  own : OwnAddressType
  peerType : PeerAddressType
  peer : Address
  channelMap : Nat
  policy : AdvertisingFilterPolicy
  deriving DecidableEq, Repr

/-- `LeSetAdvertisingParameters` (le_advertiser.cc 64-143).
`duration_cast<slots>(10ms)` is 16 slots. -/
def setAdvertisingParameters (s : State) (p : LegacyParams) : State × Status :=
  withLegacy s fun s =>
    let map := p.channelMap &&& 0x7
    let imin := if p.type = .advDirectIndHigh then 0x800 else p.intervalMin
    let imax := if p.type = .advDirectIndHigh then 0x800 else p.intervalMax
    checked
      [(s.legacyAdv.enable, .commandDisallowed),
       (map == 0, .invalidHciCommandParameters),
       (decide (imin < 0x20 ∨ imin > 0x4000 ∨ imax < 0x20 ∨ imax > 0x4000),
          .unsupportedFeatureOrParameterValue),
       (decide (imin > imax), .invalidHciCommandParameters)]
      s { s with legacyAdv := { s.legacyAdv with interval := (if p.type = .advDirectIndHigh then 16 else imin), type := p.type, ownAddressType := p.own, peerAddressType := p.peerType, peerAddress := p.peer, channelMap := map, filterPolicy := p.policy } }

/-- `LeSetAdvertisingData` (le_advertiser.cc 146-158). The parser admits at most 31
bytes (hci_packets.pdl 3327-3331, `_padding_[31]`). -/
def setAdvertisingData (s : State) (d : List UInt8) : State × Status :=
  withLegacy s fun s => ({ s with legacyAdv := { s.legacyAdv with data := d } }, .success)

/-- `LeSetScanResponseData` (le_advertiser.cc 161-173). -/
def setScanResponseData (s : State) (d : List UInt8) : State × Status :=
  withLegacy s fun s => ({ s with legacyAdv := { s.legacyAdv with scanResponse := d } }, .success)

/-- The choice of the advertising address (le_advertiser.cc 204-243 and 1033-1075);
`none` is the error return. -/
def chooseAddress (own : OwnAddressType) (pub random : AddressWithType)
    (resolvable : Option AddressWithType) : Option AddressWithType :=
  match own with
  | .pub => some pub
  | .random => if random.address = 0 then none else some random
  | .resolvableOrPublic => some (resolvable.getD pub)
  | .resolvableOrRandom =>
    match resolvable with
    | some r => some r
    | none => if random.address = 0 then none else some random

/-- `LeSetAdvertisingEnable` (le_advertiser.cc 176-280). `rnd 0` and `rnd 1` give the
addresses generated by the two calls of `GenerateResolvablePrivateAddress`. The
high duty cycle timeout is 1280 ms. -/
def setAdvertisingEnable (cfg : Config) (now : Nat) (rnd : Nat → Irk → Address) (s : State)
    (enable : Bool) : State × Status :=
  withLegacy s fun s =>
    if enable = false then
      ({ s with legacyAdv := { s.legacyAdv with enable := false } }, .success)
    else
      let peer := peerDeviceAddress s.legacyAdv.peerAddress s.legacyAdv.peerAddressType
      let r := generateRpa (rnd 0) peer .loc s.resolvingList
      let s := { s with resolvingList := r.1 }
      match chooseAddress s.legacyAdv.ownAddressType ⟨cfg.publicAddress, .publicDevice⟩
          ⟨s.randomAddress, .randomDevice⟩ r.2 with
      | none => (s, .invalidHciCommandParameters)
      | some a =>
        let directed := s.legacyAdv.type == .advDirectIndHigh || s.legacyAdv.type == .advDirectIndLow
        let target := if directed then (generateRpa (rnd 1) peer .peer s.resolvingList).2.getD peer else ⟨0, .publicDevice⟩
        let timeout := if s.legacyAdv.type = .advDirectIndHigh then some (now + 1280000) else none
        ({ s with legacyAdv := { s.legacyAdv with enable := true, advertisingAddress := a, targetAddress := target, timeout := timeout, nextEvent := now + 625 * s.legacyAdv.interval } }, .success)

/-! ### Extended advertising commands -/

/-- `GetRawAdvertisingEventProperties` (le_advertiser.cc 1234-1259). -/
def EventProperties.raw (p : EventProperties) : Nat :=
  (if p.connectable then 0x1 else 0) ||| (if p.scannable then 0x2 else 0) |||
  (if p.directed then 0x4 else 0) ||| (if p.highDutyCycle then 0x8 else 0) |||
  (if p.legacy then 0x10 else 0) ||| (if p.anonymous then 0x20 else 0) |||
  (if p.includeTxPower then 0x40 else 0)

/-- `GetMaxAdvertisingDataLength` (le_advertiser.cc 1166-1208). -/
def EventProperties.maxData (p : EventProperties) : Nat :=
  if p.legacy && p.directed then 0
  else if p.legacy then maxLegacyPdu
  else if p.scannable then 0
  else if !p.connectable then maxExtendedPdu
  else 254 - 6 - 2 - (if p.directed then 6 else 0) - (if p.includeTxPower then 1 else 0)

/-- `GetMaxScanResponseDataLength` (le_advertiser.cc 1210-1232). -/
def EventProperties.maxScanResponse (p : EventProperties) : Nat :=
  if !p.scannable then 0
  else if p.legacy then maxLegacyPdu
  else maxExtendedPdu

/-- `can_have_advertising_data` (le_advertiser.cc 392-393, 604-606). -/
def EventProperties.canHaveData (p : EventProperties) : Bool :=
  (p.legacy && !p.directed) || (!p.legacy && !p.scannable)

/-- The legacy event types of `LegacyAdvertisingEventProperties` (hci_packets.pdl
3892-3898): ADV_IND, ADV_DIRECT_IND_LOW, ADV_DIRECT_IND_HIGH, ADV_SCAN_IND,
ADV_NONCONN_IND. -/
def legacyEventTypes : List Nat := [0x3, 0x5, 0xd, 0x2, 0x0]

/-- `LeSetAdvertisingSetRandomAddress` (le_advertiser.cc 287-312). -/
def setAdvertisingSetRandomAddress (s : State) (h : UInt8) (a : Address) : State × Status :=
  match mapFind s.extAdv h with
  | none => (s, .unknownAdvertisingIdentifier)
  | some adv =>
    checked [(adv.enable, .commandDisallowed)]
      s { s with extAdv := mapSet s.extAdv h { adv with randomAddress := some a } }

/-- The parameters of LE Set Extended Advertising Parameters. -/
structure ExtParams where
  properties : EventProperties
  intervalMin : Nat
  intervalMax : Nat
  channelMap : Nat
  own : OwnAddressType
  peerType : PeerAddressType
  peer : Address
  policy : AdvertisingFilterPolicy
  txPower : Nat
  primaryPhy : PrimaryPhy
  secondaryMaxSkip : Nat
  secondaryPhy : SecondaryPhy
  sid : Nat
  scanRequestNotification : Bool
  deriving DecidableEq, Repr

/-- The checks of `LeSetExtendedAdvertisingParameters` on the advertising set
(le_advertiser.cc 366-551). `raw & ~0x10` is `raw - 0x10` for legacy properties. -/
def extParamChecks (adv : ExtAdv) (p : ExtParams) : List (Bool × Status) :=
  let q := p.properties
  [(adv.enable, .commandDisallowed),
   (q.legacy && !legacyEventTypes.contains (q.raw - 0x10), .invalidHciCommandParameters),
   (!q.canHaveData && !adv.data.isEmpty, .invalidHciCommandParameters),
   (!q.scannable && !adv.scanResponse.isEmpty, .invalidHciCommandParameters),
   (q.legacy && decide (adv.data.length > maxLegacyPdu ∨ adv.scanResponse.length > maxLegacyPdu),
      .invalidHciCommandParameters),
   (!q.legacy && q.connectable && q.scannable, .invalidHciCommandParameters),
   (!q.legacy && q.connectable && q.directed && q.highDutyCycle, .invalidHciCommandParameters),
   (decide (p.intervalMin < 0x20 ∨ p.intervalMax < 0x20), .unsupportedFeatureOrParameterValue),
   (decide (p.intervalMin > p.intervalMax), .invalidHciCommandParameters),
   (p.channelMap &&& 0x7 == 0, .invalidHciCommandParameters),
   (q.legacy && p.primaryPhy != .le1m, .invalidHciCommandParameters),
   (adv.constantToneExtensions && p.secondaryPhy == .leCoded, .commandDisallowed),
   (adv.periodicEnable && (q.connectable || q.scannable || q.legacy || q.anonymous),
      .invalidHciCommandParameters),
   (!q.legacy && decide (adv.data.length > maxExtendedPdu ∨ adv.scanResponse.length > maxExtendedPdu),
      .packetTooLong)]

/-- The assignments of `LeSetExtendedAdvertisingParameters` (le_advertiser.cc 553-566). -/
def applyExtParams (adv : ExtAdv) (p : ExtParams) : ExtAdv :=
  { adv with properties := p.properties, interval := p.intervalMin, channelMap := p.channelMap &&& 0x7, ownAddressType := p.own, peerAddressType := p.peerType, peerAddress := p.peer, filterPolicy := p.policy, txPower := p.txPower, primaryPhy := p.primaryPhy, secondaryMaxSkip := p.secondaryMaxSkip, secondaryPhy := p.secondaryPhy, sid := p.sid, scanRequestNotification := p.scanRequestNotification }

/-- `LeSetExtendedAdvertisingParameters` (le_advertiser.cc 315-569). -/
def setExtAdvertisingParameters (cfg : Config) (s : State) (h : UInt8) (p : ExtParams) :
    State × Status :=
  withExtended s fun s =>
    let found := mapFind s.extAdv h
    let adv := found.getD {}
    checked
      ((found.isNone && decide (s.extAdv.length ≥ cfg.numSupportedAdvertisingSets),
          .memoryCapacityExceeded) :: extParamChecks adv p)
      s { s with extAdv := mapSet s.extAdv h (applyExtParams adv p) }

/-- The effect of a data operation on a buffer and its partial flag
(le_advertiser.cc 668-699, 835-871, 1402-1433); `none` for the default branch. -/
def applyOperation (op : Operation) (old new : List UInt8) (part : Bool) :
    Option (List UInt8 × Bool) :=
  match op with
  | .intermediateFragment => some (old ++ new, true)
  | .firstFragment => some (new, true)
  | .lastFragment => some (old ++ new, false)
  | .completeAdvertisement => some (new, false)
  | .unchangedData => some (old, part)
  | .other => none

/-- `LeSetExtendedAdvertisingData` (le_advertiser.cc 572-743). -/
def setExtAdvertisingData (cfg : Config) (s : State) (h : UInt8) (op : Operation)
    (d : List UInt8) : State × Status :=
  withExtended s fun s =>
    match mapFind s.extAdv h with
    | none => (s, .unknownAdvertisingIdentifier)
    | some adv =>
      let q := adv.properties
      checkedThen
        [(!q.canHaveData, .invalidHciCommandParameters),
         (q.legacy && (op != .completeAdvertisement || decide (d.length > maxLegacyPdu)),
            .invalidHciCommandParameters),
         (op == .unchangedData && (!adv.enable || adv.data.isEmpty || q.legacy || !d.isEmpty),
            .invalidHciCommandParameters),
         (op != .completeAdvertisement && op != .unchangedData && d.isEmpty,
            .invalidHciCommandParameters),
         (adv.enable && op != .completeAdvertisement && op != .unchangedData, .commandDisallowed)] s <|
        match applyOperation op adv.data d adv.partialData with
        | none => (s, .invalidHciCommandParameters)
        | some (data, part) =>
          if data.length > cfg.maxAdvertisingDataLength then
            ({ s with extAdv := mapSet s.extAdv h { adv with data := [], partialData := false } }, .memoryCapacityExceeded)
          else if adv.enable = true ∧ data.length > q.maxData then
            ({ s with extAdv := mapSet s.extAdv h { adv with data := [], partialData := false } }, .packetTooLong)
          else
            ({ s with extAdv := mapSet s.extAdv h { adv with data := data, partialData := part } }, .success)

/-- `LeSetExtendedScanResponseData` (le_advertiser.cc 746-906). -/
def setExtScanResponseData (cfg : Config) (s : State) (h : UInt8) (op : Operation)
    (d : List UInt8) : State × Status :=
  withExtended s fun s =>
    match mapFind s.extAdv h with
    | none => (s, .unknownAdvertisingIdentifier)
    | some adv =>
      let q := adv.properties
      checkedThen
        [(!q.scannable && !d.isEmpty, .invalidHciCommandParameters),
         (q.scannable && q.legacy && (op != .completeAdvertisement || decide (d.length > maxLegacyPdu)),
            .invalidHciCommandParameters),
         (op != .completeAdvertisement && d.isEmpty, .invalidHciCommandParameters),
         (adv.enable && op != .completeAdvertisement, .commandDisallowed),
         (adv.enable && q.scannable && !q.legacy && d.isEmpty, .commandDisallowed),
         (op == .unchangedData, .invalidHciCommandParameters)] s <|
        match applyOperation op adv.scanResponse d adv.partialScanResponse with
        | none => (s, .invalidHciCommandParameters)
        | some (data, part) =>
          if data.length > cfg.maxAdvertisingDataLength then
            ({ s with extAdv := mapSet s.extAdv h { adv with scanResponse := [], partialScanResponse := false } }, .memoryCapacityExceeded)
          else if data.length > maxExtendedPdu then
            ({ s with extAdv := mapSet s.extAdv h { adv with scanResponse := [], partialScanResponse := false } }, .packetTooLong)
          else
            ({ s with extAdv := mapSet s.extAdv h { adv with scanResponse := data, partialScanResponse := part } }, .success)

/-- `EnabledSet` (hci_packets.pdl): duration in units of 10 ms. -/
structure EnabledSet where
  handle : UInt8
  duration : Nat
  maxEvents : Nat
  deriving DecidableEq, Repr

/-- Result of the handle validation loop. -/
inductive HandleCheck where
  | ok | fail (e : Status) | ub
  deriving DecidableEq, Repr

/-- The handle validation loop of `LeSetExtendedAdvertisingEnable` (le_advertiser.cc
921-941). `used_advertising_handles` is a `std::array<bool, 255>`: indexing it with
handle 255 is undefined behaviour. -/
def checkHandles (m : List (UInt8 × ExtAdv)) : List UInt8 → List EnabledSet → HandleCheck
  | _, [] => .ok
  | used, set :: sets =>
    if set.handle = 255 then .ub
    else if used.contains set.handle then .fail .invalidHciCommandParameters
    else if (mapFind m set.handle).isNone then .fail .unknownAdvertisingIdentifier
    else checkHandles m (set.handle :: used) sets

/-- The checks of the parameter validation loop (le_advertiser.cc 972-1030). -/
def extEnableChecks (adv : ExtAdv) (set : EnabledSet) : List (Bool × Status) :=
  let q := adv.properties
  [(q.connectable && q.directed && q.highDutyCycle &&
      (set.duration == 0 || decide (set.duration * 10 > 1280)), .invalidHciCommandParameters),
   (adv.partialData || adv.partialScanResponse, .commandDisallowed),
   (!q.legacy && q.scannable && adv.scanResponse.isEmpty, .commandDisallowed),
   (!q.legacy && q.connectable && decide (adv.data.length > q.maxData), .invalidHciCommandParameters),
   (!q.legacy && decide (adv.data.length > maxExtendedPdu ∨ adv.scanResponse.length > maxExtendedPdu),
      .packetTooLong)]

/-- The parameter validation loop (le_advertiser.cc 966-1088). It writes the
addresses of a set before the following sets are validated. `rnd (2 i)` and
`rnd (2 i + 1)` are the addresses generated while validating the i-th set. -/
def validateSets (cfg : Config) (rnd : Nat → Irk → Address) :
    Nat → List EnabledSet → State → State × Status
  | _, [], s => (s, .success)
  | i, set :: sets, s =>
    let adv := (mapFind s.extAdv set.handle).getD {}
    checkedThen (extEnableChecks adv set) s <|
      let peer := peerDeviceAddress adv.peerAddress adv.peerAddressType
      let r := generateRpa (rnd (2 * i)) peer .loc s.resolvingList
      let s := { s with resolvingList := r.1 }
      match chooseAddress adv.ownAddressType ⟨cfg.publicAddress, .publicDevice⟩
          ⟨adv.randomAddress.getD 0, .randomDevice⟩ r.2 with
      | none => (s, .invalidHciCommandParameters)
      | some a =>
        let target := if adv.properties.directed then (generateRpa (rnd (2 * i + 1)) peer .peer s.resolvingList).2.getD peer else adv.targetAddress
        validateSets cfg rnd (i + 1) sets { s with extAdv := mapSet s.extAdv set.handle { adv with advertisingAddress := a, targetAddress := target } }

/-- Enabling one set (le_advertiser.cc 1107-1119, `Enable` le_advertiser.h 119-123). -/
def enableSet (now : Nat) (adv : ExtAdv) (set : EnabledSet) : ExtAdv :=
  { adv with maxEvents := set.maxEvents, numCompletedEvents := 0, enable := true, periodicLatch := adv.periodicEnable, nextEvent := now, timeout := if set.duration > 0 then some (now + 10000 * set.duration) else none }

/-- The last loop of `LeSetExtendedAdvertisingEnable` (le_advertiser.cc 1106-1120). -/
def enableSets (now : Nat) : List EnabledSet → List (UInt8 × ExtAdv) → List (UInt8 × ExtAdv)
  | [], m => m
  | set :: sets, m =>
    enableSets now sets (mapSet m set.handle (enableSet now ((mapFind m set.handle).getD {}) set))

/-- Disabling the listed sets (le_advertiser.cc 958-963). -/
def disableSets : List EnabledSet → List (UInt8 × ExtAdv) → List (UInt8 × ExtAdv)
  | [], m => m
  | set :: sets, m =>
    disableSets sets (mapSet m set.handle { (mapFind m set.handle).getD {} with enable := false })

/-- `LeSetExtendedAdvertisingEnable` (le_advertiser.cc 909-1123); `none` is undefined
behaviour. -/
def setExtAdvertisingEnable (cfg : Config) (now : Nat) (rnd : Nat → Irk → Address) (s : State)
    (enable : Bool) (sets : List EnabledSet) : Option (State × Status) :=
  if s.legacyInUse = true then some (s, .commandDisallowed)
  else
    let s := { s with extendedInUse := true }
    match checkHandles s.extAdv [] sets with
    | .ub => none
    | .fail e => some (s, e)
    | .ok =>
      if enable = false ∧ sets = [] then
        some ({ s with extAdv := s.extAdv.map (fun e => (e.1, { e.2 with enable := false })) }, .success)
      else if sets = [] then some (s, .invalidHciCommandParameters)
      else if enable = false then
        some ({ s with extAdv := disableSets sets s.extAdv }, .success)
      else
        let r := validateSets cfg rnd 0 sets s
        let s := r.1
        if r.2 = .success then some ({ s with extAdv := enableSets now sets s.extAdv }, .success)
        else some (s, r.2)

/-- `LeRemoveAdvertisingSet` (le_advertiser.cc 1126-1148). -/
def removeAdvertisingSet (s : State) (h : UInt8) : State × Status :=
  match mapFind s.extAdv h with
  | none => (s, .unknownAdvertisingIdentifier)
  | some adv =>
    checked [(adv.enable, .commandDisallowed)] s { s with extAdv := mapErase s.extAdv h }

/-- `LeClearAdvertisingSets` (le_advertiser.cc 1151-1164). -/
def clearAdvertisingSets (s : State) : State × Status :=
  checked [(s.extAdv.any (fun e => e.2.enable), .commandDisallowed)] s { s with extAdv := [] }

/-! ### Periodic advertising commands -/

/-- `GetMaxPeriodicAdvertisingDataLength` (le_advertiser.cc 1549-1554). -/
def maxPeriodicData : Nat := maxExtendedPdu

/-- Properties that exclude periodic advertising (le_advertiser.cc 1298-1301, 1518-1521). -/
def EventProperties.notPeriodic (p : EventProperties) : Bool :=
  p.connectable || p.scannable || p.legacy || p.anonymous

/-- `LeSetPeriodicAdvertisingParameters` (le_advertiser.cc 1266-1338). -/
def setPeriodicParameters (s : State) (h : UInt8) (imin imax : Nat) : State × Status :=
  match mapFind s.extAdv h with
  | none => (s, .unknownAdvertisingIdentifier)
  | some adv =>
    checked
      [(decide (imin < 0x6 ∨ imax < 0x6 ∨ imax < imin), .invalidHciCommandParameters),
       (adv.properties.notPeriodic, .invalidHciCommandParameters),
       (adv.periodicEnable, .commandDisallowed),
       (decide (adv.periodicData.length > maxPeriodicData), .packetTooLong)]
      s { s with extAdv := mapSet s.extAdv h { adv with periodicInterval := imax } }

/-- `LeSetPeriodicAdvertisingData` (le_advertiser.cc 1341-1463). -/
def setPeriodicData (cfg : Config) (s : State) (h : UInt8) (op : Operation) (d : List UInt8) :
    State × Status :=
  match mapFind s.extAdv h with
  | none => (s, .unknownAdvertisingIdentifier)
  | some adv =>
    checkedThen
      [(adv.periodicInterval == 0, .commandDisallowed),
       (adv.periodicEnable && op != .completeAdvertisement && op != .unchangedData, .commandDisallowed),
       (d.isEmpty && op != .completeAdvertisement && op != .unchangedData,
          .invalidHciCommandParameters),
       (op == .unchangedData && (!adv.periodicEnable || adv.periodicData.isEmpty || !d.isEmpty),
          .invalidHciCommandParameters)] s <|
      match applyOperation op adv.periodicData d adv.partialPeriodicData with
      | none => (s, .invalidHciCommandParameters)
      | some (data, part) =>
        if data.length > cfg.maxAdvertisingDataLength then
          ({ s with extAdv := mapSet s.extAdv h { adv with periodicData := [], partialPeriodicData := false } }, .memoryCapacityExceeded)
        else if data.length > maxPeriodicData then
          ({ s with extAdv := mapSet s.extAdv h { adv with periodicData := [], partialPeriodicData := false } }, .packetTooLong)
        else
          ({ s with extAdv := mapSet s.extAdv h { adv with periodicData := data, partialPeriodicData := part } }, .success)

/-- `LeSetPeriodicAdvertisingEnable` (le_advertiser.cc 1466-1547), with
`EnablePeriodic`/`DisablePeriodic` (le_advertiser.h 125-134). -/
def setPeriodicEnable (cfg : Config) (now : Nat) (s : State) (enable includeAdi : Bool) (h : UInt8) :
    State × Status :=
  match mapFind s.extAdv h with
  | none => (s, .unknownAdvertisingIdentifier)
  | some adv =>
    if enable = false then
      ({ s with extAdv := mapSet s.extAdv h { adv with periodicEnable := false, periodicLatch := false } }, .success)
    else
      checked
        [(adv.partialPeriodicData, .commandDisallowed),
         (adv.periodicInterval == 0, .commandDisallowed),
         (decide (adv.periodicData.length > maxPeriodicData), .packetTooLong),
         (adv.properties.notPeriodic, .commandDisallowed),
         (includeAdi && !cfg.supportsPeriodicAdvertisingAdi, .unsupportedFeatureOrParameterValue)]
        s { s with extAdv := mapSet s.extAdv h { adv with periodicEnable := true, periodicLatch := adv.enable, nextPeriodicEvent := now } }

/-! ### Advertising routine -/

/-- What `LeAdvertising` sends: link layer PDUs and events (shown whatever the
event masks are). Transmit power and PHYs are dropped. Legacy PDUs say which
advertising set they come from (`none` for the legacy advertiser); this is not on the
air. -/
inductive AdvOut where
  | legacyPdu (source : Option UInt8) (type : AdvertisingType) (adv target : AddressWithType) (data : List UInt8)
  | extendedPdu (handle : UInt8) (adv target : AddressWithType) (connectable scannable directed : Bool)
      (sid : Nat) (periodicInterval : Nat) (data : List UInt8)
  | periodicPdu (handle : UInt8) (adv : AddressWithType) (sid interval : Nat) (data : List UInt8)
  | directedTimeout
  | setTerminated (handle : UInt8) (numEvents : Nat)
  deriving DecidableEq, Repr

/-- The legacy part of `LeAdvertising` (le_advertiser.cc 1560-1640). -/
def tickLegacy (now : Nat) (a : LegacyAdv) : LegacyAdv × List AdvOut :=
  let expired := a.enable && a.timeout.any (fun t => decide (now ≥ t))
  let a := if expired then { a with enable := false } else a
  let out := if expired then [AdvOut.directedTimeout] else []
  if a.enable = true ∧ now ≥ a.nextEvent then
    let directed := a.type == .advDirectIndHigh || a.type == .advDirectIndLow
    ({ a with nextEvent := now + 625 * a.interval },
     out ++ [.legacyPdu none a.type a.advertisingAddress a.targetAddress (if directed then [] else a.data)])
  else (a, out)

/-- The legacy PDU type for raw event properties (le_advertiser.cc 1712-1737);
`none` is the FATAL branch. High and low duty cycle directed advertising use the
same PDU type; they are kept apart here. -/
def legacyPduType (raw : Nat) : Option AdvertisingType :=
  if raw % 16 = 0x3 then some .advInd
  else if raw % 16 = 0xd then some .advDirectIndHigh
  else if raw % 16 = 0x5 then some .advDirectIndLow
  else if raw % 16 = 0x2 then some .advScanInd
  else if raw % 16 = 0x0 then some .advNonconnInd
  else none

/-- The timeout part of the extended loop of `LeAdvertising` (le_advertiser.cc
1643-1705). -/
def tickExtTimeout (now : Nat) (h : UInt8) (a : ExtAdv) : ExtAdv × List AdvOut :=
  let expired := a.enable && a.timeout.any (fun t => decide (now ≥ t))
  let hdc := a.properties.directed && a.properties.connectable && a.properties.highDutyCycle
  let a1 := if expired then { a with enable := false } else a
  let o1 := if expired then
      (if hdc then [AdvOut.directedTimeout] else []) ++
      [AdvOut.setTerminated h (if a.maxEvents ≠ 0 then a.numCompletedEvents else 0)]
    else []
  let done := a1.enable && a1.maxEvents != 0 && decide (a1.numCompletedEvents ≥ a1.maxEvents)
  let a2 := if done then { a1 with enable := false } else a1
  let o2 := if done then [AdvOut.setTerminated h a1.numCompletedEvents] else []
  (a2, o1 ++ o2)

/-- The event part of the extended loop of `LeAdvertising` (le_advertiser.cc
1707-1769); `none` is the FATAL branch. `num_completed_extended_advertising_events`
is a `uint8_t`. -/
def tickExtEvent (now : Nat) (h : UInt8) (a : ExtAdv) : Option (ExtAdv × List AdvOut) :=
  if a.enable = true ∧ now ≥ a.nextEvent then
    let a' := { a with nextEvent := a.nextEvent + 625 * a.interval, numCompletedEvents := (a.numCompletedEvents + 1) % 256 }
    if a.properties.legacy then
      match legacyPduType a.properties.raw with
      | none => none
      | some t => some (a', [.legacyPdu (some h) t a.advertisingAddress a.targetAddress a.data])
    else
      some (a', [.extendedPdu h a.advertisingAddress a.targetAddress a.properties.connectable
        a.properties.scannable a.properties.directed a.sid a.periodicInterval a.data])
  else some (a, [])

/-- The periodic part of the extended loop (le_advertiser.cc 1771-1787). -/
def tickPeriodic (now : Nat) (h : UInt8) (a : ExtAdv) : ExtAdv × List AdvOut :=
  if a.periodicLatch = true ∧ now ≥ a.nextPeriodicEvent then
    ({ a with nextPeriodicEvent := a.nextPeriodicEvent + 625 * a.periodicInterval },
     [.periodicPdu h a.advertisingAddress a.sid a.periodicInterval a.periodicData])
  else (a, [])

/-- One iteration of the extended loop of `LeAdvertising`. -/
def tickExt (now : Nat) (h : UInt8) (a : ExtAdv) : Option (ExtAdv × List AdvOut) :=
  let r1 := tickExtTimeout now h a
  match tickExtEvent now h r1.1 with
  | none => none
  | some r2 =>
    let r3 := tickPeriodic now h r2.1
    some (r3.1, r1.2 ++ r2.2 ++ r3.2)

/-- The extended loop of `LeAdvertising` (le_advertiser.cc 1642-1788). -/
def tickExtAll (now : Nat) : List (UInt8 × ExtAdv) → Option (List (UInt8 × ExtAdv) × List AdvOut)
  | [] => some ([], [])
  | (h, a) :: m =>
    match tickExt now h a with
    | none => none
    | some (a', o) =>
      match tickExtAll now m with
      | none => none
      | some (m', o') => some ((h, a') :: m', o ++ o')

/-- `LeAdvertising` (le_advertiser.cc 1560-1789); `none` is the FATAL branch. -/
def advertising (now : Nat) (s : State) : Option (State × List AdvOut) :=
  let l := tickLegacy now s.legacyAdv
  match tickExtAll now s.extAdv with
  | none => none
  | some (m, o) => some ({ s with legacyAdv := l.1, extAdv := m }, l.2 ++ o)

end Verif.Le
