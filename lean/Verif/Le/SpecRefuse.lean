import Verif.Le.SpecParams
import Verif.Le.SpecLists
import Verif.Le.SpecAdv
/-!
# C106: reasons to refuse an LE command: specification

For every LE command the list of the reasons to refuse it, in the order in which they count, each with
its error. The first reason that holds is the status, `success` if none does.
-/

namespace Verif.Le

/-- `st` is the status of the first reason that holds, `success` if there is none. -/
def First : List (Prop × Status) → Status → Prop
  | [], st => st = .success
  | (p, e) :: r, st => (p ∧ st = e) ∨ (¬ p ∧ First r st)

/-- Advertising, scanning or initiating. -/
def Active (s : State) : Prop :=
  s.legacyAdv.enable = true ∨ (∃ h a, (h, a) ∈ s.extAdv ∧ a.enable = true) ∨ s.scanner.enable = true ∨ s.initiator.enable = true

/-- The filter accept list cannot be changed. This differs from `FilterAcceptListInUse` in the policy with decision
PDUs (C17). -/
def Locked (s : State) : Prop :=
  (s.legacyAdv.enable = true ∧ s.legacyAdv.filterPolicy ≠ .allDevices) ∨
  (∃ h a, (h, a) ∈ s.extAdv ∧ a.enable = true ∧ a.filterPolicy ≠ .allDevices) ∨
  (s.scanner.enable = true ∧ (s.scanner.filterPolicy = .filterAcceptListOnly ∨
    s.scanner.filterPolicy = .filterAcceptListAndInitiatorsIdentity)) ∨
  (s.initiator.enable = true ∧ s.initiator.filterPolicy = .useFilterAcceptListWithPeerAddress)

/-- The own address of the scanner is a random address which is not set. -/
def NoScanAddress (s : State) : Prop :=
  (s.scanner.ownAddressType = .random ∨ s.scanner.ownAddressType = .resolvableOrRandom) ∧ s.randomAddress = 0

/-- There is no address to advertise with: a random address is asked for and `random` is not set, and no address can be
generated for the peer. -/
def NoAdvAddress (l : List RlEntry) (own : OwnAddressType) (random : Address) (t : PeerAddressType) (peer : Address) : Prop :=
  random = 0 ∧ (own = .random ∨ (own = .resolvableOrRandom ∧ ¬ ∃ e ∈ l, e.peerType = t ∧ e.peerAddress = peer))

/-- The advertising set with a handle. -/
def State.advSet (s : State) (h : UInt8) : Option ExtAdv := (s.extAdv.find? (fun e => e.1 = h)).map (·.2)

/-- The reasons to refuse parameters of a connection. -/
def connReasons (p : ConnParams) : List (Prop × Status) :=
  [(¬ (4 ≤ p.scanInterval ∧ p.scanInterval ≤ 0x4000 ∧ 4 ≤ p.scanWindow ∧ p.scanWindow ≤ 0x4000), .unsupportedFeatureOrParameterValue),
   (p.scanInterval < p.scanWindow, .invalidHciCommandParameters),
   (¬ (6 ≤ p.intervalMin ∧ p.intervalMin ≤ 3200 ∧ 6 ≤ p.intervalMax ∧ p.intervalMax ≤ 3200), .unsupportedFeatureOrParameterValue),
   (p.intervalMax < p.intervalMin, .invalidHciCommandParameters),
   (499 < p.maxLatency, .unsupportedFeatureOrParameterValue),
   (¬ (10 ≤ p.supervisionTimeout ∧ p.supervisionTimeout ≤ 3200), .unsupportedFeatureOrParameterValue),
   (¬ TimeoutRuleWeak p.intervalMax p.maxLatency p.supervisionTimeout, .invalidHciCommandParameters)]

/-- The reasons to refuse parameters of an advertising set that is `a`. -/
def paramReasons (a : ExtAdv) (p : ExtParams) : List (Prop × Status) :=
  [(a.enable = true, .commandDisallowed),
   (¬ Understood p.properties ∨ (dataLimit p.properties = 0 ∧ a.data ≠ []) ∨ (scanResponseLimit p.properties = 0 ∧ a.scanResponse ≠ []) ∨
      (p.properties.legacy = true ∧ (31 < a.data.length ∨ 31 < a.scanResponse.length)), .invalidHciCommandParameters),
   (p.intervalMin < 32 ∨ p.intervalMax < 32, .unsupportedFeatureOrParameterValue),
   (p.intervalMax < p.intervalMin ∨ p.channelMap % 8 = 0 ∨ (p.properties.legacy = true ∧ p.primaryPhy = .leCoded), .invalidHciCommandParameters),
   (a.constantToneExtensions = true ∧ p.secondaryPhy = .leCoded, .commandDisallowed),
   (a.periodicEnable = true ∧ (p.properties.connectable = true ∨ p.properties.scannable = true ∨ p.properties.legacy = true ∨ p.properties.anonymous = true),
      .invalidHciCommandParameters),
   (p.properties.legacy = false ∧ (1650 < a.data.length ∨ 1650 < a.scanResponse.length), .packetTooLong)]

/-- A fragment of longer data that is not the whole. -/
def Operation.fragment : Operation → Prop
  | .completeAdvertisement => False
  | .unchangedData => False
  | _ => True

/-- The length of the data after an operation. -/
def newLength (op : Operation) (old new : Nat) : Nat :=
  match op with
  | .intermediateFragment => old + new
  | .lastFragment => old + new
  | .unchangedData => old
  | _ => new

/-- The reasons to refuse advertising data for the set `a`. -/
def dataReasons (cfg : Config) (a : ExtAdv) (op : Operation) (d : List UInt8) : List (Prop × Status) :=
  [(dataLimit a.properties = 0 ∨ (a.properties.legacy = true ∧ (op ≠ .completeAdvertisement ∨ 31 < d.length)) ∨
      (op = .unchangedData ∧ (a.enable = false ∨ a.data = [] ∨ a.properties.legacy = true ∨ d ≠ [])) ∨
      (op.fragment ∧ d = []), .invalidHciCommandParameters),
   (a.enable = true ∧ op.fragment, .commandDisallowed),
   (op = .other, .invalidHciCommandParameters),
   (cfg.maxAdvertisingDataLength < newLength op a.data.length d.length, .memoryCapacityExceeded),
   (a.enable = true ∧ dataLimit a.properties < newLength op a.data.length d.length, .packetTooLong)]

/-- The reasons to refuse scan response data for the set `a`. -/
def scanResponseReasons (cfg : Config) (a : ExtAdv) (op : Operation) (d : List UInt8) : List (Prop × Status) :=
  [((a.properties.scannable = false ∧ d ≠ []) ∨
      (a.properties.scannable = true ∧ a.properties.legacy = true ∧ (op ≠ .completeAdvertisement ∨ 31 < d.length)) ∨
      (op ≠ .completeAdvertisement ∧ d = []), .invalidHciCommandParameters),
   (a.enable = true ∧ (op ≠ .completeAdvertisement ∨ (a.properties.scannable = true ∧ a.properties.legacy = false ∧ d = [])), .commandDisallowed),
   (op = .unchangedData ∨ op = .other, .invalidHciCommandParameters),
   (cfg.maxAdvertisingDataLength < newLength op a.scanResponse.length d.length, .memoryCapacityExceeded),
   (1650 < newLength op a.scanResponse.length d.length, .packetTooLong)]

/-- The reasons to refuse periodic advertising data for the set `a`. -/
def periodicDataReasons (cfg : Config) (a : ExtAdv) (op : Operation) (d : List UInt8) : List (Prop × Status) :=
  [(a.periodicInterval = 0 ∨ (a.periodicEnable = true ∧ op.fragment), .commandDisallowed),
   ((d = [] ∧ op.fragment) ∨ (op = .unchangedData ∧ (a.periodicEnable = false ∨ a.periodicData = [] ∨ d ≠ [])) ∨ op = .other,
      .invalidHciCommandParameters),
   (cfg.maxAdvertisingDataLength < newLength op a.periodicData.length d.length, .memoryCapacityExceeded),
   (1650 < newLength op a.periodicData.length d.length, .packetTooLong)]

/-- The reasons to refuse the handles of a list of advertising sets, some handles having been listed before. -/
def handleReasons (s : State) : List UInt8 → List EnabledSet → List (Prop × Status)
  | _, [] => []
  | seen, set :: sets =>
    (set.handle ∈ seen, .invalidHciCommandParameters) :: (s.advSet set.handle = none, .unknownAdvertisingIdentifier) ::
      handleReasons s (set.handle :: seen) sets

/-- The reasons not to enable the set `a`. -/
def enableReasons (l : List RlEntry) (a : ExtAdv) (set : EnabledSet) : List (Prop × Status) :=
  [(a.properties.connectable = true ∧ a.properties.directed = true ∧ a.properties.highDutyCycle = true ∧ ¬ (1 ≤ set.duration ∧ set.duration ≤ 128),
      .invalidHciCommandParameters),
   (a.partialData = true ∨ a.partialScanResponse = true ∨
      (a.properties.legacy = false ∧ a.properties.scannable = true ∧ a.scanResponse = []), .commandDisallowed),
   (a.properties.legacy = false ∧ a.properties.connectable = true ∧ dataLimit a.properties < a.data.length, .invalidHciCommandParameters),
   (a.properties.legacy = false ∧ (1650 < a.data.length ∨ 1650 < a.scanResponse.length), .packetTooLong),
   (NoAdvAddress l a.ownAddressType (a.randomAddress.getD 0) a.peerAddressType a.peerAddress, .invalidHciCommandParameters)]

/-- The set is of a kind that excludes periodic advertising. -/
def NotPeriodic (a : ExtAdv) : Prop :=
  a.properties.connectable = true ∨ a.properties.scannable = true ∨ a.properties.legacy = true ∨ a.properties.anonymous = true

/-- Reasons about an advertising set that has to exist. -/
def State.onSet (s : State) (h : UInt8) (f : ExtAdv → List (Prop × Status)) : List (Prop × Status) :=
  match s.advSet h with
  | none => [(True, .unknownAdvertisingIdentifier)]
  | some a => f a

/-- The reasons to refuse an LE command. -/
def reasons (cfg : Config) (s : State) : Cmd → List (Prop × Status)
  | .setRandomAddress a =>
    [(s.legacyAdv.enable = true ∨ s.scanner.enable = true ∨ s.initiator.enable = true, .commandDisallowed), (a = 0, .invalidHciCommandParameters)]
  | .setRpaTimeout t => [(¬ (1 ≤ t ∧ t ≤ 3600), .invalidHciCommandParameters)]
  | .addResolving t a pk _ =>
    [(ResolvingListInUse s, .commandDisallowed), (cfg.resolvingListSize ≤ s.resolvingList.length, .memoryCapacityExceeded),
     (Resolvable s (t, a) ∨ (pk ≠ 0 ∧ ∃ e ∈ s.resolvingList, e.peerIrk = pk), .invalidHciCommandParameters)]
  | .removeResolving t a => [(ResolvingListInUse s, .commandDisallowed), (¬ Resolvable s (t, a), .unknownConnection)]
  | .clearResolving => [(ResolvingListInUse s, .commandDisallowed)]
  | .setAddressResolutionEnable _ => [(Active s, .commandDisallowed)]
  | .setPrivacyMode t a _ => [(ResolvingListInUse s, .commandDisallowed), (¬ Resolvable s (t, a), .unknownConnection)]
  | .clearFilterAccept => [(Locked s, .commandDisallowed)]
  | .addFilterAccept _ _ => [(Locked s, .commandDisallowed), (cfg.filterAcceptListSize ≤ s.filterAcceptList.length, .memoryCapacityExceeded)]
  | .removeFilterAccept _ _ => [(Locked s, .commandDisallowed)]
  | .addPeriodicAdvertiser e =>
    [(s.synchronizing ≠ none, .commandDisallowed), (cfg.periodicAdvertiserListSize ≤ s.periodicAdvertiserList.length, .memoryCapacityExceeded),
     (PeriodicListed s e, .invalidHciCommandParameters)]
  | .removePeriodicAdvertiser e => [(s.synchronizing ≠ none, .commandDisallowed), (¬ PeriodicListed s e, .unknownAdvertisingIdentifier)]
  | .clearPeriodicAdvertiser => [(s.synchronizing ≠ none, .commandDisallowed)]
  | .createSync o adv _ cte =>
    [(s.synchronizing ≠ none ∨ cte % 32 = 31, .commandDisallowed),
     (o.useList = false ∧ ∃ e ∈ s.synchronized, e.2.advertiser = adv, .connectionAlreadyExists),
     (o.disableReporting = false ∧ o.duplicateFiltering = true ∧ cfg.supportsPeriodicAdvertisingAdi = false, .unsupportedFeatureOrParameterValue),
     (o.disableReporting = true ∧ cfg.supportsSetPeriodicAdvertisingReceiveEnable = false, .connectionFailedEstablishment)]
  | .createSyncCancel => [(s.synchronizing = none, .commandDisallowed)]
  | .terminateSync h => [(∀ e ∈ s.synchronized, e.1 ≠ h, .unknownAdvertisingIdentifier)]
  | .setScanParameters _ i w _ _ =>
    [(s.extendedInUse = true ∨ s.scanner.enable = true, .commandDisallowed),
     (¬ (4 ≤ i ∧ i ≤ 0x4000 ∧ 4 ≤ w ∧ w ≤ 0x4000), .unsupportedFeatureOrParameterValue), (i < w, .invalidHciCommandParameters)]
  | .setScanEnable e _ => [(s.extendedInUse = true, .commandDisallowed), (e = true ∧ NoScanAddress s, .invalidHciCommandParameters)]
  | .setExtendedScanParameters _ _ phys params =>
    [(s.legacyInUse = true ∨ s.scanner.enable = true, .commandDisallowed), (¬ OnlySupported cfg phys.toNat, .unsupportedFeatureOrParameterValue),
     (bitCount phys.toNat ≠ params.length ∨ phys = 0 ∨ ∃ p ∈ params, p.interval < 4 ∨ p.window < 4 ∨ p.interval < p.window, .invalidHciCommandParameters)]
  | .setExtendedScanEnable _ e fd duration period =>
    [(s.legacyInUse = true, .commandDisallowed),
     (e = true ∧ ((fd = .resetEachPeriod ∧ (duration = 0 ∨ period = 0)) ∨ (duration ≠ 0 ∧ period ≠ 0 ∧ period * 1280 ≤ duration * 10) ∨ NoScanAddress s),
      .invalidHciCommandParameters)]
  | .createConnection _ policy peer own p =>
    (s.extendedInUse = true ∨ s.initiator.enable = true, .commandDisallowed) ::
      (connReasons p ++ [(¬ OwnAddressAvailable s policy peer own, .invalidHciCommandParameters)])
  | .createConnectionCancel => [(s.initiator.enable = false, .commandDisallowed)]
  | .extendedCreateConnection _ policy own peer phys params =>
    (s.legacyInUse = true ∨ s.initiator.enable = true, .commandDisallowed) :: (8 ≤ phys.toNat, .unsupportedFeatureOrParameterValue) ::
      (bitCount phys.toNat ≠ params.length ∨ phys = 0, .invalidHciCommandParameters) ::
      (params.flatMap connReasons ++ [(¬ OwnAddressAvailable s policy peer own, .invalidHciCommandParameters)])
  | .setAdvertisingParameters p =>
    [(s.extendedInUse = true ∨ s.legacyAdv.enable = true, .commandDisallowed), (p.channelMap % 8 = 0, .invalidHciCommandParameters),
     (p.type ≠ .advDirectIndHigh ∧ ¬ (32 ≤ p.intervalMin ∧ p.intervalMin ≤ 0x4000 ∧ 32 ≤ p.intervalMax ∧ p.intervalMax ≤ 0x4000),
      .unsupportedFeatureOrParameterValue),
     (p.type ≠ .advDirectIndHigh ∧ p.intervalMax < p.intervalMin, .invalidHciCommandParameters)]
  | .setAdvertisingData _ => [(s.extendedInUse = true, .commandDisallowed)]
  | .setScanResponseData _ => [(s.extendedInUse = true, .commandDisallowed)]
  | .setAdvertisingEnable _ _ e =>
    [(s.extendedInUse = true, .commandDisallowed),
     (e = true ∧ NoAdvAddress s.resolvingList s.legacyAdv.ownAddressType s.randomAddress s.legacyAdv.peerAddressType s.legacyAdv.peerAddress,
      .invalidHciCommandParameters)]
  | .setAdvertisingSetRandomAddress h _ => s.onSet h fun a => [(a.enable = true, .commandDisallowed)]
  | .setExtAdvertisingParameters h p =>
    (s.legacyInUse = true, .commandDisallowed) :: (s.advSet h = none ∧ cfg.numSupportedAdvertisingSets ≤ s.extAdv.length, .memoryCapacityExceeded) ::
      paramReasons ((s.advSet h).getD {}) p
  | .setExtAdvertisingData h op d => (s.legacyInUse = true, .commandDisallowed) :: s.onSet h fun a => dataReasons cfg a op d
  | .setExtScanResponseData h op d => (s.legacyInUse = true, .commandDisallowed) :: s.onSet h fun a => scanResponseReasons cfg a op d
  | .setExtAdvertisingEnable _ _ e sets =>
    (s.legacyInUse = true, .commandDisallowed) :: (handleReasons s [] sets ++ (e = true ∧ sets = [], .invalidHciCommandParameters) ::
      (if e then sets.flatMap (fun set => enableReasons s.resolvingList ((s.advSet set.handle).getD {}) set) else []))
  | .removeAdvertisingSet h => s.onSet h fun a => [(a.enable = true, .commandDisallowed)]
  | .clearAdvertisingSets => [(∃ h a, (h, a) ∈ s.extAdv ∧ a.enable = true, .commandDisallowed)]
  | .setPeriodicParameters h i j => s.onSet h fun a =>
    [(i < 6 ∨ j < 6 ∨ j < i ∨ NotPeriodic a, .invalidHciCommandParameters), (a.periodicEnable = true, .commandDisallowed),
     (1650 < a.periodicData.length, .packetTooLong)]
  | .setPeriodicData h op d => s.onSet h fun a => periodicDataReasons cfg a op d
  | .setPeriodicEnable _ e adi h => s.onSet h fun a =>
    if e then
      [(a.partialPeriodicData = true ∨ a.periodicInterval = 0, .commandDisallowed), (1650 < a.periodicData.length, .packetTooLong),
       (NotPeriodic a, .commandDisallowed), (adi = true ∧ cfg.supportsPeriodicAdvertisingAdi = false, .unsupportedFeatureOrParameterValue)]
    else []

end Verif.Le
