import Verif.Le.Basic
/-!
# LE command layer: address lists

Model of the filter accept list, resolving list and periodic advertiser list
commands and of the periodic synchronization commands.
-/

namespace Verif.Le

/-- `AddressWithType::ToPeerAddressType` (address_with_type.h 87-97). -/
def AddressWithType.toPeerType (a : AddressWithType) : PeerAddressType :=
  match a.type with
  | .publicDevice | .publicIdentity => .pub
  | .randomDevice | .randomIdentity => .random

/-- `PeerDeviceAddress` (le_controller.cc 123-130). -/
def peerDeviceAddress (a : Address) : PeerAddressType → AddressWithType
  | .pub => ⟨a, .publicDevice⟩
  | .random => ⟨a, .randomDevice⟩

/-- `IrkSelection` (le_controller.h). -/
inductive IrkSelection where
  | loc | peer
  deriving DecidableEq, Repr

/-- `GenerateResolvablePrivateAddress` (le_controller.cc 315-335). `rnd` is the
address `generate_rpa` returns for each key in this call (le_controller.cc
4310-4340); it is an arbitrary function here. Returns the updated list. -/
def generateRpa (rnd : Irk → Address) (a : AddressWithType) (sel : IrkSelection) :
    List RlEntry → List RlEntry × Option AddressWithType
  | [] => ([], none)
  | e :: l =>
    if a.address = e.peerAddress ∧ a.toPeerType = e.peerType then
      match sel with
      | .loc => ({ e with localRpa := some (rnd e.localIrk) } :: l, some ⟨rnd e.localIrk, .randomDevice⟩)
      | .peer => (e :: l, some ⟨rnd e.peerIrk, .randomDevice⟩)
    else
      let r := generateRpa rnd a sel l
      (e :: r.1, r.2)

/-- `FilterAcceptListBusy` (le_controller.cc 159-196). -/
def filterAcceptListBusy (s : State) : Bool :=
  (s.legacyAdv.enable && s.legacyAdv.filterPolicy != .allDevices) ||
  s.extAdv.any (fun e => e.2.enable && e.2.filterPolicy != .allDevices) ||
  (s.scanner.enable && (s.scanner.filterPolicy == .filterAcceptListOnly ||
    s.scanner.filterPolicy == .filterAcceptListAndInitiatorsIdentity)) ||
  (s.initiator.enable && s.initiator.filterPolicy == .useFilterAcceptListWithPeerAddress)

/-- `ResolvingListBusy` (le_controller.cc 241-266). -/
def resolvingListBusy (s : State) : Bool :=
  s.legacyAdv.enable || s.extAdv.any (fun e => e.2.enable) || s.scanner.enable ||
  s.initiator.enable

/-! ### Resolving list -/

/-- `LeAddDeviceToResolvingList` (le_controller.cc 720-769). -/
def addResolving (cfg : Config) (s : State) (t : PeerAddressType) (a : Address)
    (peerIrk localIrk : Irk) : State × Status :=
  checked
    [(s.resolvingListEnabled && resolvingListBusy s, .commandDisallowed),
     (decide (s.resolvingList.length ≥ cfg.resolvingListSize), .memoryCapacityExceeded),
     (s.resolvingList.any (fun e => (e.peerType == t && e.peerAddress == a) ||
        (e.peerIrk == peerIrk && peerIrk != 0)), .invalidHciCommandParameters)]
    s { s with resolvingList := s.resolvingList ++ [⟨t, a, peerIrk, localIrk, .network, none, none⟩] }

/-- `LeRemoveDeviceFromResolvingList` (le_controller.cc 772-798). -/
def removeResolving (s : State) (t : PeerAddressType) (a : Address) : State × Status :=
  checked
    [(s.resolvingListEnabled && resolvingListBusy s, .commandDisallowed),
     (!s.resolvingList.any (fun e => e.peerType == t && e.peerAddress == a), .unknownConnection)]
    s { s with resolvingList := s.resolvingList.eraseP (fun e => e.peerType == t && e.peerAddress == a) }

/-- `LeClearResolvingList` (le_controller.cc 801-817). -/
def clearResolving (s : State) : State × Status :=
  checked [(s.resolvingListEnabled && resolvingListBusy s, .commandDisallowed)]
    s { s with resolvingList := [] }

/-- `LeReadPeerResolvableAddress` (le_controller.cc 820-840): the address read. -/
def readPeerRpa (s : State) (t : PeerAddressType) (a : Address) : Option Address :=
  s.resolvingList.findSome? (fun e =>
    if e.peerType = t ∧ e.peerAddress = a then e.peerRpa else none)

/-- `LeReadLocalResolvableAddress` (le_controller.cc 843-863): the address read. -/
def readLocalRpa (s : State) (t : PeerAddressType) (a : Address) : Option Address :=
  s.resolvingList.findSome? (fun e =>
    if e.peerType = t ∧ e.peerAddress = a then e.localRpa else none)

/-- `LeSetAddressResolutionEnable` (le_controller.cc 866-882). -/
def setAddressResolutionEnable (s : State) (enable : Bool) : State × Status :=
  checked [(resolvingListBusy s, .commandDisallowed)] s { s with resolvingListEnabled := enable }

/-- Update the first entry that satisfies the predicate. -/
def modifyFirst {α : Type} (p : α → Bool) (f : α → α) : List α → List α
  | [] => []
  | a :: l => if p a then f a :: l else a :: modifyFirst p f l

/-- `LeSetPrivacyMode` (le_controller.cc 885-914). -/
def setPrivacyMode (s : State) (t : PeerAddressType) (a : Address) (m : PrivacyMode) :
    State × Status :=
  checked
    [(s.resolvingListEnabled && resolvingListBusy s, .commandDisallowed),
     (!s.resolvingList.any (fun e => e.peerType == t && e.peerAddress == a), .unknownConnection)]
    s { s with resolvingList := modifyFirst (fun e => e.peerType == t && e.peerAddress == a) (fun e => { e with privacyMode := m }) s.resolvingList }

/-! ### Filter accept list -/

/-- The match used by `LeFilterAcceptListContainsDevice` (le_controller.cc
198-209) and `LeRemoveDeviceFromFilterAcceptList` (990-994). -/
def falMatches (t : FalAddressType) (a : Address) (e : FalEntry) : Bool :=
  e.type == t && (t == .anonymous || e.address == a)

/-- `LeFilterAcceptListContainsDevice` (le_controller.cc 198-209). -/
def filterAcceptListContains (s : State) (t : FalAddressType) (a : Address) : Bool :=
  s.filterAcceptList.any (falMatches t a)

/-- `LeClearFilterAcceptList` (le_controller.cc 921-939). -/
def clearFilterAccept (s : State) : State × Status :=
  checked [(filterAcceptListBusy s, .commandDisallowed)] s { s with filterAcceptList := [] }

/-- `LeAddDeviceToFilterAcceptList` (le_controller.cc 942-970). -/
def addFilterAccept (cfg : Config) (s : State) (t : FalAddressType) (a : Address) :
    State × Status :=
  checked
    [(filterAcceptListBusy s, .commandDisallowed),
     (decide (s.filterAcceptList.length ≥ cfg.filterAcceptListSize), .memoryCapacityExceeded)]
    s { s with filterAcceptList := s.filterAcceptList ++ [⟨t, a⟩] }

/-- `LeRemoveDeviceFromFilterAcceptList` (le_controller.cc 973-1003). -/
def removeFilterAccept (s : State) (t : FalAddressType) (a : Address) : State × Status :=
  checked [(filterAcceptListBusy s, .commandDisallowed)]
    s { s with filterAcceptList := s.filterAcceptList.eraseP (falMatches t a) }

/-! ### Periodic advertiser list -/

/-- `LeAddDeviceToPeriodicAdvertiserList` (le_controller.cc 1011-1045). -/
def addPeriodicAdvertiser (cfg : Config) (s : State) (e : PalEntry) : State × Status :=
  checked
    [(s.synchronizing.isSome, .commandDisallowed),
     (decide (s.periodicAdvertiserList.length ≥ cfg.periodicAdvertiserListSize), .memoryCapacityExceeded),
     (s.periodicAdvertiserList.any (fun e' => e' == e), .invalidHciCommandParameters)]
    s { s with periodicAdvertiserList := s.periodicAdvertiserList ++ [e] }

/-- `LeRemoveDeviceFromPeriodicAdvertiserList` (le_controller.cc 1048-1073). -/
def removePeriodicAdvertiser (s : State) (e : PalEntry) : State × Status :=
  checked
    [(s.synchronizing.isSome, .commandDisallowed),
     (!s.periodicAdvertiserList.any (fun e' => e' == e), .unknownAdvertisingIdentifier)]
    s { s with periodicAdvertiserList := s.periodicAdvertiserList.eraseP (fun e' => e' == e) }

/-- `LeClearPeriodicAdvertiserList` (le_controller.cc 1076-1087). -/
def clearPeriodicAdvertiser (s : State) : State × Status :=
  checked [(s.synchronizing.isSome, .commandDisallowed)] s { s with periodicAdvertiserList := [] }

/-! ### Periodic synchronization -/

/-- `LePeriodicAdvertisingCreateSync` (le_controller.cc 1094-1173). -/
def createSync (cfg : Config) (s : State) (o : SyncOptions) (adv : PalEntry)
    (syncTimeout cteType : Nat) : State × Status :=
  checked
    [(s.synchronizing.isSome, .commandDisallowed),
     (cteType &&& 0x1f == 0x1f, .commandDisallowed),
     (!o.useList && s.synchronized.any (fun e => e.2.advertiser == adv), .connectionAlreadyExists),
     (!o.disableReporting && o.duplicateFiltering && !cfg.supportsPeriodicAdvertisingAdi,
        .unsupportedFeatureOrParameterValue),
     (o.disableReporting && !cfg.supportsSetPeriodicAdvertisingReceiveEnable,
        .connectionFailedEstablishment)]
    s { s with synchronizing := some ⟨o, adv, 10000 * syncTimeout⟩ }

/-- `LePeriodicAdvertisingCreateSyncCancel` (le_controller.cc 1177-1201); the
Sync Established event it schedules is not part of this model. -/
def createSyncCancel (s : State) : State × Status :=
  checked [(s.synchronizing.isNone, .commandDisallowed)] s { s with synchronizing := none }

/-- `LePeriodicAdvertisingTerminateSync` (le_controller.cc 1205-1216). -/
def terminateSync (s : State) (h : Nat) : State × Status :=
  checked [((mapFind s.synchronized h).isNone, .unknownAdvertisingIdentifier)]
    s { s with synchronized := mapErase s.synchronized h }

/-! ### Other commands on the common state -/

/-- `LeSetRandomAddress` (le_controller.cc 359-375). -/
def setRandomAddress (s : State) (a : Address) : State × Status :=
  checked
    [(s.legacyAdv.enable || s.scanner.enable || s.initiator.enable, .commandDisallowed),
     (a == 0, .invalidHciCommandParameters)]
    s { s with randomAddress := a }

/-- `LeSetResolvablePrivateAddressTimeout` (le_controller.cc 378-390). -/
def setRpaTimeout (s : State) (t : Nat) : State × Status :=
  checked [(decide (t < 1 ∨ t > 0xe10), .invalidHciCommandParameters)]
    s { s with rpaTimeout := t }

end Verif.Le
