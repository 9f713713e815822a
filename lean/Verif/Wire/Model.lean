import Verif.Le.Step
import Verif.Pdl.LayoutsHci

/-!
# From the octets of an LE command to the call of the controller

Models the handlers of `DualModeController` for the commands of `Verif.Le`
(/repo/model/controller/dual_mode_controller.cc 1885-2060, 2147-2197, 2425-2677 and 3287-3410): each creates the view of its packet
(packets/hci_packets.pdl, in `Verif.Pdl`), hands the values of the fields to a function of the LE controller, and answers with an
event that has the status. The handler is found by the opcode (199-275, 4017-4547).

Simplifications.
* Values that are not among those of an enumeration are not followed (`none`), as in `Verif.Le`; likewise the three highest
  bits of the advertising event properties. Where the code compares a field with `Enable::ENABLED` any other value is false.
* `none` is also the outcome for octets that are not a valid packet (CHECK_PACKET_VIEW; `Verif.Hci` has that), for other
  opcodes, and for undefined behaviour of the called function.
* The checks of `HandleCommand` before the handler is called are in `Verif.Hci`.
* Other events of a command are not listed.
* The clock and the random numbers that a function uses are given with the command, as in `Verif.Le`.
-/
namespace Verif.Wire

open Verif.Le Verif.Pdl Verif.Pdl.Hci

/-- The clock and the random addresses a command uses. -/
structure Env where
  now : Nat
  rnd : Irk → Address
  rndAdv : Nat → Irk → Address

/-- The values of the fields of the command with this opcode and this body. -/
def fields (op : Nat) (f : Fmt) (l : List Nat) : Option f.T :=
  match parse ⟨"", [⟨bodyCommand, [(0, op)]⟩, ⟨f, []⟩]⟩ l with
  | some ((_, (v, _)), _) => some v
  | none => none

/-- hci_packets.pdl 3276-3279 and 4275-4278. -/
def peerType : Nat → Option PeerAddressType
  | 0 => some .pub
  | 1 => some .random
  | _ => none

/-- hci_packets.pdl 3289-3294. -/
def addressType : Nat → Option AddressType
  | 0 => some .publicDevice
  | 1 => some .randomDevice
  | 2 => some .publicIdentity
  | 3 => some .randomIdentity
  | _ => none

/-- hci_packets.pdl 3296-3301. -/
def ownType : Nat → Option OwnAddressType
  | 0 => some .pub
  | 1 => some .random
  | 2 => some .resolvableOrPublic
  | 3 => some .resolvableOrRandom
  | _ => none

/-- hci_packets.pdl 3451-3455. -/
def falType : Nat → Option FalAddressType
  | 0 => some .pub
  | 1 => some .random
  | 255 => some .anonymous
  | _ => none

/-- hci_packets.pdl 3281-3287. -/
def advType : Nat → Option AdvertisingType
  | 0 => some .advInd
  | 1 => some .advDirectIndHigh
  | 2 => some .advScanInd
  | 3 => some .advNonconnInd
  | 4 => some .advDirectIndLow
  | _ => none

/-- hci_packets.pdl 3269-3274. -/
def advPolicy : Nat → Option AdvertisingFilterPolicy
  | 0 => some .allDevices
  | 1 => some .listedScan
  | 2 => some .listedConnect
  | 3 => some .listedScanAndConnect
  | _ => none

/-- hci_packets.pdl 3360-3365. -/
def scanPolicy : Nat → Option ScanFilterPolicy
  | 0 => some .acceptAll
  | 1 => some .filterAcceptListOnly
  | 2 => some .checkInitiatorsIdentity
  | 3 => some .filterAcceptListAndInitiatorsIdentity
  | _ => none

/-- hci_packets.pdl 3396-3401. -/
def initPolicy : Nat → Option InitiatorFilterPolicy
  | 0 => some .usePeerAddress
  | 1 => some .useFilterAcceptListWithPeerAddress
  | 2 => some .useDecisionPdus
  | 3 => some .useFilterAcceptListWithDecisionPdus
  | _ => none

/-- hci_packets.pdl 4371-4374. -/
def privacy : Nat → Option PrivacyMode
  | 0 => some .network
  | 1 => some .device
  | _ => none

/-- hci_packets.pdl 3991-3997. The field has three bits. -/
def operation : Nat → Operation
  | 0 => .intermediateFragment
  | 1 => .firstFragment
  | 2 => .lastFragment
  | 3 => .completeAdvertisement
  | 4 => .unchangedData
  | _ => .other

/-- hci_packets.pdl 3914-3917. -/
def primary : Nat → Option PrimaryPhy
  | 1 => some .le1m
  | 3 => some .leCoded
  | _ => none

/-- hci_packets.pdl 3919-3924. -/
def secondary : Nat → Option SecondaryPhy
  | 0 => some .noPackets
  | 1 => some .le1m
  | 2 => some .le2m
  | 3 => some .leCoded
  | _ => none

/-- hci_packets.pdl 4193-4197. -/
def duplicates : Nat → Option FilterDuplicates
  | 0 => some .disabled
  | 1 => some .enabled
  | 2 => some .resetEachPeriod
  | _ => none

/-- hci_packets.pdl 3355-3358. -/
def scanType : Nat → Option ScanType
  | 0 => some .passive
  | 1 => some .active
  | _ => none

/-- `x == Enable::ENABLED`, and a field of one bit. -/
def enabled (n : Nat) : Bool := n == 1

/-- The octets of an array. -/
def data (xs : List (Nat × Unit)) : List UInt8 := xs.map (fun x => UInt8.ofNat x.1)

/-- `std::array<uint8_t, 16>` as a number, the first octet the lowest. -/
def key (xs : List (Nat × Unit)) : Irk := BitVec.ofNat 128 (xs.foldr (fun x n => x.1 + 256 * n) 0)

/-- Read all elements or none. -/
def every {α β : Type} (f : α → Option β) : List α → Option (List β)
  | [] => some []
  | x :: xs => match f x, every f xs with
    | some y, some ys => some (y :: ys)
    | _, _ => none

/-- `LeSetRandomAddress`, 1922-1932. -/
def leSetRandomAddress (l : List Nat) : Option Cmd := (fields 0x2005 bodyLeSetRandomAddress l).bind
  fun ((a, _) : Nat × Unit) => some (.setRandomAddress (BitVec.ofNat 48 a))

/-- `LeSetResolvablePrivateAddressTimeout`, 1899-1909. -/
def leSetRpaTimeout (l : List Nat) : Option Cmd := (fields 0x202e bodyLeSetResolvablePrivateAddressTimeout l).bind
  fun ((t, _) : Nat × Unit) => some (.setRpaTimeout t)

/-- `LeAddDeviceToResolvingList`, 2425-2439. -/
def leAddResolving (l : List Nat) : Option Cmd := (fields 0x2027 bodyLeAddDeviceToResolvingList l).bind
  fun ((t, a, pk, lk, _) : Nat × Nat × List (Nat × Unit) × List (Nat × Unit) × Unit) =>
    (peerType t).bind fun t => some (.addResolving t (BitVec.ofNat 48 a) (key pk) (key lk))

/-- `LeRemoveDeviceFromResolvingList`, 2441-2454. -/
def leRemoveResolving (l : List Nat) : Option Cmd := (fields 0x2028 bodyLeRemoveDeviceFromResolvingList l).bind
  fun ((t, a, _) : Nat × Nat × Unit) => (peerType t).bind fun t => some (.removeResolving t (BitVec.ofNat 48 a))

/-- `LeClearResolvingList`, 2188-2197. -/
def leClearResolving (l : List Nat) : Option Cmd := (fields 0x2029 bodyLeClearResolvingList l).bind
  fun (_ : Unit) => some .clearResolving

/-- `LeSetAddressResolutionEnable`, 1885-1897. -/
def leSetAddressResolutionEnable (l : List Nat) : Option Cmd := (fields 0x202d bodyLeSetAddressResolutionEnable l).bind
  fun ((e, _) : Nat × Unit) => some (.setAddressResolutionEnable (enabled e))

/-- `LeSetPrivacyMode`, 2663-2677. -/
def leSetPrivacyMode (l : List Nat) : Option Cmd := (fields 0x204e bodyLeSetPrivacyMode l).bind
  fun ((t, a, m, _) : Nat × Nat × Nat × Unit) =>
    (peerType t).bind fun t => (privacy m).bind fun m => some (.setPrivacyMode t (BitVec.ofNat 48 a) m)

/-- `LeClearFilterAcceptList`, 2147-2156. -/
def leClearFilterAccept (l : List Nat) : Option Cmd := (fields 0x2010 bodyLeClearFilterAcceptList l).bind
  fun (_ : Unit) => some .clearFilterAccept

/-- `LeAddDeviceToFilterAcceptList`, 2158-2171. -/
def leAddFilterAccept (l : List Nat) : Option Cmd := (fields 0x2011 bodyLeAddDeviceToFilterAcceptList l).bind
  fun ((t, a, _) : Nat × Nat × Unit) => (falType t).bind fun t => some (.addFilterAccept t (BitVec.ofNat 48 a))

/-- `LeRemoveDeviceFromFilterAcceptList`, 2173-2186. -/
def leRemoveFilterAccept (l : List Nat) : Option Cmd := (fields 0x2012 bodyLeRemoveDeviceFromFilterAcceptList l).bind
  fun ((t, a, _) : Nat × Nat × Unit) => (falType t).bind fun t => some (.removeFilterAccept t (BitVec.ofNat 48 a))

/-- `LeAddDeviceToPeriodicAdvertiserList`, 2540-2554. -/
def leAddPeriodicAdvertiser (l : List Nat) : Option Cmd := (fields 0x2047 bodyLeAddDeviceToPeriodicAdvertiserList l).bind
  fun ((t, a, sid, _) : Nat × Nat × Nat × Unit) =>
    (peerType t).bind fun t => some (.addPeriodicAdvertiser ⟨t, BitVec.ofNat 48 a, sid⟩)

/-- `LeRemoveDeviceFromPeriodicAdvertiserList`, 2556-2570. -/
def leRemovePeriodicAdvertiser (l : List Nat) : Option Cmd := (fields 0x2048 bodyLeRemoveDeviceFromPeriodicAdvertiserList l).bind
  fun ((t, a, sid, _) : Nat × Nat × Nat × Unit) =>
    (peerType t).bind fun t => some (.removePeriodicAdvertiser ⟨t, BitVec.ofNat 48 a, sid⟩)

/-- `LeClearPeriodicAdvertiserList`, 2572-2581. -/
def leClearPeriodicAdvertiser (l : List Nat) : Option Cmd := (fields 0x2049 bodyLeClearPeriodicAdvertiserList l).bind
  fun (_ : Unit) => some .clearPeriodicAdvertiser

/-- `LePeriodicAdvertisingCreateSync`, 2499-2514. The called function does not use the skip. -/
def leCreateSync (l : List Nat) : Option Cmd := (fields 0x2044 bodyLePeriodicAdvertisingCreateSync l).bind
  fun (((u, r, d, _), sid, t, a, _, timeout, cte, _) :
      (Nat × Nat × Nat × Unit) × Nat × Nat × Nat × Nat × Nat × Nat × Unit) =>
    (peerType t).bind fun t =>
      some (.createSync ⟨enabled u, enabled r, enabled d⟩ ⟨t, BitVec.ofNat 48 a, sid⟩ timeout cte)

/-- `LePeriodicAdvertisingCreateSyncCancel`, 2516-2525. -/
def leCreateSyncCancel (l : List Nat) : Option Cmd := (fields 0x2045 bodyLePeriodicAdvertisingCreateSyncCancel l).bind
  fun (_ : Unit) => some .createSyncCancel

/-- `LePeriodicAdvertisingTerminateSync`, 2527-2538. -/
def leTerminateSync (l : List Nat) : Option Cmd := (fields 0x2046 bodyLePeriodicAdvertisingTerminateSync l).bind
  fun ((h, _) : Nat × Unit) => some (.terminateSync h)

/-- `LeSetScanParameters`, 1996-2008. -/
def leSetScanParameters (l : List Nat) : Option Cmd := (fields 0x200b bodyLeSetScanParameters l).bind
  fun ((t, i, w, o, p, _) : Nat × Nat × Nat × Nat × Nat × Unit) =>
    (scanType t).bind fun t => (ownType o).bind fun o => (scanPolicy p).bind fun p => some (.setScanParameters t i w o p)

/-- `LeSetScanEnable`, 2010-2022. -/
def leSetScanEnable (l : List Nat) : Option Cmd := (fields 0x200c bodyLeSetScanEnable l).bind
  fun ((e, d, _) : Nat × Nat × Unit) => some (.setScanEnable (enabled e) (enabled d))

/-- `ScanningPhyParameters`, hci_packets.pdl 4167-4171. -/
def scanPhy : Nat × Nat × Nat × Unit → Option ScanPhyParams
  | (t, i, w, _) => (scanType t).bind fun t => some ⟨t, i, w⟩

/-- `LeSetExtendedScanParameters`, 2593-2604. -/
def leSetExtendedScanParameters (l : List Nat) : Option Cmd := (fields 0x2041 bodyLeSetExtendedScanParameters l).bind
  fun ((o, p, phys, ps, _) : Nat × Nat × Nat × List (Nat × Nat × Nat × Unit) × Unit) =>
    (ownType o).bind fun o => (scanPolicy p).bind fun p => (every scanPhy ps).bind fun ps =>
      some (.setExtendedScanParameters o p (UInt8.ofNat phys) ps)

/-- `LeSetExtendedScanEnable`, 2606-2618. -/
def leSetExtendedScanEnable (x : Env) (l : List Nat) : Option Cmd := (fields 0x2042 bodyLeSetExtendedScanEnable l).bind
  fun ((e, d, duration, period, _) : Nat × Nat × Nat × Nat × Unit) =>
    (duplicates d).bind fun d => some (.setExtendedScanEnable x.now (enabled e) d duration period)

/-- `LeCreateConnection`, 2024-2049. -/
def leCreateConnection (x : Env) (l : List Nat) : Option Cmd := (fields 0x200d bodyLeCreateConnection l).bind
  fun ((si, sw, pol, t, a, o, imin, imax, lat, timeout, cmin, cmax, _) :
      Nat × Nat × Nat × Nat × Nat × Nat × Nat × Nat × Nat × Nat × Nat × Nat × Unit) =>
    (initPolicy pol).bind fun pol => (addressType t).bind fun t => (ownType o).bind fun o =>
      some (.createConnection x.rnd pol ⟨BitVec.ofNat 48 a, t⟩ o ⟨si, sw, imin, imax, lat, timeout, cmin, cmax⟩)

/-- `LeCreateConnectionCancel`, 2051-2060. -/
def leCreateConnectionCancel (l : List Nat) : Option Cmd := (fields 0x200e bodyLeCreateConnectionCancel l).bind
  fun (_ : Unit) => some .createConnectionCancel

/-- `InitiatingPhyParameters`, hci_packets.pdl 4219-4228. -/
def initPhy : Nat × Nat × Nat × Nat × Nat × Nat × Nat × Nat × Unit → ConnParams
  | (si, sw, imin, imax, lat, timeout, cmin, cmax, _) => ⟨si, sw, imin, imax, lat, timeout, cmin, cmax⟩

/-- The `switch` of 2631-2640. -/
def peerDevice : Nat → AddressType
  | 1 => .randomDevice
  | _ => .publicDevice

/-- `LeExtendedCreateConnectionV1`, 2620-2651. -/
def leExtendedCreateConnection (x : Env) (l : List Nat) : Option Cmd := (fields 0x2043 bodyLeExtendedCreateConnectionV1 l).bind
  fun ((pol, o, t, a, phys, ps, _) : Nat × Nat × Nat × Nat × Nat ×
      List (Nat × Nat × Nat × Nat × Nat × Nat × Nat × Nat × Unit) × Unit) =>
    (initPolicy pol).bind fun pol => (ownType o).bind fun o =>
      some (.extendedCreateConnection x.rnd pol o ⟨BitVec.ofNat 48 a, peerDevice t⟩ (UInt8.ofNat phys) (ps.map initPhy))

/-- `LeSetAdvertisingParameters`, 1934-1947. -/
def leSetAdvertisingParameters (l : List Nat) : Option Cmd := (fields 0x2006 bodyLeSetAdvertisingParameters l).bind
  fun ((imin, imax, t, o, pt, a, map, pol, _) : Nat × Nat × Nat × Nat × Nat × Nat × Nat × Nat × Unit) =>
    (advType t).bind fun t => (ownType o).bind fun o => (peerType pt).bind fun pt => (advPolicy pol).bind fun pol =>
      some (.setAdvertisingParameters ⟨imin, imax, t, o, pt, BitVec.ofNat 48 a, map, pol⟩)

/-- `LeSetAdvertisingData`, 1960-1969. -/
def leSetAdvertisingData (l : List Nat) : Option Cmd := (fields 0x2008 bodyLeSetAdvertisingData l).bind
  fun ((d, _) : List (Nat × Unit) × Unit) => some (.setAdvertisingData (data d))

/-- `LeSetScanResponseData`, 1971-1980. -/
def leSetScanResponseData (l : List Nat) : Option Cmd := (fields 0x2009 bodyLeSetScanResponseData l).bind
  fun ((d, _) : List (Nat × Unit) × Unit) => some (.setScanResponseData (data d))

/-- `LeSetAdvertisingEnable`, 1982-1994. -/
def leSetAdvertisingEnable (x : Env) (l : List Nat) : Option Cmd := (fields 0x200a bodyLeSetAdvertisingEnable l).bind
  fun ((e, _) : Nat × Unit) => some (.setAdvertisingEnable x.now x.rndAdv (enabled e))

/-- `LeSetAdvertisingSetRandomAddress`, 3287-3299. -/
def leSetAdvertisingSetRandomAddress (l : List Nat) : Option Cmd := (fields 0x2035 bodyLeSetAdvertisingSetRandomAddress l).bind
  fun ((h, a, _) : Nat × Nat × Unit) => some (.setAdvertisingSetRandomAddress (UInt8.ofNat h) (BitVec.ofNat 48 a))

/-- `AdvertisingEventProperties`, hci_packets.pdl 3900-3912. -/
def properties : Nat × Nat × Nat × Nat × Nat × Nat × Nat × Nat × Nat × Nat × Unit → Option EventProperties
  | (c, s, d, h, l, a, t, 0, 0, 0, _) => some ⟨enabled c, enabled s, enabled d, enabled h, enabled l, enabled a, enabled t⟩
  | _ => none

/-- `LeSetExtendedAdvertisingParametersV1`, 3301-3322. -/
def leSetExtAdvertisingParameters (l : List Nat) : Option Cmd := (fields 0x2036 bodyLeSetExtendedAdvertisingParametersV1 l).bind
  fun ((h, q, imin, imax, map, o, pt, a, pol, tx, pri, skip, sec, sid, n, _) :
      Nat × (Nat × Nat × Nat × Nat × Nat × Nat × Nat × Nat × Nat × Nat × Unit) × Nat × Nat × Nat × Nat × Nat × Nat × Nat × Nat ×
      Nat × Nat × Nat × Nat × Nat × Unit) =>
    (properties q).bind fun q => (ownType o).bind fun o => (peerType pt).bind fun pt => (advPolicy pol).bind fun pol =>
      (primary pri).bind fun pri => (secondary sec).bind fun sec =>
      some (.setExtAdvertisingParameters (UInt8.ofNat h)
        ⟨q, imin, imax, map, o, pt, BitVec.ofNat 48 a, pol, tx, pri, skip, sec, sid, enabled n⟩)

/-- `LeSetExtendedAdvertisingData`, 3324-3336. The called function does not use the fragment preference. -/
def leSetExtAdvertisingData (l : List Nat) : Option Cmd := (fields 0x2037 bodyLeSetExtendedAdvertisingData l).bind
  fun ((h, op, _, d, _) : Nat × Nat × Nat × List (Nat × Unit) × Unit) =>
    some (.setExtAdvertisingData (UInt8.ofNat h) (operation op) (data d))

/-- `LeSetExtendedScanResponseData`, 3338-3350. The called function does not use the fragment preference. -/
def leSetExtScanResponseData (l : List Nat) : Option Cmd := (fields 0x2038 bodyLeSetExtendedScanResponseData l).bind
  fun ((h, op, _, d, _) : Nat × Nat × Nat × List (Nat × Unit) × Unit) =>
    some (.setExtScanResponseData (UInt8.ofNat h) (operation op) (data d))

/-- `EnabledSet`, hci_packets.pdl 4045-4049. -/
def enabledSet : Nat × Nat × Nat × Unit → EnabledSet
  | (h, d, m, _) => ⟨UInt8.ofNat h, d, m⟩

/-- `LeSetExtendedAdvertisingEnable`, 3352-3367. -/
def leSetExtAdvertisingEnable (x : Env) (l : List Nat) : Option Cmd := (fields 0x2039 bodyLeSetExtendedAdvertisingEnable l).bind
  fun ((e, sets, _) : Nat × List (Nat × Nat × Nat × Unit) × Unit) =>
    some (.setExtAdvertisingEnable x.now x.rndAdv (enabled e) (sets.map enabledSet))

/-- `LeRemoveAdvertisingSet`, 3389-3399. -/
def leRemoveAdvertisingSet (l : List Nat) : Option Cmd := (fields 0x203c bodyLeRemoveAdvertisingSet l).bind
  fun ((h, _) : Nat × Unit) => some (.removeAdvertisingSet (UInt8.ofNat h))

/-- `LeClearAdvertisingSets`, 3401-3410. -/
def leClearAdvertisingSets (l : List Nat) : Option Cmd := (fields 0x203d bodyLeClearAdvertisingSets l).bind
  fun (_ : Unit) => some .clearAdvertisingSets

/-- `LeSetPeriodicAdvertisingParametersV1`, 2456-2468. The called function does not use the flag for the transmit power. -/
def leSetPeriodicParameters (l : List Nat) : Option Cmd := (fields 0x203e bodyLeSetPeriodicAdvertisingParametersV1 l).bind
  fun ((h, imin, imax, _, _) : Nat × Nat × Nat × Nat × Unit) => some (.setPeriodicParameters (UInt8.ofNat h) imin imax)

/-- `LeSetPeriodicAdvertisingData`, 2470-2482. -/
def leSetPeriodicData (l : List Nat) : Option Cmd := (fields 0x203f bodyLeSetPeriodicAdvertisingData l).bind
  fun ((h, op, d, _) : Nat × Nat × List (Nat × Unit) × Unit) =>
    some (.setPeriodicData (UInt8.ofNat h) (operation op) (data d))

/-- `LeSetPeriodicAdvertisingEnable`, 2484-2497. -/
def leSetPeriodicEnable (x : Env) (l : List Nat) : Option Cmd := (fields 0x2040 bodyLeSetPeriodicAdvertisingEnable l).bind
  fun ((e, adi, h, _) : Nat × Nat × Nat × Unit) =>
    some (.setPeriodicEnable x.now (enabled e) (enabled adi) (UInt8.ofNat h))

/-- `GetOpCode` of the command, 200-203. -/
def opcode : List Nat → Nat
  | a :: b :: _ => a + 256 * b
  | _ => 0

/-- The handler of the opcode, 4017-4547, up to the call. -/
def command (x : Env) (l : List Nat) : Option Cmd := match opcode l with
  | 0x2005 => leSetRandomAddress l
  | 0x2006 => leSetAdvertisingParameters l
  | 0x2008 => leSetAdvertisingData l
  | 0x2009 => leSetScanResponseData l
  | 0x200a => leSetAdvertisingEnable x l
  | 0x200b => leSetScanParameters l
  | 0x200c => leSetScanEnable l
  | 0x200d => leCreateConnection x l
  | 0x200e => leCreateConnectionCancel l
  | 0x2010 => leClearFilterAccept l
  | 0x2011 => leAddFilterAccept l
  | 0x2012 => leRemoveFilterAccept l
  | 0x2027 => leAddResolving l
  | 0x2028 => leRemoveResolving l
  | 0x2029 => leClearResolving l
  | 0x202d => leSetAddressResolutionEnable l
  | 0x202e => leSetRpaTimeout l
  | 0x2035 => leSetAdvertisingSetRandomAddress l
  | 0x2036 => leSetExtAdvertisingParameters l
  | 0x2037 => leSetExtAdvertisingData l
  | 0x2038 => leSetExtScanResponseData l
  | 0x2039 => leSetExtAdvertisingEnable x l
  | 0x203c => leRemoveAdvertisingSet l
  | 0x203d => leClearAdvertisingSets l
  | 0x203e => leSetPeriodicParameters l
  | 0x203f => leSetPeriodicData l
  | 0x2040 => leSetPeriodicEnable x l
  | 0x2041 => leSetExtendedScanParameters l
  | 0x2042 => leSetExtendedScanEnable x l
  | 0x2043 => leExtendedCreateConnection x l
  | 0x2044 => leCreateSync l
  | 0x2045 => leCreateSyncCancel l
  | 0x2046 => leTerminateSync l
  | 0x2047 => leAddPeriodicAdvertiser l
  | 0x2048 => leRemovePeriodicAdvertiser l
  | 0x2049 => leClearPeriodicAdvertiser l
  | 0x204e => leSetPrivacyMode l
  | _ => none

/-- `ErrorCode`, hci_packets.pdl 919-967. -/
def code : Status → Nat
  | .success => 0x00
  | .unknownConnection => 0x02
  | .memoryCapacityExceeded => 0x07
  | .connectionAlreadyExists => 0x0b
  | .commandDisallowed => 0x0c
  | .unsupportedFeatureOrParameterValue => 0x11
  | .invalidHciCommandParameters => 0x12
  | .connectionFailedEstablishment => 0x3e
  | .unknownAdvertisingIdentifier => 0x42
  | .packetTooLong => 0x45

/-- The octets of a Command Complete event with a status; kNumCommandPackets is 1. -/
def complete (op st : Nat) : List Nat :=
  serialize ⟨"", [⟨bodyEvent, [(0, 14)]⟩, ⟨bodyCommandComplete, [(1, op)]⟩, ⟨bodyLeSetRandomAddressComplete, []⟩]⟩
    ((14, ()), (1, op, ()), (st, ()), ()) []

/-- The octets of the Command Complete event of LE Set Extended Advertising Parameters, 3318-3321. -/
def completeTx (op st tx : Nat) : List Nat :=
  serialize ⟨"", [⟨bodyEvent, [(0, 14)]⟩, ⟨bodyCommandComplete, [(1, op)]⟩, ⟨bodyLeSetExtendedAdvertisingParametersV1Complete, []⟩]⟩
    ((14, ()), (1, op, ()), (st, tx, ()), ()) []

/-- The octets of a Command Status event. -/
def status (op st : Nat) : List Nat :=
  serialize ⟨"", [⟨bodyEvent, [(0, 15)]⟩, ⟨bodyCommandStatus, [(2, op)]⟩, ⟨bodyLeCreateConnectionStatus, []⟩]⟩
    ((15, ()), (st, 1, op, ()), (), ()) []

/-- The answer of the handlers: those for LE Create Connection, LE Extended Create Connection and LE Periodic Advertising Create
Sync send a Command Status event, the others a Command Complete event. -/
def answer (op st : Nat) : Cmd → List Nat
  | .createConnection .. => status op st
  | .extendedCreateConnection .. => status op st
  | .createSync .. => status op st
  | .setExtAdvertisingParameters _ p => completeTx op st p.txPower
  | _ => complete op st

/-- A command: the state it leaves and the octets of the answer. -/
def handle (cfg : Config) (x : Env) (s : State) (l : List Nat) : Option (State × List Nat) := match command x l with
  | none => none
  | some c => match runCmd cfg s c with
    | .ub => none
    | .ret s' st => some (s', answer (opcode l) (code st) c)

/-- A list of commands, each with the clock and the random numbers of its call; the answers in the order of the commands. -/
def serve (cfg : Config) : List (Env × List Nat) → State → Option (State × List (List Nat))
  | [], s => some (s, [])
  | (x, l) :: ls, s => match handle cfg x s l with
    | none => none
    | some (s', out) => (serve cfg ls s').map (fun r => (r.1, out :: r.2))

end Verif.Wire
