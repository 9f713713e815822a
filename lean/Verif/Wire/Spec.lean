import Verif.Le.Step

/-!
# The octets of LE commands (C126)

Bluetooth Core Specification, Volume 4, Part E, sections 5.4.1, 7.7.14, 7.7.15 and 7.8: which octets a host sends for a command,
and which octets answer it. This file does not refer to the packet description files.
-/
namespace Verif.Wire

open Verif.Le

/-- A number in `k` octets, the lowest first. -/
def le : Nat → Nat → List Nat
  | 0, _ => []
  | k + 1, n => n % 256 :: le k (n / 256)

/-- A yes or no in an octet or bit. -/
def yes (b : Bool) : Nat := if b then 1 else 0

/-- Parameters of commands that make no difference to this controller: the skip of LE Periodic Advertising Create Sync, the
fragment preference, Include TxPower of periodic advertising; and the number, 5, 6 or 7, for an operation that does not exist. -/
structure Unused where
  skip : Nat
  fragment : Bool
  txPower : Bool
  noOperation : Nat

/-- Peer_Address_Type, Advertiser_Address_Type, Peer_Identity_Address_Type. -/
def ofPeer : PeerAddressType → Nat
  | .pub => 0x00
  | .random => 0x01

/-- Peer_Address_Type of LE Create Connection. -/
def ofType : AddressType → Nat
  | .publicDevice => 0x00
  | .randomDevice => 0x01
  | .publicIdentity => 0x02
  | .randomIdentity => 0x03

/-- Own_Address_Type. -/
def ofOwn : OwnAddressType → Nat
  | .pub => 0x00
  | .random => 0x01
  | .resolvableOrPublic => 0x02
  | .resolvableOrRandom => 0x03

/-- Address_Type of the filter accept list. -/
def ofFal : FalAddressType → Nat
  | .pub => 0x00
  | .random => 0x01
  | .anonymous => 0xff

/-- Advertising_Type. -/
def ofAdv : AdvertisingType → Nat
  | .advInd => 0x00
  | .advDirectIndHigh => 0x01
  | .advScanInd => 0x02
  | .advNonconnInd => 0x03
  | .advDirectIndLow => 0x04

/-- Advertising_Filter_Policy: bit 0 for scan requests, bit 1 for connection requests. -/
def ofAdvPolicy : AdvertisingFilterPolicy → Nat
  | .allDevices => 0x00
  | .listedScan => 0x01
  | .listedConnect => 0x02
  | .listedScanAndConnect => 0x03

/-- Scanning_Filter_Policy: bit 0 for the filter accept list, bit 1 for directed advertising to resolvable addresses. -/
def ofScanPolicy : ScanFilterPolicy → Nat
  | .acceptAll => 0x00
  | .filterAcceptListOnly => 0x01
  | .checkInitiatorsIdentity => 0x02
  | .filterAcceptListAndInitiatorsIdentity => 0x03

/-- Initiator_Filter_Policy. -/
def ofInit : InitiatorFilterPolicy → Nat
  | .usePeerAddress => 0x00
  | .useFilterAcceptListWithPeerAddress => 0x01
  | .useDecisionPdus => 0x02
  | .useFilterAcceptListWithDecisionPdus => 0x03

/-- Privacy_Mode. -/
def ofPrivacy : PrivacyMode → Nat
  | .network => 0x00
  | .device => 0x01

/-- Operation. -/
def ofOperation (x : Unused) : Operation → Nat
  | .intermediateFragment => 0x00
  | .firstFragment => 0x01
  | .lastFragment => 0x02
  | .completeAdvertisement => 0x03
  | .unchangedData => 0x04
  | .other => x.noOperation

/-- Primary_Advertising_PHY. -/
def ofPrimary : PrimaryPhy → Nat
  | .le1m => 0x01
  | .leCoded => 0x03

/-- Secondary_Advertising_PHY. -/
def ofSecondary : SecondaryPhy → Nat
  | .noPackets => 0x00
  | .le1m => 0x01
  | .le2m => 0x02
  | .leCoded => 0x03

/-- Filter_Duplicates. -/
def ofDuplicates : FilterDuplicates → Nat
  | .disabled => 0x00
  | .enabled => 0x01
  | .resetEachPeriod => 0x02

/-- LE_Scan_Type. -/
def ofScan : ScanType → Nat
  | .passive => 0x00
  | .active => 0x01

/-- Advertising_Event_Properties, 7.8.53. -/
def ofProperties (q : EventProperties) : Nat :=
  yes q.connectable + 2 * yes q.scannable + 4 * yes q.directed + 8 * yes q.highDutyCycle + 16 * yes q.legacy +
    32 * yes q.anonymous + 64 * yes q.includeTxPower

/-- An address. -/
def ofAddress (a : Address) : List Nat := le 6 a.toNat

/-- A key. -/
def ofKey (k : Irk) : List Nat := le 16 k.toNat

/-- Advertising data. -/
def ofData (d : List UInt8) : List Nat := d.map UInt8.toNat

/-- The data of legacy advertising: its length, and 31 octets. -/
def ofLegacy (d : List UInt8) : List Nat := d.length :: (ofData d ++ List.replicate (31 - d.length) 0)

/-- The parameters of one PHY of LE Extended Create Connection, 7.8.66; also the order of LE Create Connection, 7.8.12, where
others stand between the window and the interval. -/
def ofConn (p : ConnParams) : List Nat :=
  le 2 p.scanInterval ++ le 2 p.scanWindow ++ le 2 p.intervalMin ++ le 2 p.intervalMax ++ le 2 p.maxLatency ++
    le 2 p.supervisionTimeout ++ le 2 p.minCeLength ++ le 2 p.maxCeLength

/-- The opcodes: the OGF is 0x08, the OCF is in the headings of 7.8. -/
def number (c : Cmd) : Nat := 0x08 * 1024 + match c with
  | .setRandomAddress .. => 0x0005
  | .setAdvertisingParameters .. => 0x0006
  | .setAdvertisingData .. => 0x0008
  | .setScanResponseData .. => 0x0009
  | .setAdvertisingEnable .. => 0x000a
  | .setScanParameters .. => 0x000b
  | .setScanEnable .. => 0x000c
  | .createConnection .. => 0x000d
  | .createConnectionCancel => 0x000e
  | .clearFilterAccept => 0x0010
  | .addFilterAccept .. => 0x0011
  | .removeFilterAccept .. => 0x0012
  | .addResolving .. => 0x0027
  | .removeResolving .. => 0x0028
  | .clearResolving => 0x0029
  | .setAddressResolutionEnable .. => 0x002d
  | .setRpaTimeout .. => 0x002e
  | .setAdvertisingSetRandomAddress .. => 0x0035
  | .setExtAdvertisingParameters .. => 0x0036
  | .setExtAdvertisingData .. => 0x0037
  | .setExtScanResponseData .. => 0x0038
  | .setExtAdvertisingEnable .. => 0x0039
  | .removeAdvertisingSet .. => 0x003c
  | .clearAdvertisingSets => 0x003d
  | .setPeriodicParameters .. => 0x003e
  | .setPeriodicData .. => 0x003f
  | .setPeriodicEnable .. => 0x0040
  | .setExtendedScanParameters .. => 0x0041
  | .setExtendedScanEnable .. => 0x0042
  | .extendedCreateConnection .. => 0x0043
  | .createSync .. => 0x0044
  | .createSyncCancel => 0x0045
  | .terminateSync .. => 0x0046
  | .addPeriodicAdvertiser .. => 0x0047
  | .removePeriodicAdvertiser .. => 0x0048
  | .clearPeriodicAdvertiser => 0x0049
  | .setPrivacyMode .. => 0x004e

/-- The parameters of a command. -/
def parameters (x : Unused) : Cmd → List Nat
  | .setRandomAddress a => ofAddress a
  | .setAdvertisingParameters p =>
    le 2 p.intervalMin ++ le 2 p.intervalMax ++ [ofAdv p.type, ofOwn p.own, ofPeer p.peerType] ++ ofAddress p.peer ++
      [p.channelMap, ofAdvPolicy p.policy]
  | .setAdvertisingData d => ofLegacy d
  | .setScanResponseData d => ofLegacy d
  | .setAdvertisingEnable _ _ e => [yes e]
  | .setScanParameters t i w o p => ofScan t :: le 2 i ++ le 2 w ++ [ofOwn o, ofScanPolicy p]
  | .setScanEnable e d => [yes e, yes d]
  | .createConnection _ pol peer own p =>
    le 2 p.scanInterval ++ le 2 p.scanWindow ++ [ofInit pol, ofType peer.type] ++ ofAddress peer.address ++ [ofOwn own] ++
      le 2 p.intervalMin ++ le 2 p.intervalMax ++ le 2 p.maxLatency ++ le 2 p.supervisionTimeout ++ le 2 p.minCeLength ++
      le 2 p.maxCeLength
  | .createConnectionCancel => []
  | .clearFilterAccept => []
  | .addFilterAccept t a => ofFal t :: ofAddress a
  | .removeFilterAccept t a => ofFal t :: ofAddress a
  | .addResolving t a pk lk => ofPeer t :: ofAddress a ++ ofKey pk ++ ofKey lk
  | .removeResolving t a => ofPeer t :: ofAddress a
  | .clearResolving => []
  | .setAddressResolutionEnable e => [yes e]
  | .setRpaTimeout t => le 2 t
  | .setAdvertisingSetRandomAddress h a => h.toNat :: ofAddress a
  | .setExtAdvertisingParameters h p =>
    h.toNat :: le 2 (ofProperties p.properties) ++ le 3 p.intervalMin ++ le 3 p.intervalMax ++
      [p.channelMap, ofOwn p.own, ofPeer p.peerType] ++ ofAddress p.peer ++
      [ofAdvPolicy p.policy, p.txPower, ofPrimary p.primaryPhy, p.secondaryMaxSkip, ofSecondary p.secondaryPhy, p.sid,
        yes p.scanRequestNotification]
  | .setExtAdvertisingData h op d => [h.toNat, ofOperation x op, yes x.fragment, d.length] ++ ofData d
  | .setExtScanResponseData h op d => [h.toNat, ofOperation x op, yes x.fragment, d.length] ++ ofData d
  | .setExtAdvertisingEnable _ _ e sets =>
    [yes e, sets.length] ++ sets.flatMap (fun t => t.handle.toNat :: le 2 t.duration ++ [t.maxEvents])
  | .removeAdvertisingSet h => [h.toNat]
  | .clearAdvertisingSets => []
  | .setPeriodicParameters h imin imax => h.toNat :: le 2 imin ++ le 2 imax ++ le 2 (64 * yes x.txPower)
  | .setPeriodicData h op d => [h.toNat, ofOperation x op, d.length] ++ ofData d
  | .setPeriodicEnable _ e adi h => [yes e + 2 * yes adi, h.toNat]
  | .setExtendedScanParameters o p phys ps =>
    [ofOwn o, ofScanPolicy p, phys.toNat] ++ ps.flatMap (fun q => ofScan q.scanType :: le 2 q.interval ++ le 2 q.window)
  | .setExtendedScanEnable _ e d duration period => [yes e, ofDuplicates d] ++ le 2 duration ++ le 2 period
  | .extendedCreateConnection _ pol own peer phys ps =>
    [ofInit pol, ofOwn own, ofType peer.type] ++ ofAddress peer.address ++ [phys.toNat] ++ ps.flatMap ofConn
  | .createSync o adv timeout cte =>
    [yes o.useList + 2 * yes o.disableReporting + 4 * yes o.duplicateFiltering, adv.sid, ofPeer adv.type] ++
      ofAddress adv.address ++ le 2 x.skip ++ le 2 timeout ++ [cte]
  | .createSyncCancel => []
  | .terminateSync h => le 2 h
  | .addPeriodicAdvertiser e => ofPeer e.type :: ofAddress e.address ++ [e.sid]
  | .removePeriodicAdvertiser e => ofPeer e.type :: ofAddress e.address ++ [e.sid]
  | .clearPeriodicAdvertiser => []
  | .setPrivacyMode t a m => ofPeer t :: ofAddress a ++ [ofPrivacy m]

/-- The octets of a command. -/
def octetsOf (x : Unused) (c : Cmd) : List Nat := le 2 (number c) ++ [(parameters x c).length] ++ parameters x c

/-- Connection parameters have two octets each. -/
def ConnFits (p : ConnParams) : Prop :=
  p.scanInterval < 65536 ∧ p.scanWindow < 65536 ∧ p.intervalMin < 65536 ∧ p.intervalMax < 65536 ∧ p.maxLatency < 65536 ∧
    p.supervisionTimeout < 65536 ∧ p.minCeLength < 65536 ∧ p.maxCeLength < 65536

/-- The operations of advertising data. -/
def OpFits (x : Unused) (op : Operation) : Prop := op = .other → 5 ≤ x.noOperation ∧ x.noOperation < 8

/-- The parameters of a command fit the octets they have, and the command is not longer than a command can be. Legacy
advertising data has at most 31 octets. The peer of LE Extended Create Connection has the type 0x00 or 0x01. The clock and the
random numbers are not sent. -/
def Sendable (x : Unused) (now : Nat) (rnd : Irk → Address) (rndAdv : Nat → Irk → Address) (c : Cmd) : Prop :=
  (parameters x c).length < 256 ∧ match c with
  | .setAdvertisingParameters p => p.intervalMin < 65536 ∧ p.intervalMax < 65536 ∧ p.channelMap < 256
  | .setAdvertisingData d => d.length ≤ 31
  | .setScanResponseData d => d.length ≤ 31
  | .setAdvertisingEnable n r _ => n = now ∧ r = rndAdv
  | .setScanParameters _ i w _ _ => i < 65536 ∧ w < 65536
  | .createConnection r _ _ _ p => r = rnd ∧ ConnFits p
  | .setRpaTimeout t => t < 65536
  | .setExtAdvertisingParameters _ p =>
    p.intervalMin < 16777216 ∧ p.intervalMax < 16777216 ∧ p.channelMap < 8 ∧ p.txPower < 256 ∧ p.secondaryMaxSkip < 256 ∧
      p.sid < 256
  | .setExtAdvertisingData _ op _ => OpFits x op
  | .setExtScanResponseData _ op _ => OpFits x op
  | .setExtAdvertisingEnable n r _ sets => n = now ∧ r = rndAdv ∧ ∀ t ∈ sets, t.duration < 65536 ∧ t.maxEvents < 256
  | .setPeriodicParameters _ imin imax => imin < 65536 ∧ imax < 65536
  | .setPeriodicData _ op _ => OpFits x op
  | .setPeriodicEnable n _ _ _ => n = now
  | .setExtendedScanParameters _ _ _ ps => ∀ q ∈ ps, q.interval < 65536 ∧ q.window < 65536
  | .setExtendedScanEnable n _ _ duration period => n = now ∧ duration < 65536 ∧ period < 65536
  | .extendedCreateConnection r _ _ peer _ ps =>
    r = rnd ∧ (peer.type = .publicDevice ∨ peer.type = .randomDevice) ∧ ∀ p ∈ ps, ConnFits p
  | .createSync _ adv timeout cte => x.skip < 65536 ∧ adv.sid < 256 ∧ timeout < 65536 ∧ cte < 256
  | .terminateSync h => h < 4096
  | .addPeriodicAdvertiser e => e.sid < 256
  | .removePeriodicAdvertiser e => e.sid < 256
  | _ => True

/-- The error codes, Volume 1, Part F. -/
def errorCode : Status → Nat
  | .success => 0x00
  | .unknownConnection => 0x02
  | .memoryCapacityExceeded => 0x07
  | .connectionAlreadyExists => 0x0b
  | .commandDisallowed => 0x0c
  | .unsupportedFeatureOrParameterValue => 0x11
  | .invalidHciCommandParameters => 0x12
  | .connectionFailedEstablishment => 0x3e
  | .unknownAdvertisingIdentifier => 0x42
  | .packetTooLong => 0x45

/-- The octets of the event that answers a command: Command Status (0x0f) where the command has one, Command Complete (0x0e)
otherwise. Both allow one more command. LE Set Extended Advertising Parameters returns the selected power too. -/
def answerOf (c : Cmd) (st : Status) : List Nat := match c with
  | .createConnection .. => [0x0f, 4, errorCode st, 1] ++ le 2 (number c)
  | .extendedCreateConnection .. => [0x0f, 4, errorCode st, 1] ++ le 2 (number c)
  | .createSync .. => [0x0f, 4, errorCode st, 1] ++ le 2 (number c)
  | .setExtAdvertisingParameters _ p => [0x0e, 5, 1] ++ le 2 (number c) ++ [errorCode st, p.txPower]
  | _ => [0x0e, 4, 1] ++ le 2 (number c) ++ [errorCode st]

end Verif.Wire
