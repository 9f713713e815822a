import Verif.Ll.Model
import Verif.WireBr.Events

/-!
# The octets of the events of the LE controller

Models how what `Verif.Ll` tells its host is written: which builder of packets/hci_packets.pdl is used, and with which values
(/repo/model/controller/le_controller.cc and le_advertiser.cc, the lines at each event).

Simplifications. `Ll` has neither the signal strength and transmit power of a report nor the event masks; they are given here.
-/
namespace Verif.WireLe

open Verif.Le Verif.Ll Verif.Pdl Verif.Pdl.Hci
open Verif.WireBr (octet event)

/-- What `Ll` has not: the signal strength, the transmit power of the PDU, which of the two events of a connection is unmasked, and
the addresses of the device. -/
structure Extra where
  rssi : Nat
  power : Nat
  enhanced : Bool
  pub : Address
  random : Address

/-- `AddressType`, hci_packets.pdl 3289-3294; the casts to `DirectAdvertisingAddressType` keep the value (5946-5953). -/
def typeCode : AddressType → Nat
  | .publicDevice => 0
  | .randomDevice => 1
  | .publicIdentity => 2
  | .randomIdentity => 3

/-- `PhyType`, link_layer_packets.pdl 176-182; the casts to `PrimaryPhyType` and `SecondaryPhyType` keep the value. -/
def phyCode : PhyType → Nat
  | .noPackets => 0
  | .le1m => 1
  | .le2m => 2
  | .codedS8 => 3
  | .codedS2 => 4

/-- `Role`, hci_packets.pdl. -/
def roleCode : Ll.Role → Nat
  | .central => 0
  | .peripheral => 1

/-- `AdvertisingEventType`, hci_packets.pdl 5848-5854, and the switch of le_controller.cc 4488-4502. -/
def reportCode : ReportType → Nat
  | .pdu .advInd => 0
  | .pdu .advDirectInd => 1
  | .pdu .advScanInd => 2
  | .pdu .advNonconnInd => 3
  | .scanResponse => 4

/-- A `bool` in one bit. -/
def bitOf (b : Bool) : Nat := if b then 1 else 0

/-- A subevent with its code and its values. -/
def subevent (code : Nat) (f : Fmt) (v : f.T) : Nat × List Nat :=
  (4, serialize ⟨"", [⟨bodyEvent, [(0, 62)]⟩, ⟨bodyLeMetaEvent, [(0, code)]⟩, ⟨f, []⟩]⟩ ((62, ()), (code, ()), v, ()) [])

/-- The peer of a connection, le_controller.cc 5549-5557. -/
def peerAddr (c : LeConn) : AddressWithType := if c.resolved ≠ ⟨0, .publicDevice⟩ then c.resolved else c.address

/-- `peer_resolvable_private_address`, le_controller.cc 5550-5554. -/
def peerPrivate (c : LeConn) : Address := if c.resolved ≠ ⟨0, .publicDevice⟩ then c.address.address else 0

/-- `local_resolved_address`, le_controller.cc 5558-5561. -/
def localPrivate (x : Extra) (c : LeConn) : Address :=
  if c.own.address = x.pub ∨ c.own.address = x.random then 0 else c.own.address

/-- What the host is sent, with the lines of le_controller.cc: directed reports 4467-4476, legacy reports 4483-4504, 6196-6202,
extended reports 4510-4537, 4911-4954, 6207-6241, the timeout of the scanner 6268, synchronizations 5273-5277, periodic reports
5330-5332, connections 5563-5573, the channel selection algorithm 5587-5588, the end of an advertising set 5801-5803 and
le_advertiser.cc 1685-1705, of directed advertising le_advertiser.cc 1594-1596 and 1666-1674, data 4259-4261, completed packets
5428-5429, the end of a connection 6362-6363. -/
def toHost (x : Extra) : Out → Option (Nat × List Nat)
  | .directedReport a d =>
    some (subevent 0x0b bodyLeDirectedAdvertisingReport ([(1, typeCode a.type, a.address.toNat, 1, d.toNat, x.rssi, ())], ()))
  | .legacyReport t a d =>
    some (subevent 0x02 bodyLeAdvertisingReport ([(reportCode t, typeCode a.type, a.address.toNat, d.map octet, x.rssi, ())], ()))
  | .extReport r => some (subevent 0x0d bodyLeExtendedAdvertisingReport
      ([(bitOf r.connectable, bitOf r.scannable, bitOf r.directed, bitOf r.scanResponse, bitOf r.legacy, bitOf (!r.complete),
        typeCode r.address.type, r.address.address.toNat, phyCode r.primary, phyCode r.secondary, r.sid, x.power, x.rssi, r.interval,
        (match r.direct with | some a => typeCode a.type | none => 0xff),
        (match r.direct with | some a => a.address.toNat | none => 0), r.data.map octet, ())], ()))
  | .scanTimeout => some (subevent 0x11 bodyLeScanTimeout ())
  | .syncEstablished h sid a i =>
    some (subevent 0x0e bodyLePeriodicAdvertisingSyncEstablishedV1 (0, h, sid, typeCode a.type, a.address.toNat, 1, i, 0, ()))
  | .periodicReport h c d =>
    some (subevent 0x0f bodyLePeriodicAdvertisingReportV1 (h, x.power, x.rssi, 0xff, bitOf (!c), d.map octet, ()))
  | .connected h c => some (if x.enhanced
      then subevent 0x0a bodyLeEnhancedConnectionCompleteV1 (0, h, roleCode c.role, typeCode (peerAddr c).type,
        (peerAddr c).address.toNat, (localPrivate x c).toNat, (peerPrivate c).toNat, c.params.interval, c.params.latency,
        c.params.timeout, 0, ())
      else subevent 0x01 bodyLeConnectionComplete (0, h, roleCode c.role, typeCode c.address.type, c.address.address.toNat,
        c.params.interval, c.params.latency, c.params.timeout, 0, ()))
  | .channelSelection h => some (subevent 0x14 bodyLeChannelSelectionAlgorithm (h, 0, ()))
  | .setTerminated a (some h) n => some (subevent 0x12 bodyLeAdvertisingSetTerminated (0, a.toNat, h, n, ()))
  | .setTerminated a none n => some (subevent 0x12 bodyLeAdvertisingSetTerminated (0x3c, a.toNat, 0, n, ()))
  | .directedTimeout => some (if x.enhanced
      then subevent 0x0a bodyLeEnhancedConnectionCompleteV1 (0x3c, 0, 0, 0, 0, 0, 0, 0, 0, 0, 0, ())
      else subevent 0x01 bodyLeConnectionComplete (0x3c, 0, 0, 0, 0, 0, 0, 0, 0, ()))
  | .acl h pb bc d => some (2, serialize ⟨"", [⟨bodyAcl, []⟩]⟩ ((h, pb, bc, ()), ()) (d.map UInt8.toNat))
  | .completedPackets h => some (event 0x13 bodyNumberOfCompletedPackets ([(h, 1, ())], ()))
  | .disconnected h r => some (event 0x05 bodyDisconnectionComplete (0, h, r, ()))
  | .dispatched _ _ _ => none
  | .send _ => none

end Verif.WireLe
