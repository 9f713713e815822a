import Verif.WireAir.Model
import Verif.Ll.Model

/-!
# The octets between an LE advertiser and a scanner or initiator

Models how the packets of `Verif.Ll` that belong to no connection are written by the controller that sends them and read by the one that
receives them (/repo/model/controller/le_controller.cc and le_advertiser.cc, the lines below). `Verif.Ll` leaves out the transmission
power of extended and periodic advertisements, which is given here. A view that is not valid, on which the code stops with an ASSERT,
reads nothing, and neither does one whose enumerations have other values than those of link_layer_packets.pdl.
-/
namespace Verif.WireAir.Adv

open Verif.Pdl Verif.Pdl.LinkLayer
open Verif.Wire (data)
open Verif.WireBr (octet)
open Verif.Ll (PhyType PduType)
open Verif.Le (AddressType AddressWithType)

/-- `AddressType`, link_layer_packets.pdl 148-153. -/
def typed : AddressType → Nat
  | .publicDevice => 0 | .randomDevice => 1 | .publicIdentity => 2 | .randomIdentity => 3

/-- `AddressType`, link_layer_packets.pdl 148-153. -/
def typeIn : Nat → Option AddressType
  | 0 => some .publicDevice | 1 => some .randomDevice | 2 => some .publicIdentity | 3 => some .randomIdentity | _ => none

/-- An address with its type, as `AddressWithType` is built from a packet, for instance le_controller.cc 6117-6123. -/
def typedIn (a t : Nat) : Option AddressWithType := (typeIn t).map fun t => ⟨.ofNat 48 a, t⟩

/-- `LegacyAdvertisingType`, link_layer_packets.pdl 157-162. -/
def pdu : PduType → Nat
  | .advInd => 0 | .advDirectInd => 1 | .advScanInd => 2 | .advNonconnInd => 3

/-- `LegacyAdvertisingType`, link_layer_packets.pdl 157-162. -/
def pduIn : Nat → Option PduType
  | 0 => some .advInd | 1 => some .advDirectInd | 2 => some .advScanInd | 3 => some .advNonconnInd | _ => none

/-- `PhyType`, link_layer_packets.pdl 176-182. -/
def phy : PhyType → Nat
  | .noPackets => 0 | .le1m => 1 | .le2m => 2 | .codedS8 => 3 | .codedS2 => 4

/-- `PhyType`, link_layer_packets.pdl 176-182. -/
def phyIn : Nat → Option PhyType
  | 0 => some .noPackets | 1 => some .le1m | 2 => some .le2m | 3 => some .codedS8 | 4 => some .codedS2 | _ => none

/-- A `bool` as an argument of a builder. -/
def flagged (b : Bool) : Nat := if b then 1 else 0

/-- The builders, with the transmission power `w`: le_advertiser.cc 1625-1634, 1743-1750 legacy, 1754-1771 extended and 1779-1785 periodic
advertising; le_controller.cc 4765-4772 and 5181-5188 connections, 5685-5690 and 5787-5792 their completion, 4624-4627 and 5043-5046
scanning, 6034-6037 and 6105-6108 the responses. A periodic advertisement has the empty address as its receiver. The packets of
connections are in `WireAir.send`. -/
def send (w : Nat) : Ll.Packet → List Nat
  | .legacyAdv p => build 11 bodyLeLegacyAdvertisingPdu p.adv.address.toNat p.target.address.toNat
    (typed p.adv.type, typed p.target.type, pdu p.type, p.data.map octet, ())
  | .extAdv p => build 55 bodyLeExtendedAdvertisingPdu p.adv.address.toNat p.target.address.toNat
    (typed p.adv.type, typed p.target.type, flagged p.connectable, flagged p.scannable, flagged p.directed, p.sid, w,
      phy p.primary, phy p.secondary, p.interval, p.data.map octet, ())
  | .periodic p => build 64 bodyLePeriodicAdvertisingPdu p.adv.address.toNat 0
    (typed p.adv.type, p.sid, w, p.interval, p.data.map octet, ())
  | .connect i a l => build 12 bodyLeConnect i.address.toNat a.address.toNat
    (typed i.type, typed a.type, l.interval, l.latency, l.timeout, ())
  | .connectComplete i a l => build 13 bodyLeConnectComplete a.address.toNat i.address.toNat
    (typed i.type, typed a.type, l.interval, l.latency, l.timeout, ())
  | .scan s a => build 14 bodyLeScan s.address.toNat a.address.toNat (typed s.type, typed a.type, ())
  | .scanResponse a s x => build 15 bodyLeScanResponse a.address.toNat s.toNat (typed a.type, x.map octet, ())
  | .link _ _ _ => []

/-- `IncomingPacket`, le_controller.cc 4092-4119, and the views of the functions it calls: 4353-4360, 4637-4664
and 4777 legacy, 4797-4800, 5077-5080 and 5193 extended and 5202-5217 periodic advertising, 5610-5613, 5710-5713 and 5810 connections, 5825-5833 their completion, 6113-6123 scanning and 6148-6157 the responses. -/
def receive (l : List Nat) : Option Ll.Packet :=
  match typeOf l with
  | some 11 => (view 11 bodyLeLegacyAdvertisingPdu l).bind fun (s, d, t, u, k, x, _) =>
    match typedIn s t, typedIn d u, pduIn k with
    | some a, some b, some k => some (.legacyAdv ⟨a, b, k, data x⟩)
    | _, _, _ => none
  | some 55 => (view 55 bodyLeExtendedAdvertisingPdu l).bind fun (s, d, t, u, c, n, r, i, _, p, q, v, x, _) =>
    match typedIn s t, typedIn d u, phyIn p, phyIn q with
    | some a, some b, some p, some q => some (.extAdv ⟨a, b, c != 0, n != 0, r != 0, i, p, q, v, data x⟩)
    | _, _, _, _ => none
  | some 64 => (view 64 bodyLePeriodicAdvertisingPdu l).bind fun (s, _, t, i, _, v, x, _) =>
    (typedIn s t).map fun a => .periodic ⟨a, i, v, data x⟩
  | some 12 => (view 12 bodyLeConnect l).bind fun (s, d, t, u, x, y, z, _) =>
    match typedIn s t, typedIn d u with
    | some i, some a => some (.connect i a ⟨x, y, z⟩)
    | _, _ => none
  | some 13 => (view 13 bodyLeConnectComplete l).bind fun (s, d, t, u, x, y, z, _) =>
    match typedIn d t, typedIn s u with
    | some i, some a => some (.connectComplete i a ⟨x, y, z⟩)
    | _, _ => none
  | some 14 => (view 14 bodyLeScan l).bind fun (s, d, t, u, _) =>
    match typedIn s t, typedIn d u with
    | some i, some a => some (.scan i a)
    | _, _ => none
  | some 15 => (view 15 bodyLeScanResponse l).bind fun (s, d, t, x, _) =>
    (typedIn s t).map fun a => .scanResponse a (.ofNat 48 d) (data x)
  | _ => none

end Verif.WireAir.Adv
