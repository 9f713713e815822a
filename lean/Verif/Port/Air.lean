import Verif.Port.Model
import Verif.Pdl.Declared
import Verif.Hec.Model
/-!
# Devices that only listen, or only advertise

model/devices/baseband_sniffer.cc, which writes a trace of the pages and of the packets of the link managers, and
model/devices/beacon.cc.

Simplifications. The packets are those of `Pdl`, as lists of octets. Times are numbers: microseconds since 1970 for the trace,
nanoseconds of the steady clock for the beacon.
-/
namespace Verif.Port

open Pdl (Packet Vals serialize parse)

/-- `LinkLayerPacket`, packets/link_layer_packets.pdl. -/
def linkLayerPacket : Packet := ⟨"LinkLayerPacket", [⟨Pdl.LinkLayer.bodyLinkLayerPacket, []⟩]⟩
/-- `Page`. -/
def page : Packet := ⟨"Page", [⟨Pdl.LinkLayer.bodyLinkLayerPacket, [(0, 16)]⟩, ⟨Pdl.LinkLayer.bodyPage, []⟩]⟩
/-- `Lmp`. -/
def lmp : Packet := ⟨"Lmp", [⟨Pdl.LinkLayer.bodyLinkLayerPacket, [(0, 52)]⟩, ⟨Pdl.LinkLayer.bodyLmp, []⟩]⟩
/-- `DM1AclPacket`, packets/bredr_bb_packets.pdl. -/
def dm1 : Packet := ⟨"DM1AclPacket", [⟨Pdl.Baseband.bodyBaseBandPacket, [(4, 0), (5, 3)]⟩, ⟨Pdl.Baseband.bodyDM1AclPacket, []⟩]⟩
/-- `FHSAclPacket`. -/
def fhs : Packet := ⟨"FHSAclPacket", [⟨Pdl.Baseband.bodyBaseBandPacket, [(4, 0), (5, 3)]⟩, ⟨Pdl.Baseband.bodyFHSAclPacket, []⟩]⟩

/-- The arguments that both records have, baseband_sniffer.cc:100-123: `lower_address_part` and `reference_lap` are variables of
type `uint8_t`. -/
def common (lap uap type : Nat) : Pdl.Baseband.bodyBaseBandPacket.T :=
  (0, 0, 0, 0, 0, 3, 0, 0, lap % 256, lap % 256, uap, (Hec.buildHeader (UInt8.ofNat uap) 0 (UInt8.ofNat type) true true true).toNat,
    0x0001 + 0x0008 + 0x0010 + 0x0020 + 0x0080 + 0x0400 + 0x0800, ())

/-- `BaseBandSniffer::ReceiveLinkLayerPacket`, baseband_sniffer.cc:90-162: the octets of the record. `none` is a failed `ASSERT`.
What is not a link layer packet is dropped by phy_device.cc:45-56. -/
def recordOf (l : List Nat) : Option (Option (List Nat)) := match parse linkLayerPacket l with
  | none => some none
  | some (((type, source, _), _), _) =>
    let lap := source % 16777216
    let uap := source / 16777216 % 256
    let nap := source / 4294967296 % 65536
    if type = 16 then match parse page l with
      | none => none
      | some ((_, (classOfDevice, _), _), _) =>
        some (some (serialize fhs (common lap uap 2, (0, lap, 0, 0, 0, uap, nap, classOfDevice, 1, 0, 0, 0, ()), ()) []))
    else if type = 52 then match parse lmp l with
      | none => none
      | some (_, payload) => some (some (serialize dm1 (common lap uap 3, (3, 1, 0, ()), ()) payload))
    else some none

/-- A trace: the file and the number of records. -/
structure Capture where
  file : Bytes
  count : Nat
  deriving DecidableEq

/-- The constructor, baseband_sniffer.cc:35-43. -/
def Capture.start : Capture := ⟨fileHeader 255, 0⟩

/-- `AppendRecord`, baseband_sniffer.cc:45-50. -/
def Capture.append (clock : Nat → Nat) (c : Capture) (l : List Nat) : Capture :=
  ⟨c.file ++ recordHeader (clock c.count) l.length ++ l.map UInt8.ofNat, c.count + 1⟩

/-- The packets received one after the other. -/
def Capture.receive (clock : Nat → Nat) (c : Capture) : List (List Nat) → Option Capture
  | [] => some c
  | l :: ls => match recordOf l with
    | none => none
    | some none => c.receive clock ls
    | some (some r) => (c.append clock r).receive clock ls

/-! ### The beacon -/

/-- `LeLegacyAdvertisingPdu`, packets/link_layer_packets.pdl. -/
def legacyPdu : Packet := ⟨"LeLegacyAdvertisingPdu",
  [⟨Pdl.LinkLayer.bodyLinkLayerPacket, [(0, 11)]⟩, ⟨Pdl.LinkLayer.bodyLeLegacyAdvertisingPdu, []⟩]⟩
/-- `LeScanResponse`. -/
def scanResponse : Packet := ⟨"LeScanResponse",
  [⟨Pdl.LinkLayer.bodyLinkLayerPacket, [(0, 15)]⟩, ⟨Pdl.LinkLayer.bodyLeScanResponse, []⟩]⟩

/-- The members of `Beacon`, beacon.h:50-55 and device.h; times in nanoseconds. The arguments of the constructor are read in
`Test` (`add beacon`). -/
structure Beacon where
  address : Nat
  type : Nat
  advData : List Nat
  scanData : List Nat
  interval : Int
  last : Int
  deriving DecidableEq, Repr

/-- `std::array<uint8_t, 31>` with an initializer. -/
def array31 (l : List Nat) : List Nat := l ++ List.replicate (31 - l.length) 0

/-- The constructors, beacon.cc:36-58; the interval in milliseconds. -/
def Beacon.new (address : Nat) (interval : Int) : Beacon :=
  ⟨address, 3, array31 [0x0F, 0x09, 103, 68, 101, 118, 105, 99, 101, 45, 98, 101, 97, 99, 111, 110, 0x02, 0x01, 4 ||| 2],
    array31 [0x05, 0x08, 98, 101, 97, 99], interval * 1000000, 0⟩

/-- An array of octets as a value. -/
def octetValues (l : List Nat) : List (Pdl.Fmt.uint 8 .done).T := l.map (fun x => (x, ()))

/-- `Beacon::Tick`, beacon.cc:60-70. -/
def Beacon.tick (b : Beacon) (now : Int) : Beacon × Option (List Nat) :=
  if now - b.last ≥ b.interval then
    ({ b with last := now },
      some (serialize legacyPdu ((11, b.address, 0, ()), (0, 0, b.type, octetValues b.advData, ()), ()) []))
  else (b, none)

/-- `Beacon::ReceiveLinkLayerPacket`, beacon.cc:72-83. -/
def Beacon.receive (b : Beacon) (type source dest : Nat) : Option (List Nat) :=
  if dest = b.address ∧ type = 14 ∧ (b.type = 0 ∨ b.type = 2) then
    some (serialize scanResponse ((15, b.address, source, ()), (0, octetValues b.scanData, ()), ()) [])
  else none

/-- What happens to a beacon: a tick, a packet, and `Device::SetAddress` (device.h:50, called by `set_device_address`). -/
inductive Beat where
  | tick (now : Int)
  | receive (type source dest : Nat)
  | address (a : Nat)
  deriving DecidableEq, Repr

/-- One of these: what is sent. -/
def Beacon.step (b : Beacon) : Beat → Beacon × Option (List Nat)
  | .tick now => b.tick now
  | .receive t s d => (b, b.receive t s d)
  | .address a => ({ b with address := a }, none)

/-- What is sent, one after the other. -/
def Beacon.run (b : Beacon) : List Beat → List (Beat × Option (List Nat))
  | [] => []
  | x :: xs => (x, (b.step x).2) :: (b.step x).1.run xs

end Verif.Port
