import Verif.Pdl.LayoutsHci
import Verif.Pdl.LayoutsLinkLayer
import Verif.Pdl.LayoutsBaseband
import Verif.Pdl.LayoutsLmp
import Verif.Pdl.LayoutsLlcp
/-!
# All packets

The packets with a common root are a family: the octets come from a place where any packet of the family may be expected.
-/
namespace Verif.Pdl

/-- The families: the packets of the five transport channels of packets/hci_packets.pdl, of packets/link_layer_packets.pdl,
rust/lmp_packets.pdl, rust/llcp_packets.pdl and packets/bredr_bb_packets.pdl (model/devices/baseband_sniffer.cc). -/
def families : List (List Packet) := [Hci.packetsCommand, Hci.packetsEvent, Hci.packetsAcl, Hci.packetsSco, Hci.packetsIso,
  LinkLayer.packetsLinkLayerPacket, Baseband.packetsBaseBandPacket, Lmp.packetsLmpPacket, Llcp.packetsLlcpPacket]

/-- All packets. -/
def declared : List Packet := families.flatten

/-- The packet of a name. -/
def named (f : List Packet) (n : String) : Packet := (f.find? (fun p => p.name == n)).getD ⟨"", []⟩

end Verif.Pdl
