import Verif.Pdl.Model
/-!
# The packets of packets/bredr_bb_packets.pdl

Written by tools/gen_pdl.py.
-/
namespace Verif.Pdl.Baseband

/-- `BaseBandPacket`, packets/bredr_bb_packets.pdl 21. -/
def bodyBaseBandPacket : Fmt :=
  .uint 8 <| .uint 8 <| .uint 8 <| .uint 8 <| .uint 4 <| .uint 4 <| .uint 8 <| .uint 16 <| .uint 32 <| .uint 24 <|
   .uint 8 <| .uint 32 <| .uint 16 <| .payload .rest <| .done

/-- `DM1AclPacket`, packets/bredr_bb_packets.pdl 38. -/
def bodyDM1AclPacket : Fmt :=
  .uint 2 <| .uint 1 <| .len 0 5 <| .payload (.size 0) <| .uint 16 <| .done

/-- `FHSAclPacket`, packets/bredr_bb_packets.pdl 46. -/
def bodyFHSAclPacket : Fmt :=
  .uint 34 <| .uint 24 <| .uint 1 <| .reserved 1 <| .uint 2 <| .uint 2 <| .uint 8 <| .uint 16 <| .uint 24 <|
   .uint 3 <| .uint 26 <| .uint 3 <| .uint 16 <| .done

/-- BaseBandPacket and the packets derived from it, in the order of packets/bredr_bb_packets.pdl (part 1). -/
def packetsBaseBandPacket0 : List Packet := [
  ⟨"BaseBandPacket", [⟨bodyBaseBandPacket, []⟩]⟩,
  ⟨"DM1AclPacket", [⟨bodyBaseBandPacket, [(4, 0), (5, 3)]⟩, ⟨bodyDM1AclPacket, []⟩]⟩,
  ⟨"FHSAclPacket", [⟨bodyBaseBandPacket, [(4, 0), (5, 3)]⟩, ⟨bodyFHSAclPacket, []⟩]⟩]

/-- BaseBandPacket and the packets derived from it, in the order of packets/bredr_bb_packets.pdl. -/
def packetsBaseBandPacket : List Packet := packetsBaseBandPacket0

end Verif.Pdl.Baseband
