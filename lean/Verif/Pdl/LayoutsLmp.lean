import Verif.Pdl.Model
/-!
# The packets of rust/lmp_packets.pdl

Written by tools/gen_pdl.py.
-/
namespace Verif.Pdl.Lmp

/-- `LmpPacket`, rust/lmp_packets.pdl 98. -/
def bodyLmpPacket : Fmt :=
  .uint 1 <| .uint 7 <| .payload .rest <| .done

/-- `ExtendedPacket`, rust/lmp_packets.pdl 104. -/
def bodyExtendedPacket : Fmt :=
  .uint 8 <| .payload .rest <| .done

/-- `Accepted`, rust/lmp_packets.pdl 109. -/
def bodyAccepted : Fmt :=
  .uint 7 <| .fixed 1 0 <| .done

/-- `NotAccepted`, rust/lmp_packets.pdl 114. -/
def bodyNotAccepted : Fmt :=
  .uint 7 <| .fixed 1 0 <| .uint 8 <| .done

/-- `AcceptedExt`, rust/lmp_packets.pdl 120. -/
def bodyAcceptedExt : Fmt :=
  .uint 8 <| .done

/-- `NotAcceptedExt`, rust/lmp_packets.pdl 124. -/
def bodyNotAcceptedExt : Fmt :=
  .uint 8 <| .uint 8 <| .done

/-- `IoCapabilityReq`, rust/lmp_packets.pdl 129. -/
def bodyIoCapabilityReq : Fmt :=
  .uint 8 <| .uint 8 <| .uint 8 <| .done

/-- `IoCapabilityRes`, rust/lmp_packets.pdl 135. -/
def bodyIoCapabilityRes : Fmt :=
  .uint 8 <| .uint 8 <| .uint 8 <| .done

/-- `EncapsulatedHeader`, rust/lmp_packets.pdl 141. -/
def bodyEncapsulatedHeader : Fmt :=
  .uint 8 <| .uint 8 <| .uint 8 <| .done

/-- `EncapsulatedPayload`, rust/lmp_packets.pdl 147. -/
def bodyEncapsulatedPayload : Fmt :=
  .array (.uint 8 .done) (.const 16) 0 <| .done

/-- `SimplePairingConfirm`, rust/lmp_packets.pdl 151. -/
def bodySimplePairingConfirm : Fmt :=
  .array (.uint 8 .done) (.const 16) 0 <| .done

/-- `SimplePairingNumber`, rust/lmp_packets.pdl 155. -/
def bodySimplePairingNumber : Fmt :=
  .array (.uint 8 .done) (.const 16) 0 <| .done

/-- `DhkeyCheck`, rust/lmp_packets.pdl 159. -/
def bodyDhkeyCheck : Fmt :=
  .array (.uint 8 .done) (.const 16) 0 <| .done

/-- `AuRand`, rust/lmp_packets.pdl 163. -/
def bodyAuRand : Fmt :=
  .array (.uint 8 .done) (.const 16) 0 <| .done

/-- `Sres`, rust/lmp_packets.pdl 167. -/
def bodySres : Fmt :=
  .array (.uint 8 .done) (.const 4) 0 <| .done

/-- `NumericComparisonFailed`, rust/lmp_packets.pdl 171. -/
def bodyNumericComparisonFailed : Fmt :=
  .done

/-- `PasskeyFailed`, rust/lmp_packets.pdl 173. -/
def bodyPasskeyFailed : Fmt :=
  .done

/-- `KeypressNotification`, rust/lmp_packets.pdl 175. -/
def bodyKeypressNotification : Fmt :=
  .uint 8 <| .done

/-- `InRand`, rust/lmp_packets.pdl 179. -/
def bodyInRand : Fmt :=
  .array (.uint 8 .done) (.const 16) 0 <| .done

/-- `CombKey`, rust/lmp_packets.pdl 183. -/
def bodyCombKey : Fmt :=
  .array (.uint 8 .done) (.const 16) 0 <| .done

/-- `EncryptionModeReq`, rust/lmp_packets.pdl 187. -/
def bodyEncryptionModeReq : Fmt :=
  .uint 8 <| .done

/-- `EncryptionKeySizeReq`, rust/lmp_packets.pdl 191. -/
def bodyEncryptionKeySizeReq : Fmt :=
  .uint 8 <| .done

/-- `StartEncryptionReq`, rust/lmp_packets.pdl 195. -/
def bodyStartEncryptionReq : Fmt :=
  .array (.uint 8 .done) (.const 16) 0 <| .done

/-- `StopEncryptionReq`, rust/lmp_packets.pdl 199. -/
def bodyStopEncryptionReq : Fmt :=
  .done

/-- `FeaturesReqExt`, rust/lmp_packets.pdl 201. -/
def bodyFeaturesReqExt : Fmt :=
  .uint 8 <| .uint 8 <| .array (.uint 8 .done) (.const 8) 0 <| .done

/-- `FeaturesResExt`, rust/lmp_packets.pdl 207. -/
def bodyFeaturesResExt : Fmt :=
  .uint 8 <| .uint 8 <| .array (.uint 8 .done) (.const 8) 0 <| .done

/-- LmpPacket and the packets derived from it, in the order of rust/lmp_packets.pdl (part 1). -/
def packetsLmpPacket0 : List Packet := [
  ⟨"LmpPacket", [⟨bodyLmpPacket, []⟩]⟩,
  ⟨"ExtendedPacket", [⟨bodyLmpPacket, [(1, 127)]⟩, ⟨bodyExtendedPacket, []⟩]⟩,
  ⟨"Accepted", [⟨bodyLmpPacket, [(1, 3)]⟩, ⟨bodyAccepted, []⟩]⟩,
  ⟨"NotAccepted", [⟨bodyLmpPacket, [(1, 4)]⟩, ⟨bodyNotAccepted, []⟩]⟩,
  ⟨"AcceptedExt", [⟨bodyLmpPacket, [(1, 127)]⟩, ⟨bodyExtendedPacket, [(0, 1)]⟩, ⟨bodyAcceptedExt, []⟩]⟩,
  ⟨"NotAcceptedExt", [⟨bodyLmpPacket, [(1, 127)]⟩, ⟨bodyExtendedPacket, [(0, 2)]⟩, ⟨bodyNotAcceptedExt, []⟩]⟩,
  ⟨"IoCapabilityReq", [⟨bodyLmpPacket, [(1, 127)]⟩, ⟨bodyExtendedPacket, [(0, 25)]⟩, ⟨bodyIoCapabilityReq, []⟩]⟩,
  ⟨"IoCapabilityRes", [⟨bodyLmpPacket, [(1, 127)]⟩, ⟨bodyExtendedPacket, [(0, 26)]⟩, ⟨bodyIoCapabilityRes, []⟩]⟩,
  ⟨"EncapsulatedHeader", [⟨bodyLmpPacket, [(1, 61)]⟩, ⟨bodyEncapsulatedHeader, []⟩]⟩,
  ⟨"EncapsulatedPayload", [⟨bodyLmpPacket, [(1, 62)]⟩, ⟨bodyEncapsulatedPayload, []⟩]⟩,
  ⟨"SimplePairingConfirm", [⟨bodyLmpPacket, [(1, 63)]⟩, ⟨bodySimplePairingConfirm, []⟩]⟩,
  ⟨"SimplePairingNumber", [⟨bodyLmpPacket, [(1, 64)]⟩, ⟨bodySimplePairingNumber, []⟩]⟩,
  ⟨"DhkeyCheck", [⟨bodyLmpPacket, [(1, 65)]⟩, ⟨bodyDhkeyCheck, []⟩]⟩,
  ⟨"AuRand", [⟨bodyLmpPacket, [(1, 11)]⟩, ⟨bodyAuRand, []⟩]⟩,
  ⟨"Sres", [⟨bodyLmpPacket, [(1, 12)]⟩, ⟨bodySres, []⟩]⟩,
  ⟨"NumericComparisonFailed", [⟨bodyLmpPacket, [(1, 127)]⟩, ⟨bodyExtendedPacket, [(0, 27)]⟩, ⟨bodyNumericComparisonFailed, []⟩]⟩,
  ⟨"PasskeyFailed", [⟨bodyLmpPacket, [(1, 127)]⟩, ⟨bodyExtendedPacket, [(0, 28)]⟩, ⟨bodyPasskeyFailed, []⟩]⟩,
  ⟨"KeypressNotification", [⟨bodyLmpPacket, [(1, 127)]⟩, ⟨bodyExtendedPacket, [(0, 30)]⟩, ⟨bodyKeypressNotification, []⟩]⟩,
  ⟨"InRand", [⟨bodyLmpPacket, [(1, 8)]⟩, ⟨bodyInRand, []⟩]⟩,
  ⟨"CombKey", [⟨bodyLmpPacket, [(1, 9)]⟩, ⟨bodyCombKey, []⟩]⟩,
  ⟨"EncryptionModeReq", [⟨bodyLmpPacket, [(1, 15)]⟩, ⟨bodyEncryptionModeReq, []⟩]⟩,
  ⟨"EncryptionKeySizeReq", [⟨bodyLmpPacket, [(1, 16)]⟩, ⟨bodyEncryptionKeySizeReq, []⟩]⟩,
  ⟨"StartEncryptionReq", [⟨bodyLmpPacket, [(1, 17)]⟩, ⟨bodyStartEncryptionReq, []⟩]⟩,
  ⟨"StopEncryptionReq", [⟨bodyLmpPacket, [(1, 18)]⟩, ⟨bodyStopEncryptionReq, []⟩]⟩,
  ⟨"FeaturesReqExt", [⟨bodyLmpPacket, [(1, 127)]⟩, ⟨bodyExtendedPacket, [(0, 3)]⟩, ⟨bodyFeaturesReqExt, []⟩]⟩,
  ⟨"FeaturesResExt", [⟨bodyLmpPacket, [(1, 127)]⟩, ⟨bodyExtendedPacket, [(0, 4)]⟩, ⟨bodyFeaturesResExt, []⟩]⟩]

/-- LmpPacket and the packets derived from it, in the order of rust/lmp_packets.pdl. -/
def packetsLmpPacket : List Packet := packetsLmpPacket0

end Verif.Pdl.Lmp
