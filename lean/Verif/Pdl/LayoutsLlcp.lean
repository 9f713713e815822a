import Verif.Pdl.Model
/-!
# The packets of rust/llcp_packets.pdl

Written by tools/gen_pdl.py.
-/
namespace Verif.Pdl.Llcp

/-- `LlcpPacket`, rust/llcp_packets.pdl 48. -/
def bodyLlcpPacket : Fmt :=
  .uint 8 <| .payload .rest <| .done

/-- `ConnectionUpdateInd`, rust/llcp_packets.pdl 53. -/
def bodyConnectionUpdateInd : Fmt :=
  .uint 8 <| .uint 16 <| .uint 16 <| .uint 16 <| .uint 16 <| .uint 16 <| .done

/-- `ChannelMapInd`, rust/llcp_packets.pdl 62. -/
def bodyChannelMapInd : Fmt :=
  .uint 40 <| .uint 16 <| .done

/-- `TerminateInd`, rust/llcp_packets.pdl 67. -/
def bodyTerminateInd : Fmt :=
  .uint 8 <| .done

/-- `EncReq`, rust/llcp_packets.pdl 71. -/
def bodyEncReq : Fmt :=
  .uint 64 <| .uint 16 <| .uint 64 <| .uint 16 <| .done

/-- `EncRsp`, rust/llcp_packets.pdl 78. -/
def bodyEncRsp : Fmt :=
  .uint 64 <| .uint 16 <| .done

/-- `StartEncReq`, rust/llcp_packets.pdl 83. -/
def bodyStartEncReq : Fmt :=
  .done

/-- `StartEncRsp`, rust/llcp_packets.pdl 86. -/
def bodyStartEncRsp : Fmt :=
  .done

/-- `UnknownRsp`, rust/llcp_packets.pdl 89. -/
def bodyUnknownRsp : Fmt :=
  .uint 8 <| .done

/-- `FeatureReq`, rust/llcp_packets.pdl 93. -/
def bodyFeatureReq : Fmt :=
  .uint 64 <| .done

/-- `FeatureRsp`, rust/llcp_packets.pdl 97. -/
def bodyFeatureRsp : Fmt :=
  .uint 64 <| .done

/-- `PauseEncReq`, rust/llcp_packets.pdl 101. -/
def bodyPauseEncReq : Fmt :=
  .done

/-- `PauseEncRsp`, rust/llcp_packets.pdl 104. -/
def bodyPauseEncRsp : Fmt :=
  .done

/-- `VersionInd`, rust/llcp_packets.pdl 107. -/
def bodyVersionInd : Fmt :=
  .uint 8 <| .uint 16 <| .uint 16 <| .done

/-- `RejectInd`, rust/llcp_packets.pdl 113. -/
def bodyRejectInd : Fmt :=
  .uint 16 <| .done

/-- `PeripheralFeatureReq`, rust/llcp_packets.pdl 117. -/
def bodyPeripheralFeatureReq : Fmt :=
  .uint 64 <| .done

/-- `ConnectionParamReq`, rust/llcp_packets.pdl 121. -/
def bodyConnectionParamReq : Fmt :=
  .uint 16 <| .uint 16 <| .uint 16 <| .uint 16 <| .uint 8 <| .uint 16 <| .uint 16 <| .uint 16 <| .uint 16 <|
   .uint 16 <| .uint 16 <| .uint 16 <| .done

/-- `ConnectionParamRsp`, rust/llcp_packets.pdl 136. -/
def bodyConnectionParamRsp : Fmt :=
  .uint 16 <| .uint 16 <| .uint 16 <| .uint 16 <| .uint 8 <| .uint 16 <| .uint 16 <| .uint 16 <| .uint 16 <|
   .uint 16 <| .uint 16 <| .uint 16 <| .done

/-- `RejectExtInd`, rust/llcp_packets.pdl 151. -/
def bodyRejectExtInd : Fmt :=
  .uint 8 <| .uint 8 <| .done

/-- `PingReq`, rust/llcp_packets.pdl 156. -/
def bodyPingReq : Fmt :=
  .done

/-- `PingRsp`, rust/llcp_packets.pdl 159. -/
def bodyPingRsp : Fmt :=
  .done

/-- `LengthReq`, rust/llcp_packets.pdl 162. -/
def bodyLengthReq : Fmt :=
  .uint 16 <| .uint 16 <| .uint 16 <| .uint 16 <| .done

/-- `LengthRsp`, rust/llcp_packets.pdl 169. -/
def bodyLengthRsp : Fmt :=
  .uint 16 <| .uint 16 <| .uint 16 <| .uint 16 <| .done

/-- `PhyReq`, rust/llcp_packets.pdl 176. -/
def bodyPhyReq : Fmt :=
  .uint 8 <| .uint 8 <| .done

/-- `PhyRsp`, rust/llcp_packets.pdl 181. -/
def bodyPhyRsp : Fmt :=
  .uint 8 <| .uint 8 <| .done

/-- `PhyUpdateInd`, rust/llcp_packets.pdl 186. -/
def bodyPhyUpdateInd : Fmt :=
  .uint 8 <| .uint 8 <| .uint 16 <| .done

/-- `MinUsedChannelsInd`, rust/llcp_packets.pdl 192. -/
def bodyMinUsedChannelsInd : Fmt :=
  .uint 8 <| .uint 8 <| .done

/-- `CteReq`, rust/llcp_packets.pdl 197. -/
def bodyCteReq : Fmt :=
  .uint 5 <| .reserved 1 <| .uint 2 <| .done

/-- `CteRsp`, rust/llcp_packets.pdl 203. -/
def bodyCteRsp : Fmt :=
  .done

/-- `PeriodicSyncInd`, rust/llcp_packets.pdl 206. -/
def bodyPeriodicSyncInd : Fmt :=
  .uint 16 <| .array (.uint 8 .done) (.const 18) 0 <| .uint 16 <| .uint 16 <| .uint 4 <| .uint 1 <| .uint 3 <|
   .uint 8 <| .uint 48 <| .uint 16 <| .done

/-- `ClockAccuracyReq`, rust/llcp_packets.pdl 219. -/
def bodyClockAccuracyReq : Fmt :=
  .uint 8 <| .done

/-- `ClockAccuracyRsp`, rust/llcp_packets.pdl 223. -/
def bodyClockAccuracyRsp : Fmt :=
  .uint 8 <| .done

/-- `CisReq`, rust/llcp_packets.pdl 228. -/
def bodyCisReq : Fmt :=
  .uint 8 <| .uint 8 <| .uint 8 <| .uint 8 <| .uint 1 <| .reserved 3 <| .uint 12 <| .reserved 4 <| .uint 12 <|
   .reserved 4 <| .uint 20 <| .reserved 4 <| .uint 20 <| .uint 16 <| .uint 16 <| .uint 8 <| .uint 24 <| .uint 4 <|
   .uint 4 <| .uint 8 <| .uint 8 <| .uint 16 <| .uint 24 <| .uint 24 <| .uint 16 <| .done

/-- `CisRsp`, rust/llcp_packets.pdl 257. -/
def bodyCisRsp : Fmt :=
  .uint 24 <| .uint 24 <| .uint 16 <| .done

/-- `CisInd`, rust/llcp_packets.pdl 264. -/
def bodyCisInd : Fmt :=
  .uint 32 <| .uint 24 <| .uint 24 <| .uint 24 <| .uint 16 <| .done

/-- `CisTerminateInd`, rust/llcp_packets.pdl 273. -/
def bodyCisTerminateInd : Fmt :=
  .uint 8 <| .uint 8 <| .uint 8 <| .done

/-- `PowerControlReq`, rust/llcp_packets.pdl 279. -/
def bodyPowerControlReq : Fmt :=
  .uint 8 <| .uint 8 <| .uint 8 <| .done

/-- `PowerControlRsp`, rust/llcp_packets.pdl 285. -/
def bodyPowerControlRsp : Fmt :=
  .uint 1 <| .uint 1 <| .reserved 6 <| .uint 8 <| .uint 8 <| .uint 8 <| .done

/-- `PowerChangeInd`, rust/llcp_packets.pdl 294. -/
def bodyPowerChangeInd : Fmt :=
  .uint 8 <| .uint 1 <| .uint 1 <| .reserved 6 <| .uint 8 <| .uint 8 <| .done

/-- `SubrateReq`, rust/llcp_packets.pdl 303. -/
def bodySubrateReq : Fmt :=
  .uint 16 <| .uint 16 <| .uint 16 <| .uint 16 <| .uint 16 <| .done

/-- `SubrateInd`, rust/llcp_packets.pdl 311. -/
def bodySubrateInd : Fmt :=
  .uint 16 <| .uint 16 <| .uint 16 <| .uint 16 <| .uint 16 <| .done

/-- `ChannelReportingInd`, rust/llcp_packets.pdl 319. -/
def bodyChannelReportingInd : Fmt :=
  .uint 8 <| .uint 8 <| .uint 8 <| .done

/-- `ChannelStatusInd`, rust/llcp_packets.pdl 325. -/
def bodyChannelStatusInd : Fmt :=
  .array (.uint 8 .done) (.const 10) 0 <| .done

/-- LlcpPacket and the packets derived from it, in the order of rust/llcp_packets.pdl (part 1). -/
def packetsLlcpPacket0 : List Packet := [
  ⟨"LlcpPacket", [⟨bodyLlcpPacket, []⟩]⟩,
  ⟨"ConnectionUpdateInd", [⟨bodyLlcpPacket, [(0, 0)]⟩, ⟨bodyConnectionUpdateInd, []⟩]⟩,
  ⟨"ChannelMapInd", [⟨bodyLlcpPacket, [(0, 1)]⟩, ⟨bodyChannelMapInd, []⟩]⟩,
  ⟨"TerminateInd", [⟨bodyLlcpPacket, [(0, 2)]⟩, ⟨bodyTerminateInd, []⟩]⟩,
  ⟨"EncReq", [⟨bodyLlcpPacket, [(0, 3)]⟩, ⟨bodyEncReq, []⟩]⟩,
  ⟨"EncRsp", [⟨bodyLlcpPacket, [(0, 4)]⟩, ⟨bodyEncRsp, []⟩]⟩,
  ⟨"StartEncReq", [⟨bodyLlcpPacket, [(0, 5)]⟩, ⟨bodyStartEncReq, []⟩]⟩,
  ⟨"StartEncRsp", [⟨bodyLlcpPacket, [(0, 6)]⟩, ⟨bodyStartEncRsp, []⟩]⟩,
  ⟨"UnknownRsp", [⟨bodyLlcpPacket, [(0, 7)]⟩, ⟨bodyUnknownRsp, []⟩]⟩,
  ⟨"FeatureReq", [⟨bodyLlcpPacket, [(0, 8)]⟩, ⟨bodyFeatureReq, []⟩]⟩,
  ⟨"FeatureRsp", [⟨bodyLlcpPacket, [(0, 9)]⟩, ⟨bodyFeatureRsp, []⟩]⟩,
  ⟨"PauseEncReq", [⟨bodyLlcpPacket, [(0, 10)]⟩, ⟨bodyPauseEncReq, []⟩]⟩,
  ⟨"PauseEncRsp", [⟨bodyLlcpPacket, [(0, 11)]⟩, ⟨bodyPauseEncRsp, []⟩]⟩,
  ⟨"VersionInd", [⟨bodyLlcpPacket, [(0, 12)]⟩, ⟨bodyVersionInd, []⟩]⟩,
  ⟨"RejectInd", [⟨bodyLlcpPacket, [(0, 13)]⟩, ⟨bodyRejectInd, []⟩]⟩,
  ⟨"PeripheralFeatureReq", [⟨bodyLlcpPacket, [(0, 14)]⟩, ⟨bodyPeripheralFeatureReq, []⟩]⟩,
  ⟨"ConnectionParamReq", [⟨bodyLlcpPacket, [(0, 15)]⟩, ⟨bodyConnectionParamReq, []⟩]⟩,
  ⟨"ConnectionParamRsp", [⟨bodyLlcpPacket, [(0, 16)]⟩, ⟨bodyConnectionParamRsp, []⟩]⟩,
  ⟨"RejectExtInd", [⟨bodyLlcpPacket, [(0, 17)]⟩, ⟨bodyRejectExtInd, []⟩]⟩,
  ⟨"PingReq", [⟨bodyLlcpPacket, [(0, 18)]⟩, ⟨bodyPingReq, []⟩]⟩,
  ⟨"PingRsp", [⟨bodyLlcpPacket, [(0, 19)]⟩, ⟨bodyPingRsp, []⟩]⟩,
  ⟨"LengthReq", [⟨bodyLlcpPacket, [(0, 20)]⟩, ⟨bodyLengthReq, []⟩]⟩,
  ⟨"LengthRsp", [⟨bodyLlcpPacket, [(0, 21)]⟩, ⟨bodyLengthRsp, []⟩]⟩,
  ⟨"PhyReq", [⟨bodyLlcpPacket, [(0, 22)]⟩, ⟨bodyPhyReq, []⟩]⟩,
  ⟨"PhyRsp", [⟨bodyLlcpPacket, [(0, 23)]⟩, ⟨bodyPhyRsp, []⟩]⟩,
  ⟨"PhyUpdateInd", [⟨bodyLlcpPacket, [(0, 24)]⟩, ⟨bodyPhyUpdateInd, []⟩]⟩,
  ⟨"MinUsedChannelsInd", [⟨bodyLlcpPacket, [(0, 25)]⟩, ⟨bodyMinUsedChannelsInd, []⟩]⟩,
  ⟨"CteReq", [⟨bodyLlcpPacket, [(0, 26)]⟩, ⟨bodyCteReq, []⟩]⟩,
  ⟨"CteRsp", [⟨bodyLlcpPacket, [(0, 27)]⟩, ⟨bodyCteRsp, []⟩]⟩,
  ⟨"PeriodicSyncInd", [⟨bodyLlcpPacket, [(0, 28)]⟩, ⟨bodyPeriodicSyncInd, []⟩]⟩,
  ⟨"ClockAccuracyReq", [⟨bodyLlcpPacket, [(0, 29)]⟩, ⟨bodyClockAccuracyReq, []⟩]⟩,
  ⟨"ClockAccuracyRsp", [⟨bodyLlcpPacket, [(0, 30)]⟩, ⟨bodyClockAccuracyRsp, []⟩]⟩,
  ⟨"CisReq", [⟨bodyLlcpPacket, [(0, 31)]⟩, ⟨bodyCisReq, []⟩]⟩,
  ⟨"CisRsp", [⟨bodyLlcpPacket, [(0, 32)]⟩, ⟨bodyCisRsp, []⟩]⟩,
  ⟨"CisInd", [⟨bodyLlcpPacket, [(0, 33)]⟩, ⟨bodyCisInd, []⟩]⟩,
  ⟨"CisTerminateInd", [⟨bodyLlcpPacket, [(0, 34)]⟩, ⟨bodyCisTerminateInd, []⟩]⟩,
  ⟨"PowerControlReq", [⟨bodyLlcpPacket, [(0, 35)]⟩, ⟨bodyPowerControlReq, []⟩]⟩,
  ⟨"PowerControlRsp", [⟨bodyLlcpPacket, [(0, 36)]⟩, ⟨bodyPowerControlRsp, []⟩]⟩,
  ⟨"PowerChangeInd", [⟨bodyLlcpPacket, [(0, 37)]⟩, ⟨bodyPowerChangeInd, []⟩]⟩,
  ⟨"SubrateReq", [⟨bodyLlcpPacket, [(0, 38)]⟩, ⟨bodySubrateReq, []⟩]⟩,
  ⟨"SubrateInd", [⟨bodyLlcpPacket, [(0, 39)]⟩, ⟨bodySubrateInd, []⟩]⟩,
  ⟨"ChannelReportingInd", [⟨bodyLlcpPacket, [(0, 40)]⟩, ⟨bodyChannelReportingInd, []⟩]⟩,
  ⟨"ChannelStatusInd", [⟨bodyLlcpPacket, [(0, 41)]⟩, ⟨bodyChannelStatusInd, []⟩]⟩]

/-- LlcpPacket and the packets derived from it, in the order of rust/llcp_packets.pdl. -/
def packetsLlcpPacket : List Packet := packetsLlcpPacket0

end Verif.Pdl.Llcp
