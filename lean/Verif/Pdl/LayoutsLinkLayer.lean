import Verif.Pdl.Model
/-!
# The packets of packets/link_layer_packets.pdl

Written by tools/gen_pdl.py.
-/
namespace Verif.Pdl.LinkLayer

/-- `LinkLayerPacket`, packets/link_layer_packets.pdl 80. -/
def bodyLinkLayerPacket : Fmt :=
  .uint 8 <| .uint 48 <| .uint 48 <| .payload .rest <| .done

/-- `Acl`, packets/link_layer_packets.pdl 87. -/
def bodyAcl : Fmt :=
  .uint 8 <| .uint 8 <| .array (.uint 8 .done) .rest 0 <| .done

/-- `Sco`, packets/link_layer_packets.pdl 93. -/
def bodySco : Fmt :=
  .payload .rest <| .done

/-- `LeConnectedIsochronousPdu`, packets/link_layer_packets.pdl 97. -/
def bodyLeConnectedIsochronousPdu : Fmt :=
  .uint 8 <| .uint 8 <| .uint 16 <| .array (.uint 8 .done) .rest 0 <| .done

/-- `LeBroadcastIsochronousPdu`, packets/link_layer_packets.pdl 104. -/
def bodyLeBroadcastIsochronousPdu : Fmt :=
  .done

/-- `Disconnect`, packets/link_layer_packets.pdl 107. -/
def bodyDisconnect : Fmt :=
  .uint 8 <| .done

/-- `Inquiry`, packets/link_layer_packets.pdl 122. -/
def bodyInquiry : Fmt :=
  .uint 8 <| .uint 8 <| .done

/-- `BasicInquiryResponse`, packets/link_layer_packets.pdl 127. -/
def bodyBasicInquiryResponse : Fmt :=
  .uint 8 <| .uint 8 <| .uint 24 <| .uint 15 <| .reserved 1 <| .payload .rest <| .done

/-- `InquiryResponse`, packets/link_layer_packets.pdl 136. -/
def bodyInquiryResponse : Fmt :=
  .done

/-- `InquiryResponseWithRssi`, packets/link_layer_packets.pdl 139. -/
def bodyInquiryResponseWithRssi : Fmt :=
  .uint 8 <| .done

/-- `ExtendedInquiryResponse`, packets/link_layer_packets.pdl 143. -/
def bodyExtendedInquiryResponse : Fmt :=
  .uint 8 <| .array (.uint 8 .done) (.const 240) 0 <| .done

/-- `LeLegacyAdvertisingPdu`, packets/link_layer_packets.pdl 164. -/
def bodyLeLegacyAdvertisingPdu : Fmt :=
  .uint 8 <| .uint 8 <| .uint 8 <| .array (.uint 8 .done) .rest 0 <| .done

/-- `LeExtendedAdvertisingPdu`, packets/link_layer_packets.pdl 183. -/
def bodyLeExtendedAdvertisingPdu : Fmt :=
  .uint 8 <| .uint 8 <| .uint 1 <| .uint 1 <| .uint 1 <| .reserved 5 <| .uint 8 <| .uint 8 <| .uint 8 <| .uint 8 <|
   .uint 16 <| .array (.uint 8 .done) .rest 0 <| .done

/-- `LePeriodicAdvertisingPdu`, packets/link_layer_packets.pdl 198. -/
def bodyLePeriodicAdvertisingPdu : Fmt :=
  .uint 8 <| .uint 8 <| .uint 8 <| .uint 16 <| .array (.uint 8 .done) .rest 0 <| .done

/-- `LeConnect`, packets/link_layer_packets.pdl 206. -/
def bodyLeConnect : Fmt :=
  .uint 8 <| .uint 8 <| .uint 16 <| .uint 16 <| .uint 16 <| .done

/-- `LeConnectComplete`, packets/link_layer_packets.pdl 214. -/
def bodyLeConnectComplete : Fmt :=
  .uint 8 <| .uint 8 <| .uint 16 <| .uint 16 <| .uint 16 <| .done

/-- `LeScan`, packets/link_layer_packets.pdl 222. -/
def bodyLeScan : Fmt :=
  .uint 8 <| .uint 8 <| .done

/-- `LeScanResponse`, packets/link_layer_packets.pdl 227. -/
def bodyLeScanResponse : Fmt :=
  .uint 8 <| .array (.uint 8 .done) .rest 0 <| .done

/-- `Page`, packets/link_layer_packets.pdl 232. -/
def bodyPage : Fmt :=
  .uint 24 <| .uint 8 <| .done

/-- `PageResponse`, packets/link_layer_packets.pdl 237. -/
def bodyPageResponse : Fmt :=
  .uint 8 <| .done

/-- `PageReject`, packets/link_layer_packets.pdl 241. -/
def bodyPageReject : Fmt :=
  .uint 8 <| .done

/-- `ReadClockOffset`, packets/link_layer_packets.pdl 245. -/
def bodyReadClockOffset : Fmt :=
  .done

/-- `ReadClockOffsetResponse`, packets/link_layer_packets.pdl 248. -/
def bodyReadClockOffsetResponse : Fmt :=
  .uint 16 <| .done

/-- `ReadRemoteSupportedFeatures`, packets/link_layer_packets.pdl 252. -/
def bodyReadRemoteSupportedFeatures : Fmt :=
  .done

/-- `ReadRemoteSupportedFeaturesResponse`, packets/link_layer_packets.pdl 255. -/
def bodyReadRemoteSupportedFeaturesResponse : Fmt :=
  .uint 64 <| .done

/-- `ReadRemoteLmpFeatures`, packets/link_layer_packets.pdl 259. -/
def bodyReadRemoteLmpFeatures : Fmt :=
  .done

/-- `ReadRemoteLmpFeaturesResponse`, packets/link_layer_packets.pdl 262. -/
def bodyReadRemoteLmpFeaturesResponse : Fmt :=
  .uint 64 <| .done

/-- `ReadRemoteExtendedFeatures`, packets/link_layer_packets.pdl 266. -/
def bodyReadRemoteExtendedFeatures : Fmt :=
  .uint 8 <| .done

/-- `ReadRemoteExtendedFeaturesResponse`, packets/link_layer_packets.pdl 270. -/
def bodyReadRemoteExtendedFeaturesResponse : Fmt :=
  .uint 8 <| .uint 8 <| .uint 8 <| .uint 64 <| .done

/-- `ReadRemoteVersionInformation`, packets/link_layer_packets.pdl 277. -/
def bodyReadRemoteVersionInformation : Fmt :=
  .done

/-- `ReadRemoteVersionInformationResponse`, packets/link_layer_packets.pdl 280. -/
def bodyReadRemoteVersionInformationResponse : Fmt :=
  .uint 8 <| .uint 8 <| .uint 16 <| .done

/-- `RemoteNameRequest`, packets/link_layer_packets.pdl 286. -/
def bodyRemoteNameRequest : Fmt :=
  .done

/-- `RemoteNameRequestResponse`, packets/link_layer_packets.pdl 289. -/
def bodyRemoteNameRequestResponse : Fmt :=
  .array (.uint 8 .done) (.const 248) 0 <| .done

/-- `LeEncryptConnection`, packets/link_layer_packets.pdl 293. -/
def bodyLeEncryptConnection : Fmt :=
  .array (.uint 8 .done) (.const 8) 0 <| .uint 16 <| .array (.uint 8 .done) (.const 16) 0 <| .done

/-- `LeEncryptConnectionResponse`, packets/link_layer_packets.pdl 299. -/
def bodyLeEncryptConnectionResponse : Fmt :=
  .uint 8 <| .array (.uint 8 .done) (.const 8) 0 <| .uint 16 <| .array (.uint 8 .done) (.const 16) 0 <| .done

/-- `LeReadRemoteFeatures`, packets/link_layer_packets.pdl 314. -/
def bodyLeReadRemoteFeatures : Fmt :=
  .done

/-- `LeReadRemoteFeaturesResponse`, packets/link_layer_packets.pdl 317. -/
def bodyLeReadRemoteFeaturesResponse : Fmt :=
  .uint 64 <| .uint 8 <| .done

/-- `LeConnectionParameterRequest`, packets/link_layer_packets.pdl 322. -/
def bodyLeConnectionParameterRequest : Fmt :=
  .uint 16 <| .uint 16 <| .uint 16 <| .uint 16 <| .done

/-- `LeConnectionParameterUpdate`, packets/link_layer_packets.pdl 329. -/
def bodyLeConnectionParameterUpdate : Fmt :=
  .uint 8 <| .uint 16 <| .uint 16 <| .uint 16 <| .done

/-- `ScoConnectionRequest`, packets/link_layer_packets.pdl 336. -/
def bodyScoConnectionRequest : Fmt :=
  .uint 32 <| .uint 32 <| .uint 16 <| .uint 10 <| .reserved 6 <| .uint 8 <| .uint 16 <| .uint 24 <| .done

/-- `ScoConnectionResponse`, packets/link_layer_packets.pdl 347. -/
def bodyScoConnectionResponse : Fmt :=
  .uint 8 <| .uint 8 <| .uint 8 <| .uint 16 <| .uint 16 <| .uint 8 <| .uint 1 <| .reserved 7 <| .done

/-- `ScoDisconnect`, packets/link_layer_packets.pdl 358. -/
def bodyScoDisconnect : Fmt :=
  .uint 8 <| .done

/-- `Lmp`, packets/link_layer_packets.pdl 362. -/
def bodyLmp : Fmt :=
  .payload .rest <| .done

/-- `Llcp`, packets/link_layer_packets.pdl 366. -/
def bodyLlcp : Fmt :=
  .payload .rest <| .done

/-- `PingRequest`, packets/link_layer_packets.pdl 370. -/
def bodyPingRequest : Fmt :=
  .done

/-- `PingResponse`, packets/link_layer_packets.pdl 373. -/
def bodyPingResponse : Fmt :=
  .done

/-- `RoleSwitchRequest`, packets/link_layer_packets.pdl 376. -/
def bodyRoleSwitchRequest : Fmt :=
  .done

/-- `RoleSwitchResponse`, packets/link_layer_packets.pdl 379. -/
def bodyRoleSwitchResponse : Fmt :=
  .uint 8 <| .done

/-- `LlPhyReq`, packets/link_layer_packets.pdl 383. -/
def bodyLlPhyReq : Fmt :=
  .uint 8 <| .uint 8 <| .done

/-- `LlPhyRsp`, packets/link_layer_packets.pdl 388. -/
def bodyLlPhyRsp : Fmt :=
  .uint 8 <| .uint 8 <| .done

/-- `LlPhyUpdateInd`, packets/link_layer_packets.pdl 393. -/
def bodyLlPhyUpdateInd : Fmt :=
  .uint 8 <| .uint 8 <| .uint 16 <| .done

/-- `LlSubrateReq`, packets/link_layer_packets.pdl 399. -/
def bodyLlSubrateReq : Fmt :=
  .uint 16 <| .uint 16 <| .uint 16 <| .uint 16 <| .uint 16 <| .done

/-- `LlSubrateInd`, packets/link_layer_packets.pdl 407. -/
def bodyLlSubrateInd : Fmt :=
  .uint 8 <| .uint 16 <| .uint 16 <| .uint 16 <| .uint 16 <| .uint 16 <| .done

/-- `LlCsCapabilitiesReq`, packets/link_layer_packets.pdl 417. -/
def bodyLlCsCapabilitiesReq : Fmt :=
  .uint 8 <| .uint 8 <| .uint 8 <| .uint 8 <| .uint 8 <| .uint 16 <| .uint 16 <| .uint 8 <| .uint 4 <| .uint 4 <|
   .uint 2 <| .reserved 1 <| .uint 1 <| .uint 1 <| .uint 1 <| .reserved 2 <| .uint 8 <| .uint 16 <| .uint 8 <|
   .uint 16 <| .uint 16 <| .uint 16 <| .uint 16 <| .reserved 1 <| .uint 7 <| .done

/-- `LlCsCapabilitiesRsp`, packets/link_layer_packets.pdl 445. -/
def bodyLlCsCapabilitiesRsp : Fmt :=
  .uint 8 <| .uint 8 <| .uint 8 <| .uint 8 <| .uint 8 <| .uint 8 <| .uint 16 <| .uint 16 <| .uint 8 <| .uint 4 <|
   .uint 4 <| .uint 2 <| .reserved 1 <| .uint 1 <| .uint 1 <| .uint 1 <| .reserved 2 <| .uint 8 <| .uint 16 <|
   .uint 8 <| .uint 16 <| .uint 16 <| .uint 16 <| .uint 16 <| .reserved 1 <| .uint 7 <| .done

/-- `LlCsConfigReq`, packets/link_layer_packets.pdl 475. -/
def bodyLlCsConfigReq : Fmt :=
  .uint 6 <| .uint 2 <| .array (.uint 8 .done) (.const 10) 0 <| .uint 8 <| .uint 8 <| .uint 8 <| .uint 8 <| .uint 8 <|
   .uint 8 <| .uint 8 <| .uint 8 <| .uint 4 <| .uint 2 <| .reserved 2 <| .uint 4 <| .uint 4 <| .uint 8 <| .uint 8 <|
   .uint 8 <| .uint 8 <| .uint 8 <| .reserved 8 <| .done

/-- `LlCsConfigRsp`, packets/link_layer_packets.pdl 500. -/
def bodyLlCsConfigRsp : Fmt :=
  .uint 8 <| .uint 6 <| .reserved 2 <| .done

/-- `LlCsFaeReq`, packets/link_layer_packets.pdl 507. -/
def bodyLlCsFaeReq : Fmt :=
  .done

/-- `LlCsFaeRsp`, packets/link_layer_packets.pdl 510. -/
def bodyLlCsFaeRsp : Fmt :=
  .uint 8 <| .array (.uint 8 .done) (.const 72) 0 <| .done

/-- `LlCsSecurityEnableReq`, packets/link_layer_packets.pdl 516. -/
def bodyLlCsSecurityEnableReq : Fmt :=
  .uint 64 <| .uint 32 <| .uint 64 <| .done

/-- `LlCsSecurityEnableRsp`, packets/link_layer_packets.pdl 522. -/
def bodyLlCsSecurityEnableRsp : Fmt :=
  .uint 8 <| .uint 64 <| .uint 32 <| .uint 64 <| .done

/-- `LlCsReq`, packets/link_layer_packets.pdl 530. -/
def bodyLlCsReq : Fmt :=
  .uint 6 <| .reserved 2 <| .uint 16 <| .uint 24 <| .uint 24 <| .uint 16 <| .uint 16 <| .uint 8 <| .uint 16 <|
   .uint 24 <| .uint 16 <| .uint 16 <| .uint 8 <| .uint 8 <| .uint 8 <| .uint 8 <| .uint 4 <| .uint 4 <| .done

/-- `LlCsRsp`, packets/link_layer_packets.pdl 551. -/
def bodyLlCsRsp : Fmt :=
  .uint 8 <| .uint 6 <| .reserved 2 <| .uint 16 <| .uint 24 <| .uint 24 <| .uint 16 <| .uint 8 <| .uint 16 <|
   .uint 24 <| .uint 8 <| .uint 8 <| .uint 8 <| .reserved 8 <| .done

/-- `LlCsInd`, packets/link_layer_packets.pdl 569. -/
def bodyLlCsInd : Fmt :=
  .uint 8 <| .uint 6 <| .reserved 2 <| .uint 16 <| .uint 24 <| .uint 16 <| .uint 8 <| .uint 16 <| .uint 24 <|
   .uint 8 <| .uint 8 <| .uint 8 <| .reserved 8 <| .done

/-- `LlCsTerminateReq`, packets/link_layer_packets.pdl 586. -/
def bodyLlCsTerminateReq : Fmt :=
  .uint 6 <| .reserved 2 <| .uint 16 <| .uint 8 <| .done

/-- `LlCsTerminateRsp`, packets/link_layer_packets.pdl 593. -/
def bodyLlCsTerminateRsp : Fmt :=
  .uint 6 <| .reserved 2 <| .uint 16 <| .uint 8 <| .done

/-- `LlCsChannelMapInd`, packets/link_layer_packets.pdl 600. -/
def bodyLlCsChannelMapInd : Fmt :=
  .array (.uint 8 .done) (.const 10) 0 <| .uint 16 <| .done

/-- LinkLayerPacket and the packets derived from it, in the order of packets/link_layer_packets.pdl (part 1). -/
def packetsLinkLayerPacket0 : List Packet := [
  ⟨"LinkLayerPacket", [⟨bodyLinkLayerPacket, []⟩]⟩,
  ⟨"Acl", [⟨bodyLinkLayerPacket, [(0, 1)]⟩, ⟨bodyAcl, []⟩]⟩,
  ⟨"Sco", [⟨bodyLinkLayerPacket, [(0, 2)]⟩, ⟨bodySco, []⟩]⟩,
  ⟨"LeConnectedIsochronousPdu", [⟨bodyLinkLayerPacket, [(0, 3)]⟩, ⟨bodyLeConnectedIsochronousPdu, []⟩]⟩,
  ⟨"LeBroadcastIsochronousPdu", [⟨bodyLinkLayerPacket, [(0, 4)]⟩, ⟨bodyLeBroadcastIsochronousPdu, []⟩]⟩,
  ⟨"Disconnect", [⟨bodyLinkLayerPacket, [(0, 5)]⟩, ⟨bodyDisconnect, []⟩]⟩,
  ⟨"Inquiry", [⟨bodyLinkLayerPacket, [(0, 6)]⟩, ⟨bodyInquiry, []⟩]⟩,
  ⟨"BasicInquiryResponse", [⟨bodyLinkLayerPacket, [(0, 7)]⟩, ⟨bodyBasicInquiryResponse, []⟩]⟩,
  ⟨"InquiryResponse", [⟨bodyLinkLayerPacket, [(0, 7)]⟩, ⟨bodyBasicInquiryResponse, [(0, 0)]⟩, ⟨bodyInquiryResponse, []⟩]⟩,
  ⟨"InquiryResponseWithRssi", [⟨bodyLinkLayerPacket, [(0, 7)]⟩, ⟨bodyBasicInquiryResponse, [(0, 1)]⟩, ⟨bodyInquiryResponseWithRssi, []⟩]⟩,
  ⟨"ExtendedInquiryResponse", [⟨bodyLinkLayerPacket, [(0, 7)]⟩, ⟨bodyBasicInquiryResponse, [(0, 2)]⟩, ⟨bodyExtendedInquiryResponse, []⟩]⟩,
  ⟨"LeLegacyAdvertisingPdu", [⟨bodyLinkLayerPacket, [(0, 11)]⟩, ⟨bodyLeLegacyAdvertisingPdu, []⟩]⟩,
  ⟨"LeExtendedAdvertisingPdu", [⟨bodyLinkLayerPacket, [(0, 55)]⟩, ⟨bodyLeExtendedAdvertisingPdu, []⟩]⟩,
  ⟨"LePeriodicAdvertisingPdu", [⟨bodyLinkLayerPacket, [(0, 64)]⟩, ⟨bodyLePeriodicAdvertisingPdu, []⟩]⟩,
  ⟨"LeConnect", [⟨bodyLinkLayerPacket, [(0, 12)]⟩, ⟨bodyLeConnect, []⟩]⟩,
  ⟨"LeConnectComplete", [⟨bodyLinkLayerPacket, [(0, 13)]⟩, ⟨bodyLeConnectComplete, []⟩]⟩,
  ⟨"LeScan", [⟨bodyLinkLayerPacket, [(0, 14)]⟩, ⟨bodyLeScan, []⟩]⟩,
  ⟨"LeScanResponse", [⟨bodyLinkLayerPacket, [(0, 15)]⟩, ⟨bodyLeScanResponse, []⟩]⟩,
  ⟨"Page", [⟨bodyLinkLayerPacket, [(0, 16)]⟩, ⟨bodyPage, []⟩]⟩,
  ⟨"PageResponse", [⟨bodyLinkLayerPacket, [(0, 17)]⟩, ⟨bodyPageResponse, []⟩]⟩,
  ⟨"PageReject", [⟨bodyLinkLayerPacket, [(0, 18)]⟩, ⟨bodyPageReject, []⟩]⟩,
  ⟨"ReadClockOffset", [⟨bodyLinkLayerPacket, [(0, 19)]⟩, ⟨bodyReadClockOffset, []⟩]⟩,
  ⟨"ReadClockOffsetResponse", [⟨bodyLinkLayerPacket, [(0, 20)]⟩, ⟨bodyReadClockOffsetResponse, []⟩]⟩,
  ⟨"ReadRemoteSupportedFeatures", [⟨bodyLinkLayerPacket, [(0, 21)]⟩, ⟨bodyReadRemoteSupportedFeatures, []⟩]⟩,
  ⟨"ReadRemoteSupportedFeaturesResponse", [⟨bodyLinkLayerPacket, [(0, 22)]⟩, ⟨bodyReadRemoteSupportedFeaturesResponse, []⟩]⟩,
  ⟨"ReadRemoteLmpFeatures", [⟨bodyLinkLayerPacket, [(0, 23)]⟩, ⟨bodyReadRemoteLmpFeatures, []⟩]⟩,
  ⟨"ReadRemoteLmpFeaturesResponse", [⟨bodyLinkLayerPacket, [(0, 24)]⟩, ⟨bodyReadRemoteLmpFeaturesResponse, []⟩]⟩,
  ⟨"ReadRemoteExtendedFeatures", [⟨bodyLinkLayerPacket, [(0, 25)]⟩, ⟨bodyReadRemoteExtendedFeatures, []⟩]⟩,
  ⟨"ReadRemoteExtendedFeaturesResponse", [⟨bodyLinkLayerPacket, [(0, 26)]⟩, ⟨bodyReadRemoteExtendedFeaturesResponse, []⟩]⟩,
  ⟨"ReadRemoteVersionInformation", [⟨bodyLinkLayerPacket, [(0, 27)]⟩, ⟨bodyReadRemoteVersionInformation, []⟩]⟩,
  ⟨"ReadRemoteVersionInformationResponse", [⟨bodyLinkLayerPacket, [(0, 28)]⟩, ⟨bodyReadRemoteVersionInformationResponse, []⟩]⟩,
  ⟨"RemoteNameRequest", [⟨bodyLinkLayerPacket, [(0, 29)]⟩, ⟨bodyRemoteNameRequest, []⟩]⟩,
  ⟨"RemoteNameRequestResponse", [⟨bodyLinkLayerPacket, [(0, 30)]⟩, ⟨bodyRemoteNameRequestResponse, []⟩]⟩,
  ⟨"LeEncryptConnection", [⟨bodyLinkLayerPacket, [(0, 32)]⟩, ⟨bodyLeEncryptConnection, []⟩]⟩,
  ⟨"LeEncryptConnectionResponse", [⟨bodyLinkLayerPacket, [(0, 33)]⟩, ⟨bodyLeEncryptConnectionResponse, []⟩]⟩,
  ⟨"LeReadRemoteFeatures", [⟨bodyLinkLayerPacket, [(0, 44)]⟩, ⟨bodyLeReadRemoteFeatures, []⟩]⟩,
  ⟨"LeReadRemoteFeaturesResponse", [⟨bodyLinkLayerPacket, [(0, 45)]⟩, ⟨bodyLeReadRemoteFeaturesResponse, []⟩]⟩,
  ⟨"LeConnectionParameterRequest", [⟨bodyLinkLayerPacket, [(0, 46)]⟩, ⟨bodyLeConnectionParameterRequest, []⟩]⟩,
  ⟨"LeConnectionParameterUpdate", [⟨bodyLinkLayerPacket, [(0, 47)]⟩, ⟨bodyLeConnectionParameterUpdate, []⟩]⟩,
  ⟨"ScoConnectionRequest", [⟨bodyLinkLayerPacket, [(0, 48)]⟩, ⟨bodyScoConnectionRequest, []⟩]⟩,
  ⟨"ScoConnectionResponse", [⟨bodyLinkLayerPacket, [(0, 49)]⟩, ⟨bodyScoConnectionResponse, []⟩]⟩,
  ⟨"ScoDisconnect", [⟨bodyLinkLayerPacket, [(0, 50)]⟩, ⟨bodyScoDisconnect, []⟩]⟩,
  ⟨"Lmp", [⟨bodyLinkLayerPacket, [(0, 52)]⟩, ⟨bodyLmp, []⟩]⟩,
  ⟨"Llcp", [⟨bodyLinkLayerPacket, [(0, 65)]⟩, ⟨bodyLlcp, []⟩]⟩,
  ⟨"PingRequest", [⟨bodyLinkLayerPacket, [(0, 53)]⟩, ⟨bodyPingRequest, []⟩]⟩,
  ⟨"PingResponse", [⟨bodyLinkLayerPacket, [(0, 54)]⟩, ⟨bodyPingResponse, []⟩]⟩,
  ⟨"RoleSwitchRequest", [⟨bodyLinkLayerPacket, [(0, 56)]⟩, ⟨bodyRoleSwitchRequest, []⟩]⟩,
  ⟨"RoleSwitchResponse", [⟨bodyLinkLayerPacket, [(0, 57)]⟩, ⟨bodyRoleSwitchResponse, []⟩]⟩,
  ⟨"LlPhyReq", [⟨bodyLinkLayerPacket, [(0, 80)]⟩, ⟨bodyLlPhyReq, []⟩]⟩,
  ⟨"LlPhyRsp", [⟨bodyLinkLayerPacket, [(0, 81)]⟩, ⟨bodyLlPhyRsp, []⟩]⟩,
  ⟨"LlPhyUpdateInd", [⟨bodyLinkLayerPacket, [(0, 82)]⟩, ⟨bodyLlPhyUpdateInd, []⟩]⟩,
  ⟨"LlSubrateReq", [⟨bodyLinkLayerPacket, [(0, 83)]⟩, ⟨bodyLlSubrateReq, []⟩]⟩,
  ⟨"LlSubrateInd", [⟨bodyLinkLayerPacket, [(0, 84)]⟩, ⟨bodyLlSubrateInd, []⟩]⟩,
  ⟨"LlCsCapabilitiesReq", [⟨bodyLinkLayerPacket, [(0, 240)]⟩, ⟨bodyLlCsCapabilitiesReq, []⟩]⟩,
  ⟨"LlCsCapabilitiesRsp", [⟨bodyLinkLayerPacket, [(0, 241)]⟩, ⟨bodyLlCsCapabilitiesRsp, []⟩]⟩,
  ⟨"LlCsConfigReq", [⟨bodyLinkLayerPacket, [(0, 244)]⟩, ⟨bodyLlCsConfigReq, []⟩]⟩,
  ⟨"LlCsConfigRsp", [⟨bodyLinkLayerPacket, [(0, 245)]⟩, ⟨bodyLlCsConfigRsp, []⟩]⟩,
  ⟨"LlCsFaeReq", [⟨bodyLinkLayerPacket, [(0, 242)]⟩, ⟨bodyLlCsFaeReq, []⟩]⟩,
  ⟨"LlCsFaeRsp", [⟨bodyLinkLayerPacket, [(0, 243)]⟩, ⟨bodyLlCsFaeRsp, []⟩]⟩,
  ⟨"LlCsSecurityEnableReq", [⟨bodyLinkLayerPacket, [(0, 246)]⟩, ⟨bodyLlCsSecurityEnableReq, []⟩]⟩,
  ⟨"LlCsSecurityEnableRsp", [⟨bodyLinkLayerPacket, [(0, 247)]⟩, ⟨bodyLlCsSecurityEnableRsp, []⟩]⟩,
  ⟨"LlCsReq", [⟨bodyLinkLayerPacket, [(0, 248)]⟩, ⟨bodyLlCsReq, []⟩]⟩,
  ⟨"LlCsRsp", [⟨bodyLinkLayerPacket, [(0, 249)]⟩, ⟨bodyLlCsRsp, []⟩]⟩,
  ⟨"LlCsInd", [⟨bodyLinkLayerPacket, [(0, 250)]⟩, ⟨bodyLlCsInd, []⟩]⟩,
  ⟨"LlCsTerminateReq", [⟨bodyLinkLayerPacket, [(0, 251)]⟩, ⟨bodyLlCsTerminateReq, []⟩]⟩,
  ⟨"LlCsTerminateRsp", [⟨bodyLinkLayerPacket, [(0, 252)]⟩, ⟨bodyLlCsTerminateRsp, []⟩]⟩,
  ⟨"LlCsChannelMapInd", [⟨bodyLinkLayerPacket, [(0, 253)]⟩, ⟨bodyLlCsChannelMapInd, []⟩]⟩]

/-- LinkLayerPacket and the packets derived from it, in the order of packets/link_layer_packets.pdl. -/
def packetsLinkLayerPacket : List Packet := packetsLinkLayerPacket0

end Verif.Pdl.LinkLayer
