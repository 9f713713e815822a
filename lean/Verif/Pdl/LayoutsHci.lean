import Verif.Pdl.Model
/-!
# The packets of packets/hci_packets.pdl

Written by tools/gen_pdl.py.
-/
namespace Verif.Pdl.Hci

/-- `Lap`, packets/hci_packets.pdl 995. -/
def structLap : Fmt :=
  .uint 6 <| .reserved 2 <| .fixed 16 0x9e8b <| .done

/-- `ScoCodingFormat`, packets/hci_packets.pdl 1486. -/
def structScoCodingFormat : Fmt :=
  .uint 8 <| .uint 16 <| .uint 16 <| .done

/-- `KeyAndAddress`, packets/hci_packets.pdl 1933. -/
def structKeyAndAddress : Fmt :=
  .uint 48 <| .array (.uint 8 .done) (.const 16) 0 <| .done

/-- `CompletedPackets`, packets/hci_packets.pdl 2283. -/
def structCompletedPackets : Fmt :=
  .uint 12 <| .reserved 4 <| .uint 16 <| .done

/-- `LocalVersionInformation`, packets/hci_packets.pdl 2719. -/
def structLocalVersionInformation : Fmt :=
  .uint 8 <| .uint 16 <| .uint 8 <| .uint 16 <| .uint 16 <| .done

/-- `CodecConfiguration`, packets/hci_packets.pdl 2948. -/
def structCodecConfiguration : Fmt :=
  .uint 8 <| .uint 1 <| .uint 1 <| .uint 1 <| .uint 1 <| .reserved 4 <| .done

/-- `VendorCodecConfiguration`, packets/hci_packets.pdl 2953. -/
def structVendorCodecConfiguration : Fmt :=
  .uint 16 <| .uint 16 <| .uint 1 <| .uint 1 <| .uint 1 <| .uint 1 <| .reserved 4 <| .done

/-- `CodecCapability`, packets/hci_packets.pdl 2975. -/
def structCodecCapability : Fmt :=
  .len 0 8 <| .array (.uint 8 .done) (.size 0) 0 <| .done

/-- `LeBufferSize`, packets/hci_packets.pdl 3163. -/
def structLeBufferSize : Fmt :=
  .uint 16 <| .uint 8 <| .done

/-- `LeMaximumDataLength`, packets/hci_packets.pdl 3781. -/
def structLeMaximumDataLength : Fmt :=
  .uint 16 <| .uint 16 <| .uint 16 <| .uint 16 <| .done

/-- `AdvertisingEventProperties`, packets/hci_packets.pdl 3900. -/
def structAdvertisingEventProperties : Fmt :=
  .uint 1 <| .uint 1 <| .uint 1 <| .uint 1 <| .uint 1 <| .uint 1 <| .uint 1 <| .uint 1 <| .uint 1 <| .uint 1 <|
   .reserved 6 <| .done

/-- `EnabledSet`, packets/hci_packets.pdl 4045. -/
def structEnabledSet : Fmt :=
  .uint 8 <| .uint 16 <| .uint 8 <| .done

/-- `ScanningPhyParameters`, packets/hci_packets.pdl 4167. -/
def structScanningPhyParameters : Fmt :=
  .uint 8 <| .uint 16 <| .uint 16 <| .done

/-- `InitiatingPhyParameters`, packets/hci_packets.pdl 4219. -/
def structInitiatingPhyParameters : Fmt :=
  .uint 16 <| .uint 16 <| .uint 16 <| .uint 16 <| .uint 16 <| .uint 16 <| .uint 16 <| .uint 16 <| .done

/-- `PeriodicAdvertisingOptions`, packets/hci_packets.pdl 4268. -/
def structPeriodicAdvertisingOptions : Fmt :=
  .uint 1 <| .uint 1 <| .uint 1 <| .reserved 5 <| .done

/-- `CisParametersConfig`, packets/hci_packets.pdl 4510. -/
def structCisParametersConfig : Fmt :=
  .uint 8 <| .uint 12 <| .reserved 4 <| .uint 12 <| .reserved 4 <| .uint 3 <| .reserved 5 <| .uint 3 <| .reserved 5 <|
   .uint 4 <| .reserved 4 <| .uint 4 <| .reserved 4 <| .done

/-- `LeCisParametersTestConfig`, packets/hci_packets.pdl 4562. -/
def structLeCisParametersTestConfig : Fmt :=
  .uint 8 <| .uint 8 <| .uint 16 <| .uint 16 <| .uint 16 <| .uint 16 <| .uint 8 <| .uint 8 <| .uint 8 <| .uint 8 <|
   .done

/-- `LeCreateCisConfig`, packets/hci_packets.pdl 4596. -/
def structLeCreateCisConfig : Fmt :=
  .uint 12 <| .reserved 4 <| .uint 12 <| .reserved 4 <| .done

/-- `CsStepData`, packets/hci_packets.pdl 5353. -/
def structCsStepData : Fmt :=
  .uint 8 <| .uint 8 <| .len 0 8 <| .array (.uint 8 .done) (.size 0) 0 <| .done

/-- `InquiryResponse`, packets/hci_packets.pdl 5394. -/
def structInquiryResponse : Fmt :=
  .uint 48 <| .uint 8 <| .reserved 8 <| .reserved 8 <| .uint 24 <| .uint 15 <| .reserved 1 <| .done

/-- `ZeroKeyAndAddress`, packets/hci_packets.pdl 5552. -/
def structZeroKeyAndAddress : Fmt :=
  .uint 48 <| .fixed 64 0 <| .fixed 64 0 <| .done

/-- `InquiryResponseWithRssi`, packets/hci_packets.pdl 5639. -/
def structInquiryResponseWithRssi : Fmt :=
  .uint 48 <| .uint 8 <| .reserved 8 <| .uint 24 <| .uint 15 <| .reserved 1 <| .uint 8 <| .done

/-- `LeAdvertisingResponse`, packets/hci_packets.pdl 5856. -/
def structLeAdvertisingResponse : Fmt :=
  .uint 8 <| .uint 8 <| .uint 48 <| .len 0 8 <| .array (.uint 8 .done) (.size 0) 0 <| .uint 8 <| .done

/-- `LeDirectedAdvertisingResponse`, packets/hci_packets.pdl 5964. -/
def structLeDirectedAdvertisingResponse : Fmt :=
  .uint 8 <| .uint 8 <| .uint 48 <| .uint 8 <| .uint 48 <| .uint 8 <| .done

/-- `LeExtendedAdvertisingResponse`, packets/hci_packets.pdl 5993. -/
def structLeExtendedAdvertisingResponse : Fmt :=
  .uint 1 <| .uint 1 <| .uint 1 <| .uint 1 <| .uint 1 <| .uint 2 <| .reserved 9 <| .uint 8 <| .uint 48 <| .uint 8 <|
   .uint 8 <| .uint 8 <| .uint 8 <| .uint 8 <| .uint 16 <| .uint 8 <| .uint 48 <| .len 0 8 <|
   .array (.uint 8 .done) (.size 0) 0 <| .done

/-- `VendorCapabilities_V_0_96`, packets/hci_packets.pdl 6470. -/
def structVendorCapabilities_V_0_96 : Fmt :=
  .uint 8 <| .uint 8 <| .uint 16 <| .uint 8 <| .uint 8 <| .uint 8 <| .uint 8 <| .fixed 16 0x0060 <| .uint 16 <|
   .uint 8 <| .uint 8 <| .uint 8 <| .done

/-- `VendorCapabilities_V_0_98`, packets/hci_packets.pdl 6485. -/
def structVendorCapabilities_V_0_98 : Fmt :=
  .reserved 8 <| .reserved 8 <| .uint 16 <| .uint 8 <| .uint 8 <| .uint 8 <| .uint 8 <| .fixed 16 0x0062 <|
   .uint 16 <| .uint 8 <| .uint 8 <| .reserved 8 <| .uint 32 <| .uint 8 <| .done

/-- `VendorCapabilities_V_1_03`, packets/hci_packets.pdl 6502. -/
def structVendorCapabilities_V_1_03 : Fmt :=
  .reserved 8 <| .reserved 8 <| .uint 16 <| .uint 8 <| .uint 8 <| .uint 8 <| .uint 8 <| .fixed 16 0x0103 <|
   .uint 16 <| .uint 8 <| .uint 8 <| .reserved 8 <| .uint 32 <| .uint 8 <| .uint 32 <| .done

/-- `VendorCapabilities_V_1_06`, packets/hci_packets.pdl 6520. -/
def structVendorCapabilities_V_1_06 : Fmt :=
  .reserved 8 <| .reserved 8 <| .uint 16 <| .uint 8 <| .uint 8 <| .uint 8 <| .uint 8 <| .fixed 16 0x0106 <|
   .uint 16 <| .uint 8 <| .uint 8 <| .reserved 8 <| .uint 32 <| .uint 8 <| .uint 32 <| .uint 8 <| .uint 8 <|
   .uint 8 <| .uint 16 <| .uint 16 <| .uint 16 <| .uint 8 <| .done

/-- `TruncatedResult`, packets/hci_packets.pdl 6617. -/
def structTruncatedResult : Fmt :=
  .uint 48 <| .uint 8 <| .uint 8 <| .uint 8 <| .uint 16 <| .done

/-- `FullResult`, packets/hci_packets.pdl 6630. -/
def structFullResult : Fmt :=
  .uint 48 <| .uint 8 <| .uint 8 <| .uint 8 <| .uint 16 <| .len 0 8 <| .array (.uint 8 .done) (.size 0) 0 <|
   .len 1 8 <| .array (.uint 8 .done) (.size 1) 0 <| .done

/-- `AdvtInfo`, packets/hci_packets.pdl 6884. -/
def structAdvtInfo : Fmt :=
  .uint 8 <| .uint 8 <| .uint 16 <| .len 0 8 <| .array (.uint 8 .done) (.size 0) 0 <| .len 1 8 <|
   .array (.uint 8 .done) (.size 1) 0 <| .done

/-- `Acl`, packets/hci_packets.pdl 23. -/
def bodyAcl : Fmt :=
  .uint 12 <| .uint 2 <| .uint 2 <| .len 0 16 <| .payload (.size 0) <| .done

/-- `Sco`, packets/hci_packets.pdl 40. -/
def bodySco : Fmt :=
  .uint 12 <| .uint 2 <| .reserved 2 <| .len 0 8 <| .array (.uint 8 .done) (.size 0) 0 <| .done

/-- `Command`, packets/hci_packets.pdl 768. -/
def bodyCommand : Fmt :=
  .uint 16 <| .len 0 8 <| .payload (.size 0) <| .done

/-- `Event`, packets/hci_packets.pdl 901. -/
def bodyEvent : Fmt :=
  .uint 8 <| .len 0 8 <| .payload (.size 0) <| .done

/-- `LeMetaEvent`, packets/hci_packets.pdl 907. -/
def bodyLeMetaEvent : Fmt :=
  .uint 8 <| .payload .rest <| .done

/-- `CommandComplete`, packets/hci_packets.pdl 973. -/
def bodyCommandComplete : Fmt :=
  .uint 8 <| .uint 16 <| .payload .rest <| .done

/-- `CommandStatus`, packets/hci_packets.pdl 979. -/
def bodyCommandStatus : Fmt :=
  .uint 8 <| .uint 8 <| .uint 16 <| .payload .rest <| .done

/-- `VendorSpecificEvent`, packets/hci_packets.pdl 986. -/
def bodyVendorSpecificEvent : Fmt :=
  .uint 8 <| .payload .rest <| .done

/-- `NoCommandComplete`, packets/hci_packets.pdl 992. -/
def bodyNoCommandComplete : Fmt :=
  .done

/-- `Inquiry`, packets/hci_packets.pdl 1002. -/
def bodyInquiry : Fmt :=
  .group structLap <| .uint 8 <| .uint 8 <| .done

/-- `InquiryStatus`, packets/hci_packets.pdl 1012. -/
def bodyInquiryStatus : Fmt :=
  .done

/-- `InquiryCancel`, packets/hci_packets.pdl 1019. -/
def bodyInquiryCancel : Fmt :=
  .done

/-- `InquiryCancelComplete`, packets/hci_packets.pdl 1026. -/
def bodyInquiryCancelComplete : Fmt :=
  .uint 8 <| .done

/-- `PeriodicInquiryMode`, packets/hci_packets.pdl 1034. -/
def bodyPeriodicInquiryMode : Fmt :=
  .uint 16 <| .uint 16 <| .group structLap <| .uint 8 <| .uint 8 <| .done

/-- `PeriodicInquiryModeComplete`, packets/hci_packets.pdl 1046. -/
def bodyPeriodicInquiryModeComplete : Fmt :=
  .uint 8 <| .done

/-- `ExitPeriodicInquiryMode`, packets/hci_packets.pdl 1054. -/
def bodyExitPeriodicInquiryMode : Fmt :=
  .done

/-- `ExitPeriodicInquiryModeComplete`, packets/hci_packets.pdl 1061. -/
def bodyExitPeriodicInquiryModeComplete : Fmt :=
  .uint 8 <| .done

/-- `CreateConnection`, packets/hci_packets.pdl 1085. -/
def bodyCreateConnection : Fmt :=
  .uint 48 <| .uint 16 <| .uint 8 <| .reserved 8 <| .uint 15 <| .uint 1 <| .uint 8 <| .done

/-- `CreateConnectionStatus`, packets/hci_packets.pdl 1095. -/
def bodyCreateConnectionStatus : Fmt :=
  .done

/-- `Disconnect`, packets/hci_packets.pdl 1110. -/
def bodyDisconnect : Fmt :=
  .uint 12 <| .reserved 4 <| .uint 8 <| .done

/-- `DisconnectStatus`, packets/hci_packets.pdl 1116. -/
def bodyDisconnectStatus : Fmt :=
  .done

/-- `AddScoConnection`, packets/hci_packets.pdl 1119. -/
def bodyAddScoConnection : Fmt :=
  .uint 12 <| .reserved 4 <| .uint 16 <| .done

/-- `AddScoConnectionStatus`, packets/hci_packets.pdl 1125. -/
def bodyAddScoConnectionStatus : Fmt :=
  .done

/-- `CreateConnectionCancel`, packets/hci_packets.pdl 1128. -/
def bodyCreateConnectionCancel : Fmt :=
  .uint 48 <| .done

/-- `CreateConnectionCancelComplete`, packets/hci_packets.pdl 1132. -/
def bodyCreateConnectionCancelComplete : Fmt :=
  .uint 8 <| .uint 48 <| .done

/-- `AcceptConnectionRequest`, packets/hci_packets.pdl 1142. -/
def bodyAcceptConnectionRequest : Fmt :=
  .uint 48 <| .uint 8 <| .done

/-- `AcceptConnectionRequestStatus`, packets/hci_packets.pdl 1147. -/
def bodyAcceptConnectionRequestStatus : Fmt :=
  .done

/-- `RejectConnectionRequest`, packets/hci_packets.pdl 1156. -/
def bodyRejectConnectionRequest : Fmt :=
  .uint 48 <| .uint 8 <| .done

/-- `RejectConnectionRequestStatus`, packets/hci_packets.pdl 1161. -/
def bodyRejectConnectionRequestStatus : Fmt :=
  .done

/-- `LinkKeyRequestReply`, packets/hci_packets.pdl 1164. -/
def bodyLinkKeyRequestReply : Fmt :=
  .uint 48 <| .array (.uint 8 .done) (.const 16) 0 <| .done

/-- `LinkKeyRequestReplyComplete`, packets/hci_packets.pdl 1169. -/
def bodyLinkKeyRequestReplyComplete : Fmt :=
  .uint 8 <| .uint 48 <| .done

/-- `LinkKeyRequestNegativeReply`, packets/hci_packets.pdl 1174. -/
def bodyLinkKeyRequestNegativeReply : Fmt :=
  .uint 48 <| .done

/-- `LinkKeyRequestNegativeReplyComplete`, packets/hci_packets.pdl 1178. -/
def bodyLinkKeyRequestNegativeReplyComplete : Fmt :=
  .uint 8 <| .uint 48 <| .done

/-- `PinCodeRequestReply`, packets/hci_packets.pdl 1183. -/
def bodyPinCodeRequestReply : Fmt :=
  .uint 48 <| .uint 5 <| .reserved 3 <| .array (.uint 8 .done) (.const 16) 0 <| .done

/-- `PinCodeRequestReplyComplete`, packets/hci_packets.pdl 1190. -/
def bodyPinCodeRequestReplyComplete : Fmt :=
  .uint 8 <| .uint 48 <| .done

/-- `PinCodeRequestNegativeReply`, packets/hci_packets.pdl 1195. -/
def bodyPinCodeRequestNegativeReply : Fmt :=
  .uint 48 <| .done

/-- `PinCodeRequestNegativeReplyComplete`, packets/hci_packets.pdl 1199. -/
def bodyPinCodeRequestNegativeReplyComplete : Fmt :=
  .uint 8 <| .uint 48 <| .done

/-- `ChangeConnectionPacketType`, packets/hci_packets.pdl 1204. -/
def bodyChangeConnectionPacketType : Fmt :=
  .uint 12 <| .reserved 4 <| .uint 16 <| .done

/-- `ChangeConnectionPacketTypeStatus`, packets/hci_packets.pdl 1210. -/
def bodyChangeConnectionPacketTypeStatus : Fmt :=
  .done

/-- `AuthenticationRequested`, packets/hci_packets.pdl 1213. -/
def bodyAuthenticationRequested : Fmt :=
  .uint 12 <| .reserved 4 <| .done

/-- `AuthenticationRequestedStatus`, packets/hci_packets.pdl 1218. -/
def bodyAuthenticationRequestedStatus : Fmt :=
  .done

/-- `SetConnectionEncryption`, packets/hci_packets.pdl 1221. -/
def bodySetConnectionEncryption : Fmt :=
  .uint 12 <| .reserved 4 <| .uint 8 <| .done

/-- `SetConnectionEncryptionStatus`, packets/hci_packets.pdl 1227. -/
def bodySetConnectionEncryptionStatus : Fmt :=
  .done

/-- `ChangeConnectionLinkKey`, packets/hci_packets.pdl 1230. -/
def bodyChangeConnectionLinkKey : Fmt :=
  .uint 12 <| .reserved 4 <| .done

/-- `ChangeConnectionLinkKeyStatus`, packets/hci_packets.pdl 1235. -/
def bodyChangeConnectionLinkKeyStatus : Fmt :=
  .done

/-- `CentralLinkKey`, packets/hci_packets.pdl 1243. -/
def bodyCentralLinkKey : Fmt :=
  .uint 8 <| .done

/-- `CentralLinkKeyStatus`, packets/hci_packets.pdl 1247. -/
def bodyCentralLinkKeyStatus : Fmt :=
  .done

/-- `RemoteNameRequest`, packets/hci_packets.pdl 1250. -/
def bodyRemoteNameRequest : Fmt :=
  .uint 48 <| .uint 8 <| .reserved 8 <| .uint 15 <| .uint 1 <| .done

/-- `RemoteNameRequestStatus`, packets/hci_packets.pdl 1258. -/
def bodyRemoteNameRequestStatus : Fmt :=
  .done

/-- `RemoteNameRequestCancel`, packets/hci_packets.pdl 1261. -/
def bodyRemoteNameRequestCancel : Fmt :=
  .uint 48 <| .done

/-- `RemoteNameRequestCancelComplete`, packets/hci_packets.pdl 1265. -/
def bodyRemoteNameRequestCancelComplete : Fmt :=
  .uint 8 <| .uint 48 <| .done

/-- `ReadRemoteSupportedFeatures`, packets/hci_packets.pdl 1270. -/
def bodyReadRemoteSupportedFeatures : Fmt :=
  .uint 12 <| .reserved 4 <| .done

/-- `ReadRemoteSupportedFeaturesStatus`, packets/hci_packets.pdl 1275. -/
def bodyReadRemoteSupportedFeaturesStatus : Fmt :=
  .done

/-- `ReadRemoteExtendedFeatures`, packets/hci_packets.pdl 1278. -/
def bodyReadRemoteExtendedFeatures : Fmt :=
  .uint 12 <| .reserved 4 <| .uint 8 <| .done

/-- `ReadRemoteExtendedFeaturesStatus`, packets/hci_packets.pdl 1284. -/
def bodyReadRemoteExtendedFeaturesStatus : Fmt :=
  .done

/-- `ReadRemoteVersionInformation`, packets/hci_packets.pdl 1287. -/
def bodyReadRemoteVersionInformation : Fmt :=
  .uint 12 <| .reserved 4 <| .done

/-- `ReadRemoteVersionInformationStatus`, packets/hci_packets.pdl 1292. -/
def bodyReadRemoteVersionInformationStatus : Fmt :=
  .done

/-- `ReadClockOffset`, packets/hci_packets.pdl 1295. -/
def bodyReadClockOffset : Fmt :=
  .uint 12 <| .reserved 4 <| .done

/-- `ReadClockOffsetStatus`, packets/hci_packets.pdl 1300. -/
def bodyReadClockOffsetStatus : Fmt :=
  .done

/-- `ReadLmpHandle`, packets/hci_packets.pdl 1303. -/
def bodyReadLmpHandle : Fmt :=
  .uint 12 <| .reserved 4 <| .done

/-- `ReadLmpHandleComplete`, packets/hci_packets.pdl 1308. -/
def bodyReadLmpHandleComplete : Fmt :=
  .uint 8 <| .uint 12 <| .reserved 4 <| .uint 8 <| .reserved 32 <| .done

/-- `SetupSynchronousConnection`, packets/hci_packets.pdl 1336. -/
def bodySetupSynchronousConnection : Fmt :=
  .uint 12 <| .reserved 4 <| .uint 32 <| .uint 32 <| .uint 16 <| .uint 10 <| .reserved 6 <| .uint 8 <| .uint 16 <|
   .done

/-- `SetupSynchronousConnectionStatus`, packets/hci_packets.pdl 1348. -/
def bodySetupSynchronousConnectionStatus : Fmt :=
  .done

/-- `AcceptSynchronousConnection`, packets/hci_packets.pdl 1351. -/
def bodyAcceptSynchronousConnection : Fmt :=
  .uint 48 <| .uint 32 <| .uint 32 <| .uint 16 <| .uint 10 <| .reserved 6 <| .uint 8 <| .uint 16 <| .done

/-- `AcceptSynchronousConnectionStatus`, packets/hci_packets.pdl 1362. -/
def bodyAcceptSynchronousConnectionStatus : Fmt :=
  .done

/-- `RejectSynchronousConnection`, packets/hci_packets.pdl 1365. -/
def bodyRejectSynchronousConnection : Fmt :=
  .uint 48 <| .uint 8 <| .done

/-- `RejectSynchronousConnectionStatus`, packets/hci_packets.pdl 1370. -/
def bodyRejectSynchronousConnectionStatus : Fmt :=
  .done

/-- `IoCapabilityRequestReply`, packets/hci_packets.pdl 1396. -/
def bodyIoCapabilityRequestReply : Fmt :=
  .uint 48 <| .uint 8 <| .uint 8 <| .uint 8 <| .done

/-- `IoCapabilityRequestReplyComplete`, packets/hci_packets.pdl 1403. -/
def bodyIoCapabilityRequestReplyComplete : Fmt :=
  .uint 8 <| .uint 48 <| .done

/-- `UserConfirmationRequestReply`, packets/hci_packets.pdl 1408. -/
def bodyUserConfirmationRequestReply : Fmt :=
  .uint 48 <| .done

/-- `UserConfirmationRequestReplyComplete`, packets/hci_packets.pdl 1412. -/
def bodyUserConfirmationRequestReplyComplete : Fmt :=
  .uint 8 <| .uint 48 <| .done

/-- `UserConfirmationRequestNegativeReply`, packets/hci_packets.pdl 1417. -/
def bodyUserConfirmationRequestNegativeReply : Fmt :=
  .uint 48 <| .done

/-- `UserConfirmationRequestNegativeReplyComplete`, packets/hci_packets.pdl 1421. -/
def bodyUserConfirmationRequestNegativeReplyComplete : Fmt :=
  .uint 8 <| .uint 48 <| .done

/-- `UserPasskeyRequestReply`, packets/hci_packets.pdl 1426. -/
def bodyUserPasskeyRequestReply : Fmt :=
  .uint 48 <| .uint 32 <| .done

/-- `UserPasskeyRequestReplyComplete`, packets/hci_packets.pdl 1431. -/
def bodyUserPasskeyRequestReplyComplete : Fmt :=
  .uint 8 <| .uint 48 <| .done

/-- `UserPasskeyRequestNegativeReply`, packets/hci_packets.pdl 1436. -/
def bodyUserPasskeyRequestNegativeReply : Fmt :=
  .uint 48 <| .done

/-- `UserPasskeyRequestNegativeReplyComplete`, packets/hci_packets.pdl 1440. -/
def bodyUserPasskeyRequestNegativeReplyComplete : Fmt :=
  .uint 8 <| .uint 48 <| .done

/-- `RemoteOobDataRequestReply`, packets/hci_packets.pdl 1445. -/
def bodyRemoteOobDataRequestReply : Fmt :=
  .uint 48 <| .array (.uint 8 .done) (.const 16) 0 <| .array (.uint 8 .done) (.const 16) 0 <| .done

/-- `RemoteOobDataRequestReplyComplete`, packets/hci_packets.pdl 1451. -/
def bodyRemoteOobDataRequestReplyComplete : Fmt :=
  .uint 8 <| .uint 48 <| .done

/-- `RemoteOobDataRequestNegativeReply`, packets/hci_packets.pdl 1456. -/
def bodyRemoteOobDataRequestNegativeReply : Fmt :=
  .uint 48 <| .done

/-- `RemoteOobDataRequestNegativeReplyComplete`, packets/hci_packets.pdl 1460. -/
def bodyRemoteOobDataRequestNegativeReplyComplete : Fmt :=
  .uint 8 <| .uint 48 <| .done

/-- `IoCapabilityRequestNegativeReply`, packets/hci_packets.pdl 1465. -/
def bodyIoCapabilityRequestNegativeReply : Fmt :=
  .uint 48 <| .uint 8 <| .done

/-- `IoCapabilityRequestNegativeReplyComplete`, packets/hci_packets.pdl 1470. -/
def bodyIoCapabilityRequestNegativeReplyComplete : Fmt :=
  .uint 8 <| .uint 48 <| .done

/-- `EnhancedSetupSynchronousConnection`, packets/hci_packets.pdl 1510. -/
def bodyEnhancedSetupSynchronousConnection : Fmt :=
  .uint 12 <| .reserved 4 <| .uint 32 <| .uint 32 <| .group structScoCodingFormat <| .group structScoCodingFormat <|
   .uint 16 <| .uint 16 <| .uint 32 <| .uint 32 <| .group structScoCodingFormat <| .group structScoCodingFormat <|
   .uint 16 <| .uint 16 <| .uint 8 <| .uint 8 <| .uint 8 <| .uint 8 <| .uint 8 <| .uint 8 <| .uint 8 <| .uint 8 <|
   .uint 16 <| .uint 16 <| .uint 8 <| .done

/-- `EnhancedSetupSynchronousConnectionStatus`, packets/hci_packets.pdl 1564. -/
def bodyEnhancedSetupSynchronousConnectionStatus : Fmt :=
  .done

/-- `EnhancedAcceptSynchronousConnection`, packets/hci_packets.pdl 1567. -/
def bodyEnhancedAcceptSynchronousConnection : Fmt :=
  .uint 48 <| .uint 32 <| .uint 32 <| .group structScoCodingFormat <| .group structScoCodingFormat <| .uint 16 <|
   .uint 16 <| .uint 32 <| .uint 32 <| .group structScoCodingFormat <| .group structScoCodingFormat <| .uint 16 <|
   .uint 16 <| .uint 8 <| .uint 8 <| .uint 8 <| .uint 8 <| .uint 8 <| .uint 8 <| .uint 8 <| .uint 8 <| .uint 16 <|
   .uint 16 <| .uint 8 <| .done

/-- `EnhancedAcceptSynchronousConnectionStatus`, packets/hci_packets.pdl 1616. -/
def bodyEnhancedAcceptSynchronousConnectionStatus : Fmt :=
  .done

/-- `RemoteOobExtendedDataRequestReply`, packets/hci_packets.pdl 1619. -/
def bodyRemoteOobExtendedDataRequestReply : Fmt :=
  .uint 48 <| .array (.uint 8 .done) (.const 16) 0 <| .array (.uint 8 .done) (.const 16) 0 <|
   .array (.uint 8 .done) (.const 16) 0 <| .array (.uint 8 .done) (.const 16) 0 <| .done

/-- `RemoteOobExtendedDataRequestReplyComplete`, packets/hci_packets.pdl 1627. -/
def bodyRemoteOobExtendedDataRequestReplyComplete : Fmt :=
  .uint 8 <| .uint 48 <| .done

/-- `HoldMode`, packets/hci_packets.pdl 1634. -/
def bodyHoldMode : Fmt :=
  .uint 12 <| .reserved 4 <| .uint 16 <| .uint 16 <| .done

/-- `HoldModeStatus`, packets/hci_packets.pdl 1641. -/
def bodyHoldModeStatus : Fmt :=
  .done

/-- `SniffMode`, packets/hci_packets.pdl 1645. -/
def bodySniffMode : Fmt :=
  .uint 12 <| .reserved 4 <| .uint 16 <| .uint 16 <| .uint 16 <| .uint 16 <| .done

/-- `SniffModeStatus`, packets/hci_packets.pdl 1654. -/
def bodySniffModeStatus : Fmt :=
  .done

/-- `ExitSniffMode`, packets/hci_packets.pdl 1658. -/
def bodyExitSniffMode : Fmt :=
  .uint 12 <| .reserved 4 <| .done

/-- `ExitSniffModeStatus`, packets/hci_packets.pdl 1663. -/
def bodyExitSniffModeStatus : Fmt :=
  .done

/-- `QosSetup`, packets/hci_packets.pdl 1672. -/
def bodyQosSetup : Fmt :=
  .uint 12 <| .reserved 4 <| .reserved 8 <| .uint 8 <| .uint 32 <| .uint 32 <| .uint 32 <| .uint 32 <| .done

/-- `QosSetupStatus`, packets/hci_packets.pdl 1683. -/
def bodyQosSetupStatus : Fmt :=
  .done

/-- `RoleDiscovery`, packets/hci_packets.pdl 1686. -/
def bodyRoleDiscovery : Fmt :=
  .uint 12 <| .reserved 4 <| .done

/-- `RoleDiscoveryComplete`, packets/hci_packets.pdl 1696. -/
def bodyRoleDiscoveryComplete : Fmt :=
  .uint 8 <| .uint 12 <| .reserved 4 <| .uint 8 <| .done

/-- `SwitchRole`, packets/hci_packets.pdl 1703. -/
def bodySwitchRole : Fmt :=
  .uint 48 <| .uint 8 <| .done

/-- `SwitchRoleStatus`, packets/hci_packets.pdl 1708. -/
def bodySwitchRoleStatus : Fmt :=
  .done

/-- `ReadLinkPolicySettings`, packets/hci_packets.pdl 1712. -/
def bodyReadLinkPolicySettings : Fmt :=
  .uint 12 <| .reserved 4 <| .done

/-- `ReadLinkPolicySettingsComplete`, packets/hci_packets.pdl 1724. -/
def bodyReadLinkPolicySettingsComplete : Fmt :=
  .uint 8 <| .uint 12 <| .reserved 4 <| .uint 16 <| .done

/-- `WriteLinkPolicySettings`, packets/hci_packets.pdl 1731. -/
def bodyWriteLinkPolicySettings : Fmt :=
  .uint 12 <| .reserved 4 <| .uint 16 <| .done

/-- `WriteLinkPolicySettingsComplete`, packets/hci_packets.pdl 1737. -/
def bodyWriteLinkPolicySettingsComplete : Fmt :=
  .uint 8 <| .uint 12 <| .reserved 4 <| .done

/-- `ReadDefaultLinkPolicySettings`, packets/hci_packets.pdl 1743. -/
def bodyReadDefaultLinkPolicySettings : Fmt :=
  .done

/-- `ReadDefaultLinkPolicySettingsComplete`, packets/hci_packets.pdl 1746. -/
def bodyReadDefaultLinkPolicySettingsComplete : Fmt :=
  .uint 8 <| .uint 16 <| .done

/-- `WriteDefaultLinkPolicySettings`, packets/hci_packets.pdl 1751. -/
def bodyWriteDefaultLinkPolicySettings : Fmt :=
  .uint 16 <| .done

/-- `WriteDefaultLinkPolicySettingsComplete`, packets/hci_packets.pdl 1755. -/
def bodyWriteDefaultLinkPolicySettingsComplete : Fmt :=
  .uint 8 <| .done

/-- `FlowSpecification`, packets/hci_packets.pdl 1764. -/
def bodyFlowSpecification : Fmt :=
  .uint 12 <| .reserved 4 <| .reserved 8 <| .uint 8 <| .uint 8 <| .uint 32 <| .uint 32 <| .uint 32 <| .uint 32 <|
   .done

/-- `FlowSpecificationStatus`, packets/hci_packets.pdl 1776. -/
def bodyFlowSpecificationStatus : Fmt :=
  .done

/-- `SniffSubrating`, packets/hci_packets.pdl 1779. -/
def bodySniffSubrating : Fmt :=
  .uint 12 <| .reserved 4 <| .uint 16 <| .uint 16 <| .uint 16 <| .done

/-- `SniffSubratingComplete`, packets/hci_packets.pdl 1787. -/
def bodySniffSubratingComplete : Fmt :=
  .uint 8 <| .uint 12 <| .reserved 4 <| .done

/-- `SetEventMask`, packets/hci_packets.pdl 1794. -/
def bodySetEventMask : Fmt :=
  .uint 64 <| .done

/-- `SetEventMaskComplete`, packets/hci_packets.pdl 1798. -/
def bodySetEventMaskComplete : Fmt :=
  .uint 8 <| .done

/-- `Reset`, packets/hci_packets.pdl 1802. -/
def bodyReset : Fmt :=
  .done

/-- `ResetComplete`, packets/hci_packets.pdl 1809. -/
def bodyResetComplete : Fmt :=
  .uint 8 <| .done

/-- `SetEventFilter`, packets/hci_packets.pdl 1824. -/
def bodySetEventFilter : Fmt :=
  .uint 8 <| .payload .rest <| .done

/-- `SetEventFilterComplete`, packets/hci_packets.pdl 1829. -/
def bodySetEventFilterComplete : Fmt :=
  .uint 8 <| .done

/-- `SetEventFilterClearAll`, packets/hci_packets.pdl 1833. -/
def bodySetEventFilterClearAll : Fmt :=
  .done

/-- `SetEventFilterInquiryResult`, packets/hci_packets.pdl 1842. -/
def bodySetEventFilterInquiryResult : Fmt :=
  .uint 8 <| .payload .rest <| .done

/-- `SetEventFilterInquiryResultAllDevices`, packets/hci_packets.pdl 1847. -/
def bodySetEventFilterInquiryResultAllDevices : Fmt :=
  .done

/-- `SetEventFilterInquiryResultClassOfDevice`, packets/hci_packets.pdl 1850. -/
def bodySetEventFilterInquiryResultClassOfDevice : Fmt :=
  .uint 24 <| .uint 24 <| .done

/-- `SetEventFilterInquiryResultAddress`, packets/hci_packets.pdl 1855. -/
def bodySetEventFilterInquiryResultAddress : Fmt :=
  .uint 48 <| .done

/-- `SetEventFilterConnectionSetup`, packets/hci_packets.pdl 1859. -/
def bodySetEventFilterConnectionSetup : Fmt :=
  .uint 8 <| .payload .rest <| .done

/-- `SetEventFilterConnectionSetupAllDevices`, packets/hci_packets.pdl 1870. -/
def bodySetEventFilterConnectionSetupAllDevices : Fmt :=
  .uint 8 <| .done

/-- `SetEventFilterConnectionSetupClassOfDevice`, packets/hci_packets.pdl 1874. -/
def bodySetEventFilterConnectionSetupClassOfDevice : Fmt :=
  .uint 24 <| .uint 24 <| .uint 8 <| .done

/-- `SetEventFilterConnectionSetupAddress`, packets/hci_packets.pdl 1880. -/
def bodySetEventFilterConnectionSetupAddress : Fmt :=
  .uint 48 <| .uint 8 <| .done

/-- `Flush`, packets/hci_packets.pdl 1885. -/
def bodyFlush : Fmt :=
  .uint 12 <| .reserved 4 <| .done

/-- `FlushComplete`, packets/hci_packets.pdl 1890. -/
def bodyFlushComplete : Fmt :=
  .uint 8 <| .uint 12 <| .reserved 4 <| .done

/-- `ReadPinType`, packets/hci_packets.pdl 1901. -/
def bodyReadPinType : Fmt :=
  .done

/-- `ReadPinTypeComplete`, packets/hci_packets.pdl 1904. -/
def bodyReadPinTypeComplete : Fmt :=
  .uint 8 <| .uint 8 <| .done

/-- `WritePinType`, packets/hci_packets.pdl 1909. -/
def bodyWritePinType : Fmt :=
  .uint 8 <| .done

/-- `WritePinTypeComplete`, packets/hci_packets.pdl 1913. -/
def bodyWritePinTypeComplete : Fmt :=
  .uint 8 <| .done

/-- `ReadStoredLinkKey`, packets/hci_packets.pdl 1922. -/
def bodyReadStoredLinkKey : Fmt :=
  .uint 48 <| .uint 8 <| .done

/-- `ReadStoredLinkKeyComplete`, packets/hci_packets.pdl 1927. -/
def bodyReadStoredLinkKeyComplete : Fmt :=
  .uint 8 <| .uint 16 <| .uint 16 <| .done

/-- `WriteStoredLinkKey`, packets/hci_packets.pdl 1938. -/
def bodyWriteStoredLinkKey : Fmt :=
  .len 0 8 <| .array structKeyAndAddress (.count 0) 0 <| .done

/-- `WriteStoredLinkKeyComplete`, packets/hci_packets.pdl 1943. -/
def bodyWriteStoredLinkKeyComplete : Fmt :=
  .uint 8 <| .uint 8 <| .done

/-- `DeleteStoredLinkKey`, packets/hci_packets.pdl 1953. -/
def bodyDeleteStoredLinkKey : Fmt :=
  .uint 48 <| .uint 8 <| .done

/-- `DeleteStoredLinkKeyComplete`, packets/hci_packets.pdl 1958. -/
def bodyDeleteStoredLinkKeyComplete : Fmt :=
  .uint 8 <| .uint 16 <| .done

/-- `WriteLocalName`, packets/hci_packets.pdl 1963. -/
def bodyWriteLocalName : Fmt :=
  .array (.uint 8 .done) (.const 248) 0 <| .done

/-- `WriteLocalNameComplete`, packets/hci_packets.pdl 1967. -/
def bodyWriteLocalNameComplete : Fmt :=
  .uint 8 <| .done

/-- `ReadLocalName`, packets/hci_packets.pdl 1971. -/
def bodyReadLocalName : Fmt :=
  .done

/-- `ReadLocalNameComplete`, packets/hci_packets.pdl 1974. -/
def bodyReadLocalNameComplete : Fmt :=
  .uint 8 <| .array (.uint 8 .done) (.const 248) 0 <| .done

/-- `ReadConnectionAcceptTimeout`, packets/hci_packets.pdl 1979. -/
def bodyReadConnectionAcceptTimeout : Fmt :=
  .done

/-- `ReadConnectionAcceptTimeoutComplete`, packets/hci_packets.pdl 1982. -/
def bodyReadConnectionAcceptTimeoutComplete : Fmt :=
  .uint 8 <| .uint 16 <| .done

/-- `WriteConnectionAcceptTimeout`, packets/hci_packets.pdl 1987. -/
def bodyWriteConnectionAcceptTimeout : Fmt :=
  .uint 16 <| .done

/-- `WriteConnectionAcceptTimeoutComplete`, packets/hci_packets.pdl 1991. -/
def bodyWriteConnectionAcceptTimeoutComplete : Fmt :=
  .uint 8 <| .done

/-- `ReadPageTimeout`, packets/hci_packets.pdl 1995. -/
def bodyReadPageTimeout : Fmt :=
  .done

/-- `ReadPageTimeoutComplete`, packets/hci_packets.pdl 2002. -/
def bodyReadPageTimeoutComplete : Fmt :=
  .uint 8 <| .uint 16 <| .done

/-- `WritePageTimeout`, packets/hci_packets.pdl 2011. -/
def bodyWritePageTimeout : Fmt :=
  .uint 16 <| .done

/-- `WritePageTimeoutComplete`, packets/hci_packets.pdl 2019. -/
def bodyWritePageTimeoutComplete : Fmt :=
  .uint 8 <| .done

/-- `ReadScanEnable`, packets/hci_packets.pdl 2034. -/
def bodyReadScanEnable : Fmt :=
  .done

/-- `ReadScanEnableComplete`, packets/hci_packets.pdl 2037. -/
def bodyReadScanEnableComplete : Fmt :=
  .uint 8 <| .uint 8 <| .done

/-- `WriteScanEnable`, packets/hci_packets.pdl 2042. -/
def bodyWriteScanEnable : Fmt :=
  .uint 8 <| .done

/-- `WriteScanEnableComplete`, packets/hci_packets.pdl 2046. -/
def bodyWriteScanEnableComplete : Fmt :=
  .uint 8 <| .done

/-- `ReadPageScanActivity`, packets/hci_packets.pdl 2050. -/
def bodyReadPageScanActivity : Fmt :=
  .done

/-- `ReadPageScanActivityComplete`, packets/hci_packets.pdl 2053. -/
def bodyReadPageScanActivityComplete : Fmt :=
  .uint 8 <| .uint 16 <| .uint 16 <| .done

/-- `WritePageScanActivity`, packets/hci_packets.pdl 2059. -/
def bodyWritePageScanActivity : Fmt :=
  .uint 16 <| .uint 16 <| .done

/-- `WritePageScanActivityComplete`, packets/hci_packets.pdl 2064. -/
def bodyWritePageScanActivityComplete : Fmt :=
  .uint 8 <| .done

/-- `ReadInquiryScanActivity`, packets/hci_packets.pdl 2068. -/
def bodyReadInquiryScanActivity : Fmt :=
  .done

/-- `ReadInquiryScanActivityComplete`, packets/hci_packets.pdl 2075. -/
def bodyReadInquiryScanActivityComplete : Fmt :=
  .uint 8 <| .uint 16 <| .uint 16 <| .done

/-- `WriteInquiryScanActivity`, packets/hci_packets.pdl 2085. -/
def bodyWriteInquiryScanActivity : Fmt :=
  .uint 16 <| .uint 16 <| .done

/-- `WriteInquiryScanActivityComplete`, packets/hci_packets.pdl 2094. -/
def bodyWriteInquiryScanActivityComplete : Fmt :=
  .uint 8 <| .done

/-- `ReadAuthenticationEnable`, packets/hci_packets.pdl 2107. -/
def bodyReadAuthenticationEnable : Fmt :=
  .done

/-- `ReadAuthenticationEnableComplete`, packets/hci_packets.pdl 2110. -/
def bodyReadAuthenticationEnableComplete : Fmt :=
  .uint 8 <| .uint 8 <| .done

/-- `WriteAuthenticationEnable`, packets/hci_packets.pdl 2115. -/
def bodyWriteAuthenticationEnable : Fmt :=
  .uint 8 <| .done

/-- `WriteAuthenticationEnableComplete`, packets/hci_packets.pdl 2119. -/
def bodyWriteAuthenticationEnableComplete : Fmt :=
  .uint 8 <| .done

/-- `ReadClassOfDevice`, packets/hci_packets.pdl 2123. -/
def bodyReadClassOfDevice : Fmt :=
  .done

/-- `ReadClassOfDeviceComplete`, packets/hci_packets.pdl 2126. -/
def bodyReadClassOfDeviceComplete : Fmt :=
  .uint 8 <| .uint 24 <| .done

/-- `WriteClassOfDevice`, packets/hci_packets.pdl 2131. -/
def bodyWriteClassOfDevice : Fmt :=
  .uint 24 <| .done

/-- `WriteClassOfDeviceComplete`, packets/hci_packets.pdl 2135. -/
def bodyWriteClassOfDeviceComplete : Fmt :=
  .uint 8 <| .done

/-- `ReadVoiceSetting`, packets/hci_packets.pdl 2139. -/
def bodyReadVoiceSetting : Fmt :=
  .done

/-- `ReadVoiceSettingComplete`, packets/hci_packets.pdl 2142. -/
def bodyReadVoiceSettingComplete : Fmt :=
  .uint 8 <| .uint 10 <| .reserved 6 <| .done

/-- `WriteVoiceSetting`, packets/hci_packets.pdl 2148. -/
def bodyWriteVoiceSetting : Fmt :=
  .uint 10 <| .reserved 6 <| .done

/-- `WriteVoiceSettingComplete`, packets/hci_packets.pdl 2153. -/
def bodyWriteVoiceSettingComplete : Fmt :=
  .uint 8 <| .done

/-- `ReadAutomaticFlushTimeout`, packets/hci_packets.pdl 2157. -/
def bodyReadAutomaticFlushTimeout : Fmt :=
  .uint 12 <| .reserved 4 <| .done

/-- `ReadAutomaticFlushTimeoutComplete`, packets/hci_packets.pdl 2162. -/
def bodyReadAutomaticFlushTimeoutComplete : Fmt :=
  .uint 8 <| .uint 12 <| .reserved 4 <| .uint 16 <| .done

/-- `WriteAutomaticFlushTimeout`, packets/hci_packets.pdl 2169. -/
def bodyWriteAutomaticFlushTimeout : Fmt :=
  .uint 12 <| .reserved 4 <| .uint 16 <| .done

/-- `WriteAutomaticFlushTimeoutComplete`, packets/hci_packets.pdl 2175. -/
def bodyWriteAutomaticFlushTimeoutComplete : Fmt :=
  .uint 8 <| .uint 12 <| .reserved 4 <| .done

/-- `ReadNumBroadcastRetransmits`, packets/hci_packets.pdl 2181. -/
def bodyReadNumBroadcastRetransmits : Fmt :=
  .done

/-- `ReadNumBroadcastRetransmitsComplete`, packets/hci_packets.pdl 2184. -/
def bodyReadNumBroadcastRetransmitsComplete : Fmt :=
  .uint 8 <| .uint 8 <| .done

/-- `WriteNumBroadcastRetransmits`, packets/hci_packets.pdl 2189. -/
def bodyWriteNumBroadcastRetransmits : Fmt :=
  .uint 8 <| .done

/-- `WriteNumBroadcastRetransmitsComplete`, packets/hci_packets.pdl 2193. -/
def bodyWriteNumBroadcastRetransmitsComplete : Fmt :=
  .uint 8 <| .done

/-- `ReadHoldModeActivity`, packets/hci_packets.pdl 2204. -/
def bodyReadHoldModeActivity : Fmt :=
  .done

/-- `ReadHoldModeActivityComplete`, packets/hci_packets.pdl 2207. -/
def bodyReadHoldModeActivityComplete : Fmt :=
  .uint 8 <| .uint 8 <| .done

/-- `WriteHoldModeActivity`, packets/hci_packets.pdl 2212. -/
def bodyWriteHoldModeActivity : Fmt :=
  .uint 8 <| .done

/-- `WriteHoldModeActivityComplete`, packets/hci_packets.pdl 2216. -/
def bodyWriteHoldModeActivityComplete : Fmt :=
  .uint 8 <| .done

/-- `ReadTransmitPowerLevel`, packets/hci_packets.pdl 2225. -/
def bodyReadTransmitPowerLevel : Fmt :=
  .uint 12 <| .reserved 4 <| .uint 8 <| .done

/-- `ReadTransmitPowerLevelComplete`, packets/hci_packets.pdl 2231. -/
def bodyReadTransmitPowerLevelComplete : Fmt :=
  .uint 8 <| .uint 12 <| .reserved 4 <| .uint 8 <| .done

/-- `ReadSynchronousFlowControlEnable`, packets/hci_packets.pdl 2238. -/
def bodyReadSynchronousFlowControlEnable : Fmt :=
  .done

/-- `ReadSynchronousFlowControlEnableComplete`, packets/hci_packets.pdl 2241. -/
def bodyReadSynchronousFlowControlEnableComplete : Fmt :=
  .uint 8 <| .uint 8 <| .done

/-- `WriteSynchronousFlowControlEnable`, packets/hci_packets.pdl 2246. -/
def bodyWriteSynchronousFlowControlEnable : Fmt :=
  .uint 8 <| .done

/-- `WriteSynchronousFlowControlEnableComplete`, packets/hci_packets.pdl 2250. -/
def bodyWriteSynchronousFlowControlEnableComplete : Fmt :=
  .uint 8 <| .done

/-- `SetControllerToHostFlowControl`, packets/hci_packets.pdl 2254. -/
def bodySetControllerToHostFlowControl : Fmt :=
  .uint 1 <| .uint 1 <| .reserved 6 <| .done

/-- `SetControllerToHostFlowControlComplete`, packets/hci_packets.pdl 2260. -/
def bodySetControllerToHostFlowControlComplete : Fmt :=
  .uint 8 <| .done

/-- `HostBufferSize`, packets/hci_packets.pdl 2264. -/
def bodyHostBufferSize : Fmt :=
  .uint 16 <| .uint 8 <| .uint 16 <| .uint 16 <| .done

/-- `HostBufferSizeComplete`, packets/hci_packets.pdl 2275. -/
def bodyHostBufferSizeComplete : Fmt :=
  .uint 8 <| .done

/-- `HostNumCompletedPackets`, packets/hci_packets.pdl 2289. -/
def bodyHostNumCompletedPackets : Fmt :=
  .len 0 8 <| .array structCompletedPackets (.count 0) 0 <| .done

/-- `HostNumCompletedPacketsError`, packets/hci_packets.pdl 2294. -/
def bodyHostNumCompletedPacketsError : Fmt :=
  .uint 8 <| .done

/-- `ReadLinkSupervisionTimeout`, packets/hci_packets.pdl 2298. -/
def bodyReadLinkSupervisionTimeout : Fmt :=
  .uint 12 <| .reserved 4 <| .done

/-- `ReadLinkSupervisionTimeoutComplete`, packets/hci_packets.pdl 2303. -/
def bodyReadLinkSupervisionTimeoutComplete : Fmt :=
  .uint 8 <| .uint 12 <| .reserved 4 <| .uint 16 <| .done

/-- `WriteLinkSupervisionTimeout`, packets/hci_packets.pdl 2310. -/
def bodyWriteLinkSupervisionTimeout : Fmt :=
  .uint 12 <| .reserved 4 <| .uint 16 <| .done

/-- `WriteLinkSupervisionTimeoutComplete`, packets/hci_packets.pdl 2316. -/
def bodyWriteLinkSupervisionTimeoutComplete : Fmt :=
  .uint 8 <| .uint 12 <| .reserved 4 <| .done

/-- `ReadNumberOfSupportedIac`, packets/hci_packets.pdl 2322. -/
def bodyReadNumberOfSupportedIac : Fmt :=
  .done

/-- `ReadNumberOfSupportedIacComplete`, packets/hci_packets.pdl 2329. -/
def bodyReadNumberOfSupportedIacComplete : Fmt :=
  .uint 8 <| .uint 8 <| .done

/-- `ReadCurrentIacLap`, packets/hci_packets.pdl 2338. -/
def bodyReadCurrentIacLap : Fmt :=
  .done

/-- `ReadCurrentIacLapComplete`, packets/hci_packets.pdl 2345. -/
def bodyReadCurrentIacLapComplete : Fmt :=
  .uint 8 <| .len 0 8 <| .array structLap (.count 0) 0 <| .done

/-- `WriteCurrentIacLap`, packets/hci_packets.pdl 2355. -/
def bodyWriteCurrentIacLap : Fmt :=
  .len 0 8 <| .array structLap (.count 0) 0 <| .done

/-- `WriteCurrentIacLapComplete`, packets/hci_packets.pdl 2364. -/
def bodyWriteCurrentIacLapComplete : Fmt :=
  .uint 8 <| .done

/-- `SetAfhHostChannelClassification`, packets/hci_packets.pdl 2372. -/
def bodySetAfhHostChannelClassification : Fmt :=
  .array (.uint 8 .done) (.const 10) 0 <| .done

/-- `SetAfhHostChannelClassificationComplete`, packets/hci_packets.pdl 2376. -/
def bodySetAfhHostChannelClassificationComplete : Fmt :=
  .uint 8 <| .done

/-- `ReadInquiryScanType`, packets/hci_packets.pdl 2385. -/
def bodyReadInquiryScanType : Fmt :=
  .done

/-- `ReadInquiryScanTypeComplete`, packets/hci_packets.pdl 2388. -/
def bodyReadInquiryScanTypeComplete : Fmt :=
  .uint 8 <| .uint 8 <| .done

/-- `WriteInquiryScanType`, packets/hci_packets.pdl 2393. -/
def bodyWriteInquiryScanType : Fmt :=
  .uint 8 <| .done

/-- `WriteInquiryScanTypeComplete`, packets/hci_packets.pdl 2397. -/
def bodyWriteInquiryScanTypeComplete : Fmt :=
  .uint 8 <| .done

/-- `ReadInquiryMode`, packets/hci_packets.pdl 2407. -/
def bodyReadInquiryMode : Fmt :=
  .done

/-- `ReadInquiryModeComplete`, packets/hci_packets.pdl 2410. -/
def bodyReadInquiryModeComplete : Fmt :=
  .uint 8 <| .uint 8 <| .done

/-- `WriteInquiryMode`, packets/hci_packets.pdl 2415. -/
def bodyWriteInquiryMode : Fmt :=
  .uint 8 <| .done

/-- `WriteInquiryModeComplete`, packets/hci_packets.pdl 2419. -/
def bodyWriteInquiryModeComplete : Fmt :=
  .uint 8 <| .done

/-- `ReadPageScanType`, packets/hci_packets.pdl 2428. -/
def bodyReadPageScanType : Fmt :=
  .done

/-- `ReadPageScanTypeComplete`, packets/hci_packets.pdl 2431. -/
def bodyReadPageScanTypeComplete : Fmt :=
  .uint 8 <| .uint 8 <| .done

/-- `WritePageScanType`, packets/hci_packets.pdl 2436. -/
def bodyWritePageScanType : Fmt :=
  .uint 8 <| .done

/-- `WritePageScanTypeComplete`, packets/hci_packets.pdl 2440. -/
def bodyWritePageScanTypeComplete : Fmt :=
  .uint 8 <| .done

/-- `ReadAfhChannelAssessmentMode`, packets/hci_packets.pdl 2444. -/
def bodyReadAfhChannelAssessmentMode : Fmt :=
  .done

/-- `ReadAfhChannelAssessmentModeComplete`, packets/hci_packets.pdl 2447. -/
def bodyReadAfhChannelAssessmentModeComplete : Fmt :=
  .uint 8 <| .uint 8 <| .done

/-- `WriteAfhChannelAssessmentMode`, packets/hci_packets.pdl 2452. -/
def bodyWriteAfhChannelAssessmentMode : Fmt :=
  .uint 8 <| .done

/-- `WriteAfhChannelAssessmentModeComplete`, packets/hci_packets.pdl 2456. -/
def bodyWriteAfhChannelAssessmentModeComplete : Fmt :=
  .uint 8 <| .done

/-- `ReadExtendedInquiryResponse`, packets/hci_packets.pdl 2465. -/
def bodyReadExtendedInquiryResponse : Fmt :=
  .done

/-- `ReadExtendedInquiryResponseComplete`, packets/hci_packets.pdl 2468. -/
def bodyReadExtendedInquiryResponseComplete : Fmt :=
  .uint 8 <| .uint 8 <| .array (.uint 8 .done) (.const 240) 0 <| .done

/-- `WriteExtendedInquiryResponse`, packets/hci_packets.pdl 2474. -/
def bodyWriteExtendedInquiryResponse : Fmt :=
  .uint 8 <| .array (.uint 8 .done) (.const 240) 0 <| .done

/-- `WriteExtendedInquiryResponseComplete`, packets/hci_packets.pdl 2479. -/
def bodyWriteExtendedInquiryResponseComplete : Fmt :=
  .uint 8 <| .done

/-- `RefreshEncryptionKey`, packets/hci_packets.pdl 2483. -/
def bodyRefreshEncryptionKey : Fmt :=
  .uint 12 <| .reserved 4 <| .done

/-- `RefreshEncryptionKeyStatus`, packets/hci_packets.pdl 2488. -/
def bodyRefreshEncryptionKeyStatus : Fmt :=
  .done

/-- `ReadSimplePairingMode`, packets/hci_packets.pdl 2491. -/
def bodyReadSimplePairingMode : Fmt :=
  .done

/-- `ReadSimplePairingModeComplete`, packets/hci_packets.pdl 2494. -/
def bodyReadSimplePairingModeComplete : Fmt :=
  .uint 8 <| .uint 8 <| .done

/-- `WriteSimplePairingMode`, packets/hci_packets.pdl 2499. -/
def bodyWriteSimplePairingMode : Fmt :=
  .uint 8 <| .done

/-- `WriteSimplePairingModeComplete`, packets/hci_packets.pdl 2507. -/
def bodyWriteSimplePairingModeComplete : Fmt :=
  .uint 8 <| .done

/-- `ReadLocalOobData`, packets/hci_packets.pdl 2515. -/
def bodyReadLocalOobData : Fmt :=
  .done

/-- `ReadLocalOobDataComplete`, packets/hci_packets.pdl 2518. -/
def bodyReadLocalOobDataComplete : Fmt :=
  .uint 8 <| .array (.uint 8 .done) (.const 16) 0 <| .array (.uint 8 .done) (.const 16) 0 <| .done

/-- `ReadInquiryResponseTransmitPowerLevel`, packets/hci_packets.pdl 2524. -/
def bodyReadInquiryResponseTransmitPowerLevel : Fmt :=
  .done

/-- `ReadInquiryResponseTransmitPowerLevelComplete`, packets/hci_packets.pdl 2527. -/
def bodyReadInquiryResponseTransmitPowerLevelComplete : Fmt :=
  .uint 8 <| .uint 8 <| .done

/-- `WriteInquiryTransmitPowerLevel`, packets/hci_packets.pdl 2532. -/
def bodyWriteInquiryTransmitPowerLevel : Fmt :=
  .uint 8 <| .done

/-- `WriteInquiryResponseTransmitPowerLevelComplete`, packets/hci_packets.pdl 2536. -/
def bodyWriteInquiryResponseTransmitPowerLevelComplete : Fmt :=
  .uint 8 <| .done

/-- `SendKeypressNotification`, packets/hci_packets.pdl 2548. -/
def bodySendKeypressNotification : Fmt :=
  .uint 48 <| .uint 8 <| .done

/-- `SendKeypressNotificationComplete`, packets/hci_packets.pdl 2553. -/
def bodySendKeypressNotificationComplete : Fmt :=
  .uint 8 <| .uint 48 <| .done

/-- `SetEventMaskPage2`, packets/hci_packets.pdl 2558. -/
def bodySetEventMaskPage2 : Fmt :=
  .uint 64 <| .done

/-- `SetEventMaskPage2Complete`, packets/hci_packets.pdl 2562. -/
def bodySetEventMaskPage2Complete : Fmt :=
  .uint 8 <| .done

/-- `ReadEnhancedTransmitPowerLevel`, packets/hci_packets.pdl 2566. -/
def bodyReadEnhancedTransmitPowerLevel : Fmt :=
  .uint 12 <| .reserved 4 <| .uint 8 <| .done

/-- `ReadEnhancedTransmitPowerLevelComplete`, packets/hci_packets.pdl 2572. -/
def bodyReadEnhancedTransmitPowerLevelComplete : Fmt :=
  .uint 8 <| .uint 12 <| .reserved 4 <| .uint 8 <| .uint 8 <| .uint 8 <| .done

/-- `ReadLeHostSupport`, packets/hci_packets.pdl 2581. -/
def bodyReadLeHostSupport : Fmt :=
  .done

/-- `ReadLeHostSupportComplete`, packets/hci_packets.pdl 2584. -/
def bodyReadLeHostSupportComplete : Fmt :=
  .uint 8 <| .uint 8 <| .reserved 8 <| .done

/-- `WriteLeHostSupport`, packets/hci_packets.pdl 2590. -/
def bodyWriteLeHostSupport : Fmt :=
  .uint 8 <| .uint 8 <| .done

/-- `WriteLeHostSupportComplete`, packets/hci_packets.pdl 2599. -/
def bodyWriteLeHostSupportComplete : Fmt :=
  .uint 8 <| .done

/-- `ReadSecureConnectionsHostSupport`, packets/hci_packets.pdl 2607. -/
def bodyReadSecureConnectionsHostSupport : Fmt :=
  .done

/-- `ReadSecureConnectionsHostSupportComplete`, packets/hci_packets.pdl 2610. -/
def bodyReadSecureConnectionsHostSupportComplete : Fmt :=
  .uint 8 <| .uint 8 <| .done

/-- `WriteSecureConnectionsHostSupport`, packets/hci_packets.pdl 2615. -/
def bodyWriteSecureConnectionsHostSupport : Fmt :=
  .uint 8 <| .done

/-- `WriteSecureConnectionsHostSupportComplete`, packets/hci_packets.pdl 2623. -/
def bodyWriteSecureConnectionsHostSupportComplete : Fmt :=
  .uint 8 <| .done

/-- `ReadLocalOobExtendedData`, packets/hci_packets.pdl 2631. -/
def bodyReadLocalOobExtendedData : Fmt :=
  .done

/-- `ReadLocalOobExtendedDataComplete`, packets/hci_packets.pdl 2634. -/
def bodyReadLocalOobExtendedDataComplete : Fmt :=
  .uint 8 <| .array (.uint 8 .done) (.const 16) 0 <| .array (.uint 8 .done) (.const 16) 0 <|
   .array (.uint 8 .done) (.const 16) 0 <| .array (.uint 8 .done) (.const 16) 0 <| .done

/-- `SetEcosystemBaseInterval`, packets/hci_packets.pdl 2642. -/
def bodySetEcosystemBaseInterval : Fmt :=
  .uint 16 <| .done

/-- `SetEcosystemBaseIntervalComplete`, packets/hci_packets.pdl 2646. -/
def bodySetEcosystemBaseIntervalComplete : Fmt :=
  .uint 8 <| .done

/-- `ConfigureDataPath`, packets/hci_packets.pdl 2655. -/
def bodyConfigureDataPath : Fmt :=
  .uint 8 <| .uint 8 <| .len 0 8 <| .array (.uint 8 .done) (.size 0) 0 <| .done

/-- `ConfigureDataPathComplete`, packets/hci_packets.pdl 2662. -/
def bodyConfigureDataPathComplete : Fmt :=
  .uint 8 <| .done

/-- `SetMinEncryptionKeySize`, packets/hci_packets.pdl 2666. -/
def bodySetMinEncryptionKeySize : Fmt :=
  .uint 8 <| .done

/-- `SetMinEncryptionKeySizeComplete`, packets/hci_packets.pdl 2670. -/
def bodySetMinEncryptionKeySizeComplete : Fmt :=
  .uint 8 <| .done

/-- `ReadLocalVersionInformation`, packets/hci_packets.pdl 2676. -/
def bodyReadLocalVersionInformation : Fmt :=
  .done

/-- `ReadLocalVersionInformationComplete`, packets/hci_packets.pdl 2727. -/
def bodyReadLocalVersionInformationComplete : Fmt :=
  .uint 8 <| .group structLocalVersionInformation <| .done

/-- `ReadLocalSupportedCommands`, packets/hci_packets.pdl 2736. -/
def bodyReadLocalSupportedCommands : Fmt :=
  .done

/-- `ReadLocalSupportedCommandsComplete`, packets/hci_packets.pdl 2743. -/
def bodyReadLocalSupportedCommandsComplete : Fmt :=
  .uint 8 <| .array (.uint 8 .done) (.const 64) 0 <| .done

/-- `ReadLocalSupportedFeatures`, packets/hci_packets.pdl 2752. -/
def bodyReadLocalSupportedFeatures : Fmt :=
  .done

/-- `ReadLocalSupportedFeaturesComplete`, packets/hci_packets.pdl 2755. -/
def bodyReadLocalSupportedFeaturesComplete : Fmt :=
  .uint 8 <| .uint 64 <| .done

/-- `ReadLocalExtendedFeatures`, packets/hci_packets.pdl 2760. -/
def bodyReadLocalExtendedFeatures : Fmt :=
  .uint 8 <| .done

/-- `ReadLocalExtendedFeaturesComplete`, packets/hci_packets.pdl 2868. -/
def bodyReadLocalExtendedFeaturesComplete : Fmt :=
  .uint 8 <| .uint 8 <| .uint 8 <| .uint 64 <| .done

/-- `ReadBufferSize`, packets/hci_packets.pdl 2881. -/
def bodyReadBufferSize : Fmt :=
  .done

/-- `ReadBufferSizeComplete`, packets/hci_packets.pdl 2888. -/
def bodyReadBufferSizeComplete : Fmt :=
  .uint 8 <| .uint 16 <| .uint 8 <| .uint 16 <| .uint 16 <| .done

/-- `ReadBdAddr`, packets/hci_packets.pdl 2900. -/
def bodyReadBdAddr : Fmt :=
  .done

/-- `ReadBdAddrComplete`, packets/hci_packets.pdl 2907. -/
def bodyReadBdAddrComplete : Fmt :=
  .uint 8 <| .uint 48 <| .done

/-- `ReadDataBlockSize`, packets/hci_packets.pdl 2916. -/
def bodyReadDataBlockSize : Fmt :=
  .done

/-- `ReadDataBlockSizeComplete`, packets/hci_packets.pdl 2919. -/
def bodyReadDataBlockSizeComplete : Fmt :=
  .uint 8 <| .uint 16 <| .uint 16 <| .uint 16 <| .done

/-- `ReadLocalSupportedCodecsV1`, packets/hci_packets.pdl 2926. -/
def bodyReadLocalSupportedCodecsV1 : Fmt :=
  .done

/-- `ReadLocalSupportedCodecsV1Complete`, packets/hci_packets.pdl 2929. -/
def bodyReadLocalSupportedCodecsV1Complete : Fmt :=
  .uint 8 <| .len 0 8 <| .array (.uint 8 .done) (.count 0) 0 <| .len 1 8 <| .array (.uint 32 .done) (.count 1) 0 <|
   .done

/-- `ReadLocalSupportedCodecsV2`, packets/hci_packets.pdl 2937. -/
def bodyReadLocalSupportedCodecsV2 : Fmt :=
  .done

/-- `ReadLocalSupportedCodecsV2Complete`, packets/hci_packets.pdl 2959. -/
def bodyReadLocalSupportedCodecsV2Complete : Fmt :=
  .uint 8 <| .len 0 8 <| .array structCodecConfiguration (.count 0) 0 <| .len 1 8 <|
   .array structVendorCodecConfiguration (.count 1) 0 <| .done

/-- `ReadLocalSupportedCodecCapabilities`, packets/hci_packets.pdl 2967. -/
def bodyReadLocalSupportedCodecCapabilities : Fmt :=
  .uint 8 <| .uint 16 <| .uint 16 <| .uint 1 <| .uint 1 <| .uint 1 <| .uint 1 <| .reserved 4 <| .uint 8 <| .done

/-- `ReadLocalSupportedCodecCapabilitiesComplete`, packets/hci_packets.pdl 2980. -/
def bodyReadLocalSupportedCodecCapabilitiesComplete : Fmt :=
  .uint 8 <| .len 0 8 <| .array structCodecCapability (.count 0) 0 <| .done

/-- `ReadLocalSupportedControllerDelay`, packets/hci_packets.pdl 2986. -/
def bodyReadLocalSupportedControllerDelay : Fmt :=
  .uint 8 <| .uint 16 <| .uint 16 <| .uint 1 <| .uint 1 <| .uint 1 <| .uint 1 <| .reserved 4 <| .uint 8 <| .len 0 8 <|
   .array (.uint 8 .done) (.size 0) 0 <| .done

/-- `ReadLocalSupportedControllerDelayComplete`, packets/hci_packets.pdl 2996. -/
def bodyReadLocalSupportedControllerDelayComplete : Fmt :=
  .uint 8 <| .uint 24 <| .uint 24 <| .done

/-- `ReadFailedContactCounter`, packets/hci_packets.pdl 3004. -/
def bodyReadFailedContactCounter : Fmt :=
  .uint 12 <| .reserved 4 <| .done

/-- `ReadFailedContactCounterComplete`, packets/hci_packets.pdl 3009. -/
def bodyReadFailedContactCounterComplete : Fmt :=
  .uint 8 <| .uint 12 <| .reserved 4 <| .uint 16 <| .done

/-- `ResetFailedContactCounter`, packets/hci_packets.pdl 3016. -/
def bodyResetFailedContactCounter : Fmt :=
  .uint 12 <| .reserved 4 <| .done

/-- `ResetFailedContactCounterComplete`, packets/hci_packets.pdl 3021. -/
def bodyResetFailedContactCounterComplete : Fmt :=
  .uint 8 <| .uint 12 <| .reserved 4 <| .done

/-- `ReadLinkQuality`, packets/hci_packets.pdl 3027. -/
def bodyReadLinkQuality : Fmt :=
  .uint 12 <| .reserved 4 <| .done

/-- `ReadLinkQualityComplete`, packets/hci_packets.pdl 3032. -/
def bodyReadLinkQualityComplete : Fmt :=
  .uint 8 <| .uint 12 <| .reserved 4 <| .uint 8 <| .done

/-- `ReadRssi`, packets/hci_packets.pdl 3039. -/
def bodyReadRssi : Fmt :=
  .uint 12 <| .reserved 4 <| .done

/-- `ReadRssiComplete`, packets/hci_packets.pdl 3044. -/
def bodyReadRssiComplete : Fmt :=
  .uint 8 <| .uint 12 <| .reserved 4 <| .uint 8 <| .done

/-- `ReadAfhChannelMap`, packets/hci_packets.pdl 3051. -/
def bodyReadAfhChannelMap : Fmt :=
  .uint 12 <| .reserved 4 <| .done

/-- `ReadAfhChannelMapComplete`, packets/hci_packets.pdl 3061. -/
def bodyReadAfhChannelMapComplete : Fmt :=
  .uint 8 <| .uint 12 <| .reserved 4 <| .uint 8 <| .array (.uint 8 .done) (.const 10) 0 <| .done

/-- `ReadClock`, packets/hci_packets.pdl 3075. -/
def bodyReadClock : Fmt :=
  .uint 12 <| .reserved 4 <| .uint 8 <| .done

/-- `ReadClockComplete`, packets/hci_packets.pdl 3081. -/
def bodyReadClockComplete : Fmt :=
  .uint 8 <| .uint 12 <| .reserved 4 <| .uint 28 <| .reserved 4 <| .uint 16 <| .done

/-- `ReadEncryptionKeySize`, packets/hci_packets.pdl 3090. -/
def bodyReadEncryptionKeySize : Fmt :=
  .uint 12 <| .reserved 4 <| .done

/-- `ReadEncryptionKeySizeComplete`, packets/hci_packets.pdl 3095. -/
def bodyReadEncryptionKeySizeComplete : Fmt :=
  .uint 8 <| .uint 12 <| .reserved 4 <| .uint 8 <| .done

/-- `ReadLoopbackMode`, packets/hci_packets.pdl 3109. -/
def bodyReadLoopbackMode : Fmt :=
  .done

/-- `ReadLoopbackModeComplete`, packets/hci_packets.pdl 3112. -/
def bodyReadLoopbackModeComplete : Fmt :=
  .uint 8 <| .uint 8 <| .done

/-- `WriteLoopbackMode`, packets/hci_packets.pdl 3117. -/
def bodyWriteLoopbackMode : Fmt :=
  .uint 8 <| .done

/-- `WriteLoopbackModeComplete`, packets/hci_packets.pdl 3121. -/
def bodyWriteLoopbackModeComplete : Fmt :=
  .uint 8 <| .done

/-- `EnableImplementationUnderTestMode`, packets/hci_packets.pdl 3125. -/
def bodyEnableImplementationUnderTestMode : Fmt :=
  .done

/-- `EnableImplementationUnderTestModeComplete`, packets/hci_packets.pdl 3128. -/
def bodyEnableImplementationUnderTestModeComplete : Fmt :=
  .uint 8 <| .done

/-- `WriteSimplePairingDebugMode`, packets/hci_packets.pdl 3132. -/
def bodyWriteSimplePairingDebugMode : Fmt :=
  .uint 8 <| .done

/-- `WriteSimplePairingDebugModeComplete`, packets/hci_packets.pdl 3136. -/
def bodyWriteSimplePairingDebugModeComplete : Fmt :=
  .uint 8 <| .done

/-- `WriteSecureConnectionsTestMode`, packets/hci_packets.pdl 3140. -/
def bodyWriteSecureConnectionsTestMode : Fmt :=
  .uint 12 <| .reserved 4 <| .uint 8 <| .uint 8 <| .done

/-- `WriteSecureConnectionsTestModeComplete`, packets/hci_packets.pdl 3147. -/
def bodyWriteSecureConnectionsTestModeComplete : Fmt :=
  .uint 8 <| .done

/-- `LeSetEventMask`, packets/hci_packets.pdl 3152. -/
def bodyLeSetEventMask : Fmt :=
  .uint 64 <| .done

/-- `LeSetEventMaskComplete`, packets/hci_packets.pdl 3156. -/
def bodyLeSetEventMaskComplete : Fmt :=
  .uint 8 <| .done

/-- `LeReadBufferSizeV1`, packets/hci_packets.pdl 3160. -/
def bodyLeReadBufferSizeV1 : Fmt :=
  .done

/-- `LeReadBufferSizeV1Complete`, packets/hci_packets.pdl 3172. -/
def bodyLeReadBufferSizeV1Complete : Fmt :=
  .uint 8 <| .group structLeBufferSize <| .done

/-- `LeReadLocalSupportedFeaturesPage0`, packets/hci_packets.pdl 3244. -/
def bodyLeReadLocalSupportedFeaturesPage0 : Fmt :=
  .done

/-- `LeReadLocalSupportedFeaturesPage0Complete`, packets/hci_packets.pdl 3247. -/
def bodyLeReadLocalSupportedFeaturesPage0Complete : Fmt :=
  .uint 8 <| .uint 64 <| .done

/-- `LeReadAllLocalSupportedFeatures`, packets/hci_packets.pdl 3252. -/
def bodyLeReadAllLocalSupportedFeatures : Fmt :=
  .done

/-- `LeReadAllLocalSupportedFeaturesComplete`, packets/hci_packets.pdl 3255. -/
def bodyLeReadAllLocalSupportedFeaturesComplete : Fmt :=
  .uint 8 <| .uint 8 <| .array (.uint 8 .done) (.const 248) 0 <| .done

/-- `LeSetRandomAddress`, packets/hci_packets.pdl 3261. -/
def bodyLeSetRandomAddress : Fmt :=
  .uint 48 <| .done

/-- `LeSetRandomAddressComplete`, packets/hci_packets.pdl 3265. -/
def bodyLeSetRandomAddressComplete : Fmt :=
  .uint 8 <| .done

/-- `LeSetAdvertisingParameters`, packets/hci_packets.pdl 3303. -/
def bodyLeSetAdvertisingParameters : Fmt :=
  .uint 16 <| .uint 16 <| .uint 8 <| .uint 8 <| .uint 8 <| .uint 48 <| .uint 8 <| .uint 2 <| .reserved 6 <| .done

/-- `LeSetAdvertisingParametersComplete`, packets/hci_packets.pdl 3315. -/
def bodyLeSetAdvertisingParametersComplete : Fmt :=
  .uint 8 <| .done

/-- `LeReadAdvertisingPhysicalChannelTxPower`, packets/hci_packets.pdl 3319. -/
def bodyLeReadAdvertisingPhysicalChannelTxPower : Fmt :=
  .done

/-- `LeReadAdvertisingPhysicalChannelTxPowerComplete`, packets/hci_packets.pdl 3322. -/
def bodyLeReadAdvertisingPhysicalChannelTxPowerComplete : Fmt :=
  .uint 8 <| .uint 8 <| .done

/-- `LeSetAdvertisingData`, packets/hci_packets.pdl 3327. -/
def bodyLeSetAdvertisingData : Fmt :=
  .len 0 8 <| .array (.uint 8 .done) (.size 0) 31 <| .done

/-- `LeSetAdvertisingDataComplete`, packets/hci_packets.pdl 3333. -/
def bodyLeSetAdvertisingDataComplete : Fmt :=
  .uint 8 <| .done

/-- `LeSetScanResponseData`, packets/hci_packets.pdl 3337. -/
def bodyLeSetScanResponseData : Fmt :=
  .len 0 8 <| .array (.uint 8 .done) (.size 0) 31 <| .done

/-- `LeSetScanResponseDataComplete`, packets/hci_packets.pdl 3343. -/
def bodyLeSetScanResponseDataComplete : Fmt :=
  .uint 8 <| .done

/-- `LeSetAdvertisingEnable`, packets/hci_packets.pdl 3347. -/
def bodyLeSetAdvertisingEnable : Fmt :=
  .uint 8 <| .done

/-- `LeSetAdvertisingEnableComplete`, packets/hci_packets.pdl 3351. -/
def bodyLeSetAdvertisingEnableComplete : Fmt :=
  .uint 8 <| .done

/-- `LeSetScanParameters`, packets/hci_packets.pdl 3367. -/
def bodyLeSetScanParameters : Fmt :=
  .uint 8 <| .uint 16 <| .uint 16 <| .uint 8 <| .uint 8 <| .done

/-- `LeSetScanParametersComplete`, packets/hci_packets.pdl 3379. -/
def bodyLeSetScanParametersComplete : Fmt :=
  .uint 8 <| .done

/-- `LeSetScanEnable`, packets/hci_packets.pdl 3383. -/
def bodyLeSetScanEnable : Fmt :=
  .uint 8 <| .uint 8 <| .done

/-- `LeSetScanEnableComplete`, packets/hci_packets.pdl 3392. -/
def bodyLeSetScanEnableComplete : Fmt :=
  .uint 8 <| .done

/-- `LeCreateConnection`, packets/hci_packets.pdl 3403. -/
def bodyLeCreateConnection : Fmt :=
  .uint 16 <| .uint 16 <| .uint 8 <| .uint 8 <| .uint 48 <| .uint 8 <| .uint 16 <| .uint 16 <| .uint 16 <| .uint 16 <|
   .uint 16 <| .uint 16 <| .done

/-- `LeCreateConnectionStatus`, packets/hci_packets.pdl 3418. -/
def bodyLeCreateConnectionStatus : Fmt :=
  .done

/-- `LeCreateConnectionCancel`, packets/hci_packets.pdl 3421. -/
def bodyLeCreateConnectionCancel : Fmt :=
  .done

/-- `LeCreateConnectionCancelComplete`, packets/hci_packets.pdl 3424. -/
def bodyLeCreateConnectionCancelComplete : Fmt :=
  .uint 8 <| .done

/-- `LeReadFilterAcceptListSize`, packets/hci_packets.pdl 3428. -/
def bodyLeReadFilterAcceptListSize : Fmt :=
  .done

/-- `LeReadFilterAcceptListSizeComplete`, packets/hci_packets.pdl 3435. -/
def bodyLeReadFilterAcceptListSizeComplete : Fmt :=
  .uint 8 <| .uint 8 <| .done

/-- `LeClearFilterAcceptList`, packets/hci_packets.pdl 3444. -/
def bodyLeClearFilterAcceptList : Fmt :=
  .done

/-- `LeClearFilterAcceptListComplete`, packets/hci_packets.pdl 3447. -/
def bodyLeClearFilterAcceptListComplete : Fmt :=
  .uint 8 <| .done

/-- `LeAddDeviceToFilterAcceptList`, packets/hci_packets.pdl 3457. -/
def bodyLeAddDeviceToFilterAcceptList : Fmt :=
  .uint 8 <| .uint 48 <| .done

/-- `LeAddDeviceToFilterAcceptListComplete`, packets/hci_packets.pdl 3462. -/
def bodyLeAddDeviceToFilterAcceptListComplete : Fmt :=
  .uint 8 <| .done

/-- `LeRemoveDeviceFromFilterAcceptList`, packets/hci_packets.pdl 3466. -/
def bodyLeRemoveDeviceFromFilterAcceptList : Fmt :=
  .uint 8 <| .uint 48 <| .done

/-- `LeRemoveDeviceFromFilterAcceptListComplete`, packets/hci_packets.pdl 3471. -/
def bodyLeRemoveDeviceFromFilterAcceptListComplete : Fmt :=
  .uint 8 <| .done

/-- `LeConnectionUpdate`, packets/hci_packets.pdl 3475. -/
def bodyLeConnectionUpdate : Fmt :=
  .uint 12 <| .reserved 4 <| .uint 16 <| .uint 16 <| .uint 16 <| .uint 16 <| .uint 16 <| .uint 16 <| .done

/-- `LeConnectionUpdateStatus`, packets/hci_packets.pdl 3486. -/
def bodyLeConnectionUpdateStatus : Fmt :=
  .done

/-- `LeSetHostChannelClassification`, packets/hci_packets.pdl 3489. -/
def bodyLeSetHostChannelClassification : Fmt :=
  .array (.uint 8 .done) (.const 5) 0 <| .done

/-- `LeSetHostChannelClassificationComplete`, packets/hci_packets.pdl 3493. -/
def bodyLeSetHostChannelClassificationComplete : Fmt :=
  .uint 8 <| .done

/-- `LeReadChannelMap`, packets/hci_packets.pdl 3497. -/
def bodyLeReadChannelMap : Fmt :=
  .done

/-- `LeReadChannelMapComplete`, packets/hci_packets.pdl 3500. -/
def bodyLeReadChannelMapComplete : Fmt :=
  .uint 8 <| .uint 12 <| .reserved 4 <| .array (.uint 8 .done) (.const 5) 0 <| .done

/-- `LeReadRemoteFeaturesPage0`, packets/hci_packets.pdl 3507. -/
def bodyLeReadRemoteFeaturesPage0 : Fmt :=
  .uint 12 <| .reserved 4 <| .done

/-- `LeReadRemoteFeaturesPage0Status`, packets/hci_packets.pdl 3512. -/
def bodyLeReadRemoteFeaturesPage0Status : Fmt :=
  .done

/-- `LeReadRemoteFeaturesPage0Complete`, packets/hci_packets.pdl 3515. -/
def bodyLeReadRemoteFeaturesPage0Complete : Fmt :=
  .uint 8 <| .uint 12 <| .reserved 4 <| .uint 64 <| .done

/-- `LeReadAllRemoteFeatures`, packets/hci_packets.pdl 3522. -/
def bodyLeReadAllRemoteFeatures : Fmt :=
  .uint 12 <| .reserved 4 <| .uint 8 <| .done

/-- `LeReadAllRemoteFeaturesStatus`, packets/hci_packets.pdl 3528. -/
def bodyLeReadAllRemoteFeaturesStatus : Fmt :=
  .done

/-- `LeReadAllRemoteFeaturesComplete`, packets/hci_packets.pdl 3531. -/
def bodyLeReadAllRemoteFeaturesComplete : Fmt :=
  .uint 8 <| .uint 12 <| .reserved 4 <| .uint 8 <| .uint 8 <| .array (.uint 8 .done) (.const 248) 0 <| .done

/-- `LeEncrypt`, packets/hci_packets.pdl 3540. -/
def bodyLeEncrypt : Fmt :=
  .array (.uint 8 .done) (.const 16) 0 <| .array (.uint 8 .done) (.const 16) 0 <| .done

/-- `LeEncryptComplete`, packets/hci_packets.pdl 3545. -/
def bodyLeEncryptComplete : Fmt :=
  .uint 8 <| .array (.uint 8 .done) (.const 16) 0 <| .done

/-- `LeRand`, packets/hci_packets.pdl 3550. -/
def bodyLeRand : Fmt :=
  .done

/-- `LeRandComplete`, packets/hci_packets.pdl 3553. -/
def bodyLeRandComplete : Fmt :=
  .uint 8 <| .uint 64 <| .done

/-- `LeStartEncryption`, packets/hci_packets.pdl 3558. -/
def bodyLeStartEncryption : Fmt :=
  .uint 16 <| .array (.uint 8 .done) (.const 8) 0 <| .uint 16 <| .array (.uint 8 .done) (.const 16) 0 <| .done

/-- `LeStartEncryptionStatus`, packets/hci_packets.pdl 3565. -/
def bodyLeStartEncryptionStatus : Fmt :=
  .done

/-- `LeLongTermKeyRequestReply`, packets/hci_packets.pdl 3568. -/
def bodyLeLongTermKeyRequestReply : Fmt :=
  .uint 16 <| .array (.uint 8 .done) (.const 16) 0 <| .done

/-- `LeLongTermKeyRequestReplyComplete`, packets/hci_packets.pdl 3573. -/
def bodyLeLongTermKeyRequestReplyComplete : Fmt :=
  .uint 8 <| .uint 12 <| .reserved 4 <| .done

/-- `LeLongTermKeyRequestNegativeReply`, packets/hci_packets.pdl 3579. -/
def bodyLeLongTermKeyRequestNegativeReply : Fmt :=
  .uint 12 <| .reserved 4 <| .done

/-- `LeLongTermKeyRequestNegativeReplyComplete`, packets/hci_packets.pdl 3584. -/
def bodyLeLongTermKeyRequestNegativeReplyComplete : Fmt :=
  .uint 8 <| .uint 12 <| .reserved 4 <| .done

/-- `LeReadSupportedStates`, packets/hci_packets.pdl 3590. -/
def bodyLeReadSupportedStates : Fmt :=
  .done

/-- `LeReadSupportedStatesComplete`, packets/hci_packets.pdl 3593. -/
def bodyLeReadSupportedStatesComplete : Fmt :=
  .uint 8 <| .uint 64 <| .done

/-- `LeReceiverTest`, packets/hci_packets.pdl 3598. -/
def bodyLeReceiverTest : Fmt :=
  .uint 8 <| .done

/-- `LeReceiverTestComplete`, packets/hci_packets.pdl 3602. -/
def bodyLeReceiverTestComplete : Fmt :=
  .uint 8 <| .done

/-- `LeTransmitterTest`, packets/hci_packets.pdl 3617. -/
def bodyLeTransmitterTest : Fmt :=
  .uint 8 <| .uint 8 <| .uint 8 <| .done

/-- `LeTransmitterTestComplete`, packets/hci_packets.pdl 3623. -/
def bodyLeTransmitterTestComplete : Fmt :=
  .uint 8 <| .done

/-- `LeTestEnd`, packets/hci_packets.pdl 3627. -/
def bodyLeTestEnd : Fmt :=
  .done

/-- `LeTestEndComplete`, packets/hci_packets.pdl 3630. -/
def bodyLeTestEndComplete : Fmt :=
  .uint 8 <| .done

/-- `LeRemoteConnectionParameterRequestReply`, packets/hci_packets.pdl 3634. -/
def bodyLeRemoteConnectionParameterRequestReply : Fmt :=
  .uint 12 <| .reserved 4 <| .uint 16 <| .uint 16 <| .uint 16 <| .uint 16 <| .uint 16 <| .uint 16 <| .done

/-- `LeRemoteConnectionParameterRequestReplyComplete`, packets/hci_packets.pdl 3645. -/
def bodyLeRemoteConnectionParameterRequestReplyComplete : Fmt :=
  .uint 8 <| .uint 12 <| .reserved 4 <| .done

/-- `LeRemoteConnectionParameterRequestNegativeReply`, packets/hci_packets.pdl 3651. -/
def bodyLeRemoteConnectionParameterRequestNegativeReply : Fmt :=
  .uint 12 <| .reserved 4 <| .uint 8 <| .done

/-- `LeRemoteConnectionParameterRequestNegativeReplyComplete`, packets/hci_packets.pdl 3657. -/
def bodyLeRemoteConnectionParameterRequestNegativeReplyComplete : Fmt :=
  .uint 8 <| .uint 12 <| .reserved 4 <| .done

/-- `LeSetDataLength`, packets/hci_packets.pdl 3663. -/
def bodyLeSetDataLength : Fmt :=
  .uint 12 <| .reserved 4 <| .uint 16 <| .uint 16 <| .done

/-- `LeSetDataLengthComplete`, packets/hci_packets.pdl 3670. -/
def bodyLeSetDataLengthComplete : Fmt :=
  .uint 8 <| .uint 12 <| .reserved 4 <| .done

/-- `LeReadSuggestedDefaultDataLength`, packets/hci_packets.pdl 3676. -/
def bodyLeReadSuggestedDefaultDataLength : Fmt :=
  .done

/-- `LeReadSuggestedDefaultDataLengthComplete`, packets/hci_packets.pdl 3679. -/
def bodyLeReadSuggestedDefaultDataLengthComplete : Fmt :=
  .uint 8 <| .uint 16 <| .uint 16 <| .done

/-- `LeWriteSuggestedDefaultDataLength`, packets/hci_packets.pdl 3685. -/
def bodyLeWriteSuggestedDefaultDataLength : Fmt :=
  .uint 16 <| .uint 16 <| .done

/-- `LeWriteSuggestedDefaultDataLengthComplete`, packets/hci_packets.pdl 3690. -/
def bodyLeWriteSuggestedDefaultDataLengthComplete : Fmt :=
  .uint 8 <| .done

/-- `LeReadLocalP256PublicKey`, packets/hci_packets.pdl 3694. -/
def bodyLeReadLocalP256PublicKey : Fmt :=
  .done

/-- `LeReadLocalP256PublicKeyStatus`, packets/hci_packets.pdl 3697. -/
def bodyLeReadLocalP256PublicKeyStatus : Fmt :=
  .done

/-- `LeGenerateDhkeyV1`, packets/hci_packets.pdl 3700. -/
def bodyLeGenerateDhkeyV1 : Fmt :=
  .array (.uint 8 .done) (.const 64) 0 <| .done

/-- `LeGenerateDhkeyV1Status`, packets/hci_packets.pdl 3704. -/
def bodyLeGenerateDhkeyV1Status : Fmt :=
  .done

/-- `LeAddDeviceToResolvingList`, packets/hci_packets.pdl 3707. -/
def bodyLeAddDeviceToResolvingList : Fmt :=
  .uint 8 <| .uint 48 <| .array (.uint 8 .done) (.const 16) 0 <| .array (.uint 8 .done) (.const 16) 0 <| .done

/-- `LeAddDeviceToResolvingListComplete`, packets/hci_packets.pdl 3714. -/
def bodyLeAddDeviceToResolvingListComplete : Fmt :=
  .uint 8 <| .done

/-- `LeRemoveDeviceFromResolvingList`, packets/hci_packets.pdl 3718. -/
def bodyLeRemoveDeviceFromResolvingList : Fmt :=
  .uint 8 <| .uint 48 <| .done

/-- `LeRemoveDeviceFromResolvingListComplete`, packets/hci_packets.pdl 3723. -/
def bodyLeRemoveDeviceFromResolvingListComplete : Fmt :=
  .uint 8 <| .done

/-- `LeClearResolvingList`, packets/hci_packets.pdl 3727. -/
def bodyLeClearResolvingList : Fmt :=
  .done

/-- `LeClearResolvingListComplete`, packets/hci_packets.pdl 3730. -/
def bodyLeClearResolvingListComplete : Fmt :=
  .uint 8 <| .done

/-- `LeReadResolvingListSize`, packets/hci_packets.pdl 3734. -/
def bodyLeReadResolvingListSize : Fmt :=
  .done

/-- `LeReadResolvingListSizeComplete`, packets/hci_packets.pdl 3737. -/
def bodyLeReadResolvingListSizeComplete : Fmt :=
  .uint 8 <| .uint 8 <| .done

/-- `LeReadPeerResolvableAddress`, packets/hci_packets.pdl 3742. -/
def bodyLeReadPeerResolvableAddress : Fmt :=
  .uint 8 <| .uint 48 <| .done

/-- `LeReadPeerResolvableAddressComplete`, packets/hci_packets.pdl 3747. -/
def bodyLeReadPeerResolvableAddressComplete : Fmt :=
  .uint 8 <| .uint 48 <| .done

/-- `LeReadLocalResolvableAddress`, packets/hci_packets.pdl 3752. -/
def bodyLeReadLocalResolvableAddress : Fmt :=
  .uint 8 <| .uint 48 <| .done

/-- `LeReadLocalResolvableAddressComplete`, packets/hci_packets.pdl 3757. -/
def bodyLeReadLocalResolvableAddressComplete : Fmt :=
  .uint 8 <| .uint 48 <| .done

/-- `LeSetAddressResolutionEnable`, packets/hci_packets.pdl 3762. -/
def bodyLeSetAddressResolutionEnable : Fmt :=
  .uint 8 <| .done

/-- `LeSetAddressResolutionEnableComplete`, packets/hci_packets.pdl 3766. -/
def bodyLeSetAddressResolutionEnableComplete : Fmt :=
  .uint 8 <| .done

/-- `LeSetResolvablePrivateAddressTimeout`, packets/hci_packets.pdl 3770. -/
def bodyLeSetResolvablePrivateAddressTimeout : Fmt :=
  .uint 16 <| .done

/-- `LeSetResolvablePrivateAddressTimeoutComplete`, packets/hci_packets.pdl 3774. -/
def bodyLeSetResolvablePrivateAddressTimeoutComplete : Fmt :=
  .uint 8 <| .done

/-- `LeReadMaximumDataLength`, packets/hci_packets.pdl 3778. -/
def bodyLeReadMaximumDataLength : Fmt :=
  .done

/-- `LeReadMaximumDataLengthComplete`, packets/hci_packets.pdl 3788. -/
def bodyLeReadMaximumDataLengthComplete : Fmt :=
  .uint 8 <| .group structLeMaximumDataLength <| .done

/-- `LeReadPhy`, packets/hci_packets.pdl 3793. -/
def bodyLeReadPhy : Fmt :=
  .uint 12 <| .reserved 4 <| .done

/-- `LeReadPhyComplete`, packets/hci_packets.pdl 3804. -/
def bodyLeReadPhyComplete : Fmt :=
  .uint 8 <| .uint 12 <| .reserved 4 <| .uint 8 <| .uint 8 <| .done

/-- `LeSetDefaultPhy`, packets/hci_packets.pdl 3812. -/
def bodyLeSetDefaultPhy : Fmt :=
  .uint 1 <| .uint 1 <| .reserved 6 <| .uint 3 <| .reserved 5 <| .uint 3 <| .reserved 5 <| .done

/-- `LeSetDefaultPhyComplete`, packets/hci_packets.pdl 3822. -/
def bodyLeSetDefaultPhyComplete : Fmt :=
  .uint 8 <| .done

/-- `LeSetPhy`, packets/hci_packets.pdl 3832. -/
def bodyLeSetPhy : Fmt :=
  .uint 12 <| .reserved 4 <| .uint 1 <| .uint 1 <| .reserved 6 <| .uint 3 <| .reserved 5 <| .uint 3 <| .reserved 5 <|
   .uint 16 <| .done

/-- `LeSetPhyStatus`, packets/hci_packets.pdl 3845. -/
def bodyLeSetPhyStatus : Fmt :=
  .done

/-- `LeEnhancedReceiverTest`, packets/hci_packets.pdl 3853. -/
def bodyLeEnhancedReceiverTest : Fmt :=
  .uint 8 <| .uint 8 <| .uint 8 <| .done

/-- `LeEnhancedReceiverTestComplete`, packets/hci_packets.pdl 3859. -/
def bodyLeEnhancedReceiverTestComplete : Fmt :=
  .uint 8 <| .done

/-- `LeEnhancedTransmitterTest`, packets/hci_packets.pdl 3863. -/
def bodyLeEnhancedTransmitterTest : Fmt :=
  .uint 8 <| .uint 8 <| .uint 8 <| .uint 8 <| .done

/-- `LeEnhancedTransmitterTestComplete`, packets/hci_packets.pdl 3870. -/
def bodyLeEnhancedTransmitterTestComplete : Fmt :=
  .uint 8 <| .done

/-- `LeSetAdvertisingSetRandomAddress`, packets/hci_packets.pdl 3874. -/
def bodyLeSetAdvertisingSetRandomAddress : Fmt :=
  .uint 8 <| .uint 48 <| .done

/-- `LeSetAdvertisingSetRandomAddressComplete`, packets/hci_packets.pdl 3883. -/
def bodyLeSetAdvertisingSetRandomAddressComplete : Fmt :=
  .uint 8 <| .done

/-- `LeSetExtendedAdvertisingParametersV1`, packets/hci_packets.pdl 3934. -/
def bodyLeSetExtendedAdvertisingParametersV1 : Fmt :=
  .uint 8 <| .group structAdvertisingEventProperties <| .uint 24 <| .uint 24 <| .uint 3 <| .reserved 5 <| .uint 8 <|
   .uint 8 <| .uint 48 <| .uint 2 <| .reserved 6 <| .uint 8 <| .uint 8 <| .uint 8 <| .uint 8 <| .uint 8 <| .uint 8 <|
   .done

/-- `LeSetExtendedAdvertisingParametersV1Complete`, packets/hci_packets.pdl 3954. -/
def bodyLeSetExtendedAdvertisingParametersV1Complete : Fmt :=
  .uint 8 <| .uint 8 <| .done

/-- `LeSetExtendedAdvertisingParametersV2`, packets/hci_packets.pdl 3964. -/
def bodyLeSetExtendedAdvertisingParametersV2 : Fmt :=
  .uint 8 <| .group structAdvertisingEventProperties <| .uint 24 <| .uint 24 <| .uint 3 <| .reserved 5 <| .uint 8 <|
   .uint 8 <| .uint 48 <| .uint 2 <| .reserved 6 <| .uint 8 <| .uint 8 <| .uint 8 <| .uint 8 <| .uint 8 <| .uint 8 <|
   .uint 8 <| .uint 8 <| .done

/-- `LeSetExtendedAdvertisingParametersV2Complete`, packets/hci_packets.pdl 3986. -/
def bodyLeSetExtendedAdvertisingParametersV2Complete : Fmt :=
  .uint 8 <| .uint 8 <| .done

/-- `LeSetExtendedAdvertisingData`, packets/hci_packets.pdl 4004. -/
def bodyLeSetExtendedAdvertisingData : Fmt :=
  .uint 8 <| .uint 3 <| .reserved 5 <| .uint 1 <| .reserved 7 <| .len 0 8 <| .array (.uint 8 .done) (.size 0) 0 <|
   .done

/-- `LeSetExtendedAdvertisingDataComplete`, packets/hci_packets.pdl 4018. -/
def bodyLeSetExtendedAdvertisingDataComplete : Fmt :=
  .uint 8 <| .done

/-- `LeSetExtendedScanResponseData`, packets/hci_packets.pdl 4026. -/
def bodyLeSetExtendedScanResponseData : Fmt :=
  .uint 8 <| .uint 3 <| .reserved 5 <| .uint 1 <| .reserved 7 <| .len 0 8 <| .array (.uint 8 .done) (.size 0) 0 <|
   .done

/-- `LeSetExtendedScanResponseDataComplete`, packets/hci_packets.pdl 4036. -/
def bodyLeSetExtendedScanResponseDataComplete : Fmt :=
  .uint 8 <| .done

/-- `LeSetExtendedAdvertisingEnableDisableAll`, packets/hci_packets.pdl 4040. -/
def bodyLeSetExtendedAdvertisingEnableDisableAll : Fmt :=
  .fixed 8 0x00 <| .fixed 8 0x00 <| .done

/-- `LeSetExtendedAdvertisingEnable`, packets/hci_packets.pdl 4051. -/
def bodyLeSetExtendedAdvertisingEnable : Fmt :=
  .uint 8 <| .len 0 8 <| .array structEnabledSet (.count 0) 0 <| .done

/-- `LeSetExtendedAdvertisingEnableComplete`, packets/hci_packets.pdl 4065. -/
def bodyLeSetExtendedAdvertisingEnableComplete : Fmt :=
  .uint 8 <| .done

/-- `LeReadMaximumAdvertisingDataLength`, packets/hci_packets.pdl 4073. -/
def bodyLeReadMaximumAdvertisingDataLength : Fmt :=
  .done

/-- `LeReadMaximumAdvertisingDataLengthComplete`, packets/hci_packets.pdl 4076. -/
def bodyLeReadMaximumAdvertisingDataLengthComplete : Fmt :=
  .uint 8 <| .uint 16 <| .done

/-- `LeReadNumberOfSupportedAdvertisingSets`, packets/hci_packets.pdl 4081. -/
def bodyLeReadNumberOfSupportedAdvertisingSets : Fmt :=
  .done

/-- `LeReadNumberOfSupportedAdvertisingSetsComplete`, packets/hci_packets.pdl 4084. -/
def bodyLeReadNumberOfSupportedAdvertisingSetsComplete : Fmt :=
  .uint 8 <| .uint 8 <| .done

/-- `LeRemoveAdvertisingSet`, packets/hci_packets.pdl 4089. -/
def bodyLeRemoveAdvertisingSet : Fmt :=
  .uint 8 <| .done

/-- `LeRemoveAdvertisingSetComplete`, packets/hci_packets.pdl 4097. -/
def bodyLeRemoveAdvertisingSetComplete : Fmt :=
  .uint 8 <| .done

/-- `LeClearAdvertisingSets`, packets/hci_packets.pdl 4105. -/
def bodyLeClearAdvertisingSets : Fmt :=
  .done

/-- `LeClearAdvertisingSetsComplete`, packets/hci_packets.pdl 4108. -/
def bodyLeClearAdvertisingSetsComplete : Fmt :=
  .uint 8 <| .done

/-- `LeSetPeriodicAdvertisingParametersV1`, packets/hci_packets.pdl 4112. -/
def bodyLeSetPeriodicAdvertisingParametersV1 : Fmt :=
  .uint 8 <| .uint 16 <| .uint 16 <| .reserved 6 <| .uint 1 <| .reserved 9 <| .done

/-- `LeSetPeriodicAdvertisingParametersV1Complete`, packets/hci_packets.pdl 4121. -/
def bodyLeSetPeriodicAdvertisingParametersV1Complete : Fmt :=
  .uint 8 <| .done

/-- `LeSetPeriodicAdvertisingParametersV2`, packets/hci_packets.pdl 4125. -/
def bodyLeSetPeriodicAdvertisingParametersV2 : Fmt :=
  .uint 8 <| .uint 16 <| .uint 16 <| .reserved 6 <| .uint 1 <| .reserved 9 <| .uint 8 <| .uint 8 <| .uint 8 <|
   .uint 8 <| .uint 8 <| .done

/-- `LeSetPeriodicAdvertisingParametersV2Complete`, packets/hci_packets.pdl 4139. -/
def bodyLeSetPeriodicAdvertisingParametersV2Complete : Fmt :=
  .uint 8 <| .uint 8 <| .done

/-- `LeSetPeriodicAdvertisingData`, packets/hci_packets.pdl 4144. -/
def bodyLeSetPeriodicAdvertisingData : Fmt :=
  .uint 8 <| .uint 3 <| .reserved 5 <| .len 0 8 <| .array (.uint 8 .done) (.size 0) 0 <| .done

/-- `LeSetPeriodicAdvertisingDataComplete`, packets/hci_packets.pdl 4152. -/
def bodyLeSetPeriodicAdvertisingDataComplete : Fmt :=
  .uint 8 <| .done

/-- `LeSetPeriodicAdvertisingEnable`, packets/hci_packets.pdl 4156. -/
def bodyLeSetPeriodicAdvertisingEnable : Fmt :=
  .uint 1 <| .uint 1 <| .reserved 6 <| .uint 8 <| .done

/-- `LeSetPeriodicAdvertisingEnableComplete`, packets/hci_packets.pdl 4163. -/
def bodyLeSetPeriodicAdvertisingEnableComplete : Fmt :=
  .uint 8 <| .done

/-- `LeSetExtendedScanParameters`, packets/hci_packets.pdl 4173. -/
def bodyLeSetExtendedScanParameters : Fmt :=
  .uint 8 <| .uint 8 <| .uint 8 <| .array structScanningPhyParameters .rest 0 <| .done

/-- `LeSetExtendedScanParametersComplete`, packets/hci_packets.pdl 4185. -/
def bodyLeSetExtendedScanParametersComplete : Fmt :=
  .uint 8 <| .done

/-- `LeSetExtendedScanEnable`, packets/hci_packets.pdl 4199. -/
def bodyLeSetExtendedScanEnable : Fmt :=
  .uint 8 <| .uint 8 <| .uint 16 <| .uint 16 <| .done

/-- `LeSetExtendedScanEnableComplete`, packets/hci_packets.pdl 4211. -/
def bodyLeSetExtendedScanEnableComplete : Fmt :=
  .uint 8 <| .done

/-- `LeExtendedCreateConnectionV1`, packets/hci_packets.pdl 4230. -/
def bodyLeExtendedCreateConnectionV1 : Fmt :=
  .uint 8 <| .uint 8 <| .uint 8 <| .uint 48 <| .uint 8 <| .array structInitiatingPhyParameters .rest 0 <| .done

/-- `LeExtendedCreateConnectionV1Status`, packets/hci_packets.pdl 4243. -/
def bodyLeExtendedCreateConnectionV1Status : Fmt :=
  .done

/-- `LeExtendedCreateConnectionV2`, packets/hci_packets.pdl 4246. -/
def bodyLeExtendedCreateConnectionV2 : Fmt :=
  .uint 8 <| .uint 8 <| .uint 8 <| .uint 8 <| .uint 8 <| .uint 48 <| .uint 8 <|
   .array structInitiatingPhyParameters .rest 0 <| .done

/-- `LeExtendedCreateConnectionV2Status`, packets/hci_packets.pdl 4257. -/
def bodyLeExtendedCreateConnectionV2Status : Fmt :=
  .done

/-- `LePeriodicAdvertisingCreateSync`, packets/hci_packets.pdl 4280. -/
def bodyLePeriodicAdvertisingCreateSync : Fmt :=
  .group structPeriodicAdvertisingOptions <| .uint 8 <| .uint 8 <| .uint 48 <| .uint 16 <| .uint 16 <| .uint 8 <|
   .done

/-- `LePeriodicAdvertisingCreateSyncStatus`, packets/hci_packets.pdl 4290. -/
def bodyLePeriodicAdvertisingCreateSyncStatus : Fmt :=
  .done

/-- `LePeriodicAdvertisingCreateSyncCancel`, packets/hci_packets.pdl 4293. -/
def bodyLePeriodicAdvertisingCreateSyncCancel : Fmt :=
  .done

/-- `LePeriodicAdvertisingCreateSyncCancelComplete`, packets/hci_packets.pdl 4296. -/
def bodyLePeriodicAdvertisingCreateSyncCancelComplete : Fmt :=
  .uint 8 <| .done

/-- `LePeriodicAdvertisingTerminateSync`, packets/hci_packets.pdl 4300. -/
def bodyLePeriodicAdvertisingTerminateSync : Fmt :=
  .uint 12 <| .reserved 4 <| .done

/-- `LePeriodicAdvertisingTerminateSyncComplete`, packets/hci_packets.pdl 4305. -/
def bodyLePeriodicAdvertisingTerminateSyncComplete : Fmt :=
  .uint 8 <| .done

/-- `LeAddDeviceToPeriodicAdvertiserList`, packets/hci_packets.pdl 4309. -/
def bodyLeAddDeviceToPeriodicAdvertiserList : Fmt :=
  .uint 8 <| .uint 48 <| .uint 8 <| .done

/-- `LeAddDeviceToPeriodicAdvertiserListComplete`, packets/hci_packets.pdl 4315. -/
def bodyLeAddDeviceToPeriodicAdvertiserListComplete : Fmt :=
  .uint 8 <| .done

/-- `LeRemoveDeviceFromPeriodicAdvertiserList`, packets/hci_packets.pdl 4319. -/
def bodyLeRemoveDeviceFromPeriodicAdvertiserList : Fmt :=
  .uint 8 <| .uint 48 <| .uint 8 <| .done

/-- `LeRemoveDeviceFromPeriodicAdvertiserListComplete`, packets/hci_packets.pdl 4325. -/
def bodyLeRemoveDeviceFromPeriodicAdvertiserListComplete : Fmt :=
  .uint 8 <| .done

/-- `LeClearPeriodicAdvertiserList`, packets/hci_packets.pdl 4329. -/
def bodyLeClearPeriodicAdvertiserList : Fmt :=
  .done

/-- `LeClearPeriodicAdvertiserListComplete`, packets/hci_packets.pdl 4332. -/
def bodyLeClearPeriodicAdvertiserListComplete : Fmt :=
  .uint 8 <| .done

/-- `LeReadPeriodicAdvertiserListSize`, packets/hci_packets.pdl 4336. -/
def bodyLeReadPeriodicAdvertiserListSize : Fmt :=
  .done

/-- `LeReadPeriodicAdvertiserListSizeComplete`, packets/hci_packets.pdl 4339. -/
def bodyLeReadPeriodicAdvertiserListSizeComplete : Fmt :=
  .uint 8 <| .uint 8 <| .done

/-- `LeReadTransmitPower`, packets/hci_packets.pdl 4344. -/
def bodyLeReadTransmitPower : Fmt :=
  .done

/-- `LeReadTransmitPowerComplete`, packets/hci_packets.pdl 4347. -/
def bodyLeReadTransmitPowerComplete : Fmt :=
  .uint 8 <| .uint 8 <| .uint 8 <| .done

/-- `LeReadRfPathCompensationPower`, packets/hci_packets.pdl 4353. -/
def bodyLeReadRfPathCompensationPower : Fmt :=
  .done

/-- `LeReadRfPathCompensationPowerComplete`, packets/hci_packets.pdl 4356. -/
def bodyLeReadRfPathCompensationPowerComplete : Fmt :=
  .uint 8 <| .uint 16 <| .uint 16 <| .done

/-- `LeWriteRfPathCompensationPower`, packets/hci_packets.pdl 4362. -/
def bodyLeWriteRfPathCompensationPower : Fmt :=
  .uint 16 <| .uint 16 <| .done

/-- `LeWriteRfPathCompensationPowerComplete`, packets/hci_packets.pdl 4367. -/
def bodyLeWriteRfPathCompensationPowerComplete : Fmt :=
  .uint 8 <| .done

/-- `LeSetPrivacyMode`, packets/hci_packets.pdl 4376. -/
def bodyLeSetPrivacyMode : Fmt :=
  .uint 8 <| .uint 48 <| .uint 8 <| .done

/-- `LeSetPrivacyModeComplete`, packets/hci_packets.pdl 4382. -/
def bodyLeSetPrivacyModeComplete : Fmt :=
  .uint 8 <| .done

/-- `LeSetPeriodicAdvertisingReceiveEnable`, packets/hci_packets.pdl 4386. -/
def bodyLeSetPeriodicAdvertisingReceiveEnable : Fmt :=
  .uint 12 <| .reserved 4 <| .uint 8 <| .done

/-- `LeSetPeriodicAdvertisingReceiveEnableComplete`, packets/hci_packets.pdl 4392. -/
def bodyLeSetPeriodicAdvertisingReceiveEnableComplete : Fmt :=
  .uint 8 <| .done

/-- `LePeriodicAdvertisingSyncTransfer`, packets/hci_packets.pdl 4396. -/
def bodyLePeriodicAdvertisingSyncTransfer : Fmt :=
  .uint 12 <| .reserved 4 <| .uint 16 <| .uint 12 <| .reserved 4 <| .done

/-- `LePeriodicAdvertisingSyncTransferComplete`, packets/hci_packets.pdl 4404. -/
def bodyLePeriodicAdvertisingSyncTransferComplete : Fmt :=
  .uint 8 <| .uint 12 <| .reserved 4 <| .done

/-- `LePeriodicAdvertisingSetInfoTransfer`, packets/hci_packets.pdl 4410. -/
def bodyLePeriodicAdvertisingSetInfoTransfer : Fmt :=
  .uint 12 <| .reserved 4 <| .uint 16 <| .uint 8 <| .done

/-- `LePeriodicAdvertisingSetInfoTransferComplete`, packets/hci_packets.pdl 4417. -/
def bodyLePeriodicAdvertisingSetInfoTransferComplete : Fmt :=
  .uint 8 <| .uint 12 <| .reserved 4 <| .done

/-- `LeSetPeriodicAdvertisingSyncTransferParameters`, packets/hci_packets.pdl 4436. -/
def bodyLeSetPeriodicAdvertisingSyncTransferParameters : Fmt :=
  .uint 12 <| .reserved 4 <| .uint 8 <| .uint 16 <| .uint 16 <| .uint 8 <| .done

/-- `LeSetPeriodicAdvertisingSyncTransferParametersComplete`, packets/hci_packets.pdl 4445. -/
def bodyLeSetPeriodicAdvertisingSyncTransferParametersComplete : Fmt :=
  .uint 8 <| .uint 12 <| .reserved 4 <| .done

/-- `LeSetDefaultPeriodicAdvertisingSyncTransferParameters`, packets/hci_packets.pdl 4451. -/
def bodyLeSetDefaultPeriodicAdvertisingSyncTransferParameters : Fmt :=
  .uint 8 <| .uint 16 <| .uint 16 <| .uint 8 <| .done

/-- `LeSetDefaultPeriodicAdvertisingSyncTransferParametersComplete`, packets/hci_packets.pdl 4458. -/
def bodyLeSetDefaultPeriodicAdvertisingSyncTransferParametersComplete : Fmt :=
  .uint 8 <| .done

/-- `LeGenerateDhkeyCommand`, packets/hci_packets.pdl 4467. -/
def bodyLeGenerateDhkeyCommand : Fmt :=
  .array (.uint 8 .done) (.const 64) 0 <| .uint 8 <| .done

/-- `LeGenerateDhkeyCommandStatus`, packets/hci_packets.pdl 4472. -/
def bodyLeGenerateDhkeyCommandStatus : Fmt :=
  .done

/-- `LeModifySleepClockAccuracy`, packets/hci_packets.pdl 4480. -/
def bodyLeModifySleepClockAccuracy : Fmt :=
  .uint 8 <| .done

/-- `LeModifySleepClockAccuracyComplete`, packets/hci_packets.pdl 4484. -/
def bodyLeModifySleepClockAccuracyComplete : Fmt :=
  .uint 8 <| .done

/-- `LeReadBufferSizeV2`, packets/hci_packets.pdl 4488. -/
def bodyLeReadBufferSizeV2 : Fmt :=
  .done

/-- `LeReadBufferSizeV2Complete`, packets/hci_packets.pdl 4491. -/
def bodyLeReadBufferSizeV2Complete : Fmt :=
  .uint 8 <| .group structLeBufferSize <| .group structLeBufferSize <| .done

/-- `LeReadIsoTxSync`, packets/hci_packets.pdl 4497. -/
def bodyLeReadIsoTxSync : Fmt :=
  .uint 12 <| .reserved 4 <| .done

/-- `LeReadIsoTxSyncComplete`, packets/hci_packets.pdl 4502. -/
def bodyLeReadIsoTxSyncComplete : Fmt :=
  .uint 12 <| .reserved 4 <| .uint 16 <| .uint 32 <| .uint 24 <| .done

/-- `LeSetCigParameters`, packets/hci_packets.pdl 4542. -/
def bodyLeSetCigParameters : Fmt :=
  .uint 8 <| .uint 24 <| .uint 24 <| .uint 8 <| .uint 8 <| .uint 8 <| .uint 16 <| .uint 16 <| .len 0 8 <|
   .array structCisParametersConfig (.count 0) 0 <| .done

/-- `LeSetCigParametersComplete`, packets/hci_packets.pdl 4555. -/
def bodyLeSetCigParametersComplete : Fmt :=
  .uint 8 <| .uint 8 <| .len 0 8 <| .array (.uint 16 .done) (.count 0) 0 <| .done

/-- `LeSetCigParametersTest`, packets/hci_packets.pdl 4575. -/
def bodyLeSetCigParametersTest : Fmt :=
  .uint 8 <| .uint 24 <| .uint 24 <| .uint 8 <| .uint 8 <| .uint 16 <| .uint 8 <| .uint 8 <| .uint 8 <| .len 0 8 <|
   .array structLeCisParametersTestConfig (.count 0) 0 <| .done

/-- `LeSetCigParametersTestComplete`, packets/hci_packets.pdl 4589. -/
def bodyLeSetCigParametersTestComplete : Fmt :=
  .uint 8 <| .uint 8 <| .len 0 8 <| .array (.uint 16 .done) (.count 0) 0 <| .done

/-- `LeCreateCis`, packets/hci_packets.pdl 4603. -/
def bodyLeCreateCis : Fmt :=
  .len 0 8 <| .array structLeCreateCisConfig (.count 0) 0 <| .done

/-- `LeCreateCisStatus`, packets/hci_packets.pdl 4608. -/
def bodyLeCreateCisStatus : Fmt :=
  .done

/-- `LeRemoveCig`, packets/hci_packets.pdl 4611. -/
def bodyLeRemoveCig : Fmt :=
  .uint 8 <| .done

/-- `LeRemoveCigComplete`, packets/hci_packets.pdl 4615. -/
def bodyLeRemoveCigComplete : Fmt :=
  .uint 8 <| .uint 8 <| .done

/-- `LeAcceptCisRequest`, packets/hci_packets.pdl 4620. -/
def bodyLeAcceptCisRequest : Fmt :=
  .uint 12 <| .reserved 4 <| .done

/-- `LeAcceptCisRequestStatus`, packets/hci_packets.pdl 4625. -/
def bodyLeAcceptCisRequestStatus : Fmt :=
  .done

/-- `LeRejectCisRequest`, packets/hci_packets.pdl 4628. -/
def bodyLeRejectCisRequest : Fmt :=
  .uint 12 <| .reserved 4 <| .uint 8 <| .done

/-- `LeRejectCisRequestComplete`, packets/hci_packets.pdl 4634. -/
def bodyLeRejectCisRequestComplete : Fmt :=
  .uint 8 <| .uint 12 <| .reserved 4 <| .done

/-- `LeCreateBig`, packets/hci_packets.pdl 4640. -/
def bodyLeCreateBig : Fmt :=
  .uint 8 <| .uint 8 <| .uint 8 <| .uint 24 <| .uint 16 <| .uint 16 <| .uint 4 <| .reserved 4 <| .uint 8 <| .uint 8 <|
   .uint 8 <| .uint 8 <| .array (.uint 8 .done) (.const 16) 0 <| .done

/-- `LeCreateBigStatus`, packets/hci_packets.pdl 4656. -/
def bodyLeCreateBigStatus : Fmt :=
  .done

/-- `LeTerminateBig`, packets/hci_packets.pdl 4659. -/
def bodyLeTerminateBig : Fmt :=
  .uint 8 <| .uint 8 <| .done

/-- `LeTerminateBigStatus`, packets/hci_packets.pdl 4664. -/
def bodyLeTerminateBigStatus : Fmt :=
  .done

/-- `LeBigCreateSync`, packets/hci_packets.pdl 4667. -/
def bodyLeBigCreateSync : Fmt :=
  .uint 8 <| .uint 12 <| .reserved 4 <| .uint 8 <| .array (.uint 8 .done) (.const 16) 0 <| .uint 5 <| .reserved 3 <|
   .uint 16 <| .len 0 8 <| .array (.uint 8 .done) (.count 0) 0 <| .done

/-- `LeBigCreateSyncStatus`, packets/hci_packets.pdl 4680. -/
def bodyLeBigCreateSyncStatus : Fmt :=
  .done

/-- `LeBigTerminateSync`, packets/hci_packets.pdl 4683. -/
def bodyLeBigTerminateSync : Fmt :=
  .uint 8 <| .done

/-- `LeBigTerminateSyncComplete`, packets/hci_packets.pdl 4687. -/
def bodyLeBigTerminateSyncComplete : Fmt :=
  .uint 8 <| .uint 8 <| .done

/-- `LeRequestPeerSca`, packets/hci_packets.pdl 4692. -/
def bodyLeRequestPeerSca : Fmt :=
  .uint 12 <| .reserved 4 <| .done

/-- `LeRequestPeerScaStatus`, packets/hci_packets.pdl 4697. -/
def bodyLeRequestPeerScaStatus : Fmt :=
  .done

/-- `LeSetupIsoDataPath`, packets/hci_packets.pdl 4700. -/
def bodyLeSetupIsoDataPath : Fmt :=
  .uint 12 <| .reserved 4 <| .uint 8 <| .uint 8 <| .uint 40 <| .uint 24 <| .len 0 8 <|
   .array (.uint 8 .done) (.count 0) 0 <| .done

/-- `LeSetupIsoDataPathComplete`, packets/hci_packets.pdl 4711. -/
def bodyLeSetupIsoDataPathComplete : Fmt :=
  .uint 8 <| .uint 12 <| .reserved 4 <| .done

/-- `LeRemoveIsoDataPath`, packets/hci_packets.pdl 4717. -/
def bodyLeRemoveIsoDataPath : Fmt :=
  .uint 12 <| .reserved 4 <| .uint 1 <| .uint 1 <| .reserved 6 <| .done

/-- `LeRemoveIsoDataPathComplete`, packets/hci_packets.pdl 4725. -/
def bodyLeRemoveIsoDataPathComplete : Fmt :=
  .uint 8 <| .uint 12 <| .reserved 4 <| .done

/-- `LeSetHostFeatureV1`, packets/hci_packets.pdl 4737. -/
def bodyLeSetHostFeatureV1 : Fmt :=
  .uint 8 <| .uint 8 <| .done

/-- `LeSetHostFeatureV1Complete`, packets/hci_packets.pdl 4742. -/
def bodyLeSetHostFeatureV1Complete : Fmt :=
  .uint 8 <| .done

/-- `LeReadIsoLinkQuality`, packets/hci_packets.pdl 4746. -/
def bodyLeReadIsoLinkQuality : Fmt :=
  .uint 12 <| .reserved 4 <| .done

/-- `LeReadIsoLinkQualityComplete`, packets/hci_packets.pdl 4751. -/
def bodyLeReadIsoLinkQualityComplete : Fmt :=
  .uint 8 <| .uint 12 <| .reserved 4 <| .uint 32 <| .uint 32 <| .uint 32 <| .uint 32 <| .uint 32 <| .uint 32 <|
   .uint 32 <| .done

/-- `LeEnhancedReadTransmitPowerLevel`, packets/hci_packets.pdl 4764. -/
def bodyLeEnhancedReadTransmitPowerLevel : Fmt :=
  .uint 12 <| .reserved 4 <| .uint 8 <| .done

/-- `LeEnhancedReadTransmitPowerLevelComplete`, packets/hci_packets.pdl 4777. -/
def bodyLeEnhancedReadTransmitPowerLevelComplete : Fmt :=
  .uint 8 <| .uint 12 <| .reserved 4 <| .uint 8 <| .uint 8 <| .uint 8 <| .done

/-- `LeReadRemoteTransmitPowerLevel`, packets/hci_packets.pdl 4786. -/
def bodyLeReadRemoteTransmitPowerLevel : Fmt :=
  .uint 12 <| .reserved 4 <| .uint 8 <| .done

/-- `LeReadRemoteTransmitPowerLevelStatus`, packets/hci_packets.pdl 4792. -/
def bodyLeReadRemoteTransmitPowerLevelStatus : Fmt :=
  .done

/-- `LeSetPathLossReportingParameters`, packets/hci_packets.pdl 4795. -/
def bodyLeSetPathLossReportingParameters : Fmt :=
  .uint 12 <| .reserved 4 <| .uint 8 <| .uint 8 <| .uint 8 <| .uint 8 <| .uint 16 <| .done

/-- `LeSetPathLossReportingParametersComplete`, packets/hci_packets.pdl 4805. -/
def bodyLeSetPathLossReportingParametersComplete : Fmt :=
  .uint 8 <| .uint 12 <| .reserved 4 <| .done

/-- `LeSetPathLossReportingEnable`, packets/hci_packets.pdl 4811. -/
def bodyLeSetPathLossReportingEnable : Fmt :=
  .uint 12 <| .reserved 4 <| .uint 8 <| .done

/-- `LeSetPathLossReportingEnableComplete`, packets/hci_packets.pdl 4817. -/
def bodyLeSetPathLossReportingEnableComplete : Fmt :=
  .uint 8 <| .uint 12 <| .reserved 4 <| .done

/-- `LeSetTransmitPowerReportingEnable`, packets/hci_packets.pdl 4823. -/
def bodyLeSetTransmitPowerReportingEnable : Fmt :=
  .uint 12 <| .reserved 4 <| .uint 8 <| .uint 8 <| .done

/-- `LeSetTransmitPowerReportingEnableComplete`, packets/hci_packets.pdl 4830. -/
def bodyLeSetTransmitPowerReportingEnableComplete : Fmt :=
  .uint 8 <| .uint 12 <| .reserved 4 <| .done

/-- `LeSetDataRelatedAddressChanges`, packets/hci_packets.pdl 4836. -/
def bodyLeSetDataRelatedAddressChanges : Fmt :=
  .uint 8 <| .uint 8 <| .done

/-- `LeSetDataRelatedAddressChangesComplete`, packets/hci_packets.pdl 4841. -/
def bodyLeSetDataRelatedAddressChangesComplete : Fmt :=
  .uint 8 <| .done

/-- `LeSetDefaultSubrate`, packets/hci_packets.pdl 4845. -/
def bodyLeSetDefaultSubrate : Fmt :=
  .uint 16 <| .uint 16 <| .uint 16 <| .uint 16 <| .uint 16 <| .done

/-- `LeSetDefaultSubrateComplete`, packets/hci_packets.pdl 4853. -/
def bodyLeSetDefaultSubrateComplete : Fmt :=
  .uint 8 <| .done

/-- `LeSubrateRequest`, packets/hci_packets.pdl 4857. -/
def bodyLeSubrateRequest : Fmt :=
  .uint 12 <| .reserved 4 <| .uint 16 <| .uint 16 <| .uint 16 <| .uint 16 <| .uint 16 <| .done

/-- `LeSubrateRequestStatus`, packets/hci_packets.pdl 4867. -/
def bodyLeSubrateRequestStatus : Fmt :=
  .done

/-- `LeCsReadLocalSupportedCapabilities`, packets/hci_packets.pdl 4870. -/
def bodyLeCsReadLocalSupportedCapabilities : Fmt :=
  .done

/-- `LeCsReadLocalSupportedCapabilitiesComplete`, packets/hci_packets.pdl 4953. -/
def bodyLeCsReadLocalSupportedCapabilitiesComplete : Fmt :=
  .uint 8 <| .uint 8 <| .uint 16 <| .uint 8 <| .uint 8 <| .uint 8 <| .uint 8 <| .uint 8 <| .uint 8 <| .uint 8 <|
   .uint 8 <| .uint 16 <| .uint 16 <| .uint 8 <| .uint 16 <| .uint 16 <| .uint 16 <| .uint 16 <| .uint 16 <|
   .uint 8 <| .uint 8 <| .done

/-- `LeCsReadRemoteSupportedCapabilities`, packets/hci_packets.pdl 4977. -/
def bodyLeCsReadRemoteSupportedCapabilities : Fmt :=
  .uint 12 <| .reserved 4 <| .done

/-- `LeCsReadRemoteSupportedCapabilitiesStatus`, packets/hci_packets.pdl 4982. -/
def bodyLeCsReadRemoteSupportedCapabilitiesStatus : Fmt :=
  .done

/-- `LeCsReadRemoteSupportedCapabilitiesComplete`, packets/hci_packets.pdl 4985. -/
def bodyLeCsReadRemoteSupportedCapabilitiesComplete : Fmt :=
  .uint 8 <| .uint 12 <| .reserved 4 <| .uint 8 <| .uint 16 <| .uint 8 <| .uint 8 <| .uint 8 <| .uint 8 <| .uint 8 <|
   .uint 8 <| .uint 8 <| .uint 8 <| .uint 16 <| .uint 16 <| .uint 8 <| .uint 16 <| .uint 16 <| .uint 16 <| .uint 16 <|
   .uint 16 <| .uint 8 <| .uint 8 <| .done

/-- `LeCsWriteCachedRemoteSupportedCapabilities`, packets/hci_packets.pdl 5011. -/
def bodyLeCsWriteCachedRemoteSupportedCapabilities : Fmt :=
  .uint 12 <| .reserved 4 <| .uint 8 <| .uint 16 <| .uint 8 <| .uint 8 <| .uint 8 <| .uint 8 <| .uint 8 <| .uint 8 <|
   .uint 8 <| .uint 8 <| .uint 16 <| .uint 16 <| .uint 8 <| .uint 16 <| .uint 16 <| .uint 16 <| .uint 16 <|
   .uint 16 <| .uint 8 <| .uint 8 <| .done

/-- `LeCsWriteCachedRemoteSupportedCapabilitiesComplete`, packets/hci_packets.pdl 5036. -/
def bodyLeCsWriteCachedRemoteSupportedCapabilitiesComplete : Fmt :=
  .uint 8 <| .uint 12 <| .reserved 4 <| .done

/-- `LeCsSecurityEnable`, packets/hci_packets.pdl 5042. -/
def bodyLeCsSecurityEnable : Fmt :=
  .uint 12 <| .reserved 4 <| .done

/-- `LeCsSecurityEnableStatus`, packets/hci_packets.pdl 5047. -/
def bodyLeCsSecurityEnableStatus : Fmt :=
  .done

/-- `LeCsSecurityEnableComplete`, packets/hci_packets.pdl 5050. -/
def bodyLeCsSecurityEnableComplete : Fmt :=
  .uint 8 <| .uint 12 <| .reserved 4 <| .done

/-- `LeCsSetDefaultSettings`, packets/hci_packets.pdl 5071. -/
def bodyLeCsSetDefaultSettings : Fmt :=
  .uint 12 <| .reserved 4 <| .uint 8 <| .uint 8 <| .uint 8 <| .done

/-- `LeCsSetDefaultSettingsComplete`, packets/hci_packets.pdl 5079. -/
def bodyLeCsSetDefaultSettingsComplete : Fmt :=
  .uint 8 <| .uint 12 <| .reserved 4 <| .done

/-- `LeCsReadRemoteFaeTable`, packets/hci_packets.pdl 5085. -/
def bodyLeCsReadRemoteFaeTable : Fmt :=
  .uint 12 <| .reserved 4 <| .done

/-- `LeCsReadRemoteFaeTableStatus`, packets/hci_packets.pdl 5090. -/
def bodyLeCsReadRemoteFaeTableStatus : Fmt :=
  .done

/-- `LeCsReadRemoteFaeTableComplete`, packets/hci_packets.pdl 5093. -/
def bodyLeCsReadRemoteFaeTableComplete : Fmt :=
  .uint 8 <| .uint 12 <| .reserved 4 <| .array (.uint 8 .done) (.const 72) 0 <| .done

/-- `LeCsWriteCachedRemoteFaeTable`, packets/hci_packets.pdl 5100. -/
def bodyLeCsWriteCachedRemoteFaeTable : Fmt :=
  .uint 12 <| .reserved 4 <| .array (.uint 8 .done) (.const 72) 0 <| .done

/-- `LeCsWriteCachedRemoteFaeTableComplete`, packets/hci_packets.pdl 5106. -/
def bodyLeCsWriteCachedRemoteFaeTableComplete : Fmt :=
  .uint 8 <| .uint 12 <| .reserved 4 <| .done

/-- `LeCsConfigComplete`, packets/hci_packets.pdl 5166. -/
def bodyLeCsConfigComplete : Fmt :=
  .uint 8 <| .uint 12 <| .reserved 4 <| .uint 8 <| .uint 8 <| .uint 8 <| .uint 8 <| .uint 8 <| .uint 8 <| .uint 8 <|
   .uint 8 <| .uint 8 <| .uint 8 <| .uint 8 <| .array (.uint 8 .done) (.const 10) 0 <| .uint 8 <| .uint 8 <|
   .uint 8 <| .uint 8 <| .uint 8 <| .uint 8 <| .uint 8 <| .uint 8 <| .uint 8 <| .done

/-- `LeCsCreateConfig`, packets/hci_packets.pdl 5193. -/
def bodyLeCsCreateConfig : Fmt :=
  .uint 12 <| .reserved 4 <| .uint 8 <| .uint 8 <| .uint 8 <| .uint 8 <| .uint 8 <| .uint 8 <| .uint 8 <| .uint 8 <|
   .uint 8 <| .uint 8 <| .uint 8 <| .array (.uint 8 .done) (.const 10) 0 <| .uint 8 <| .uint 8 <| .uint 8 <|
   .uint 8 <| .uint 8 <| .done

/-- `LeCsCreateConfigStatus`, packets/hci_packets.pdl 5215. -/
def bodyLeCsCreateConfigStatus : Fmt :=
  .done

/-- `LeCsRemoveConfig`, packets/hci_packets.pdl 5219. -/
def bodyLeCsRemoveConfig : Fmt :=
  .uint 12 <| .reserved 4 <| .uint 8 <| .done

/-- `LeCsRemoveConfigStatus`, packets/hci_packets.pdl 5225. -/
def bodyLeCsRemoveConfigStatus : Fmt :=
  .done

/-- `LeCsSetChannelClassification`, packets/hci_packets.pdl 5228. -/
def bodyLeCsSetChannelClassification : Fmt :=
  .array (.uint 8 .done) (.const 10) 0 <| .done

/-- `LeCsSetChannelClassificationComplete`, packets/hci_packets.pdl 5232. -/
def bodyLeCsSetChannelClassificationComplete : Fmt :=
  .uint 8 <| .done

/-- `LeCsSetProcedureParameters`, packets/hci_packets.pdl 5259. -/
def bodyLeCsSetProcedureParameters : Fmt :=
  .uint 12 <| .reserved 4 <| .uint 8 <| .uint 16 <| .uint 16 <| .uint 16 <| .uint 16 <| .uint 24 <| .uint 24 <|
   .uint 8 <| .uint 8 <| .uint 8 <| .uint 8 <| .uint 8 <| .uint 8 <| .done

/-- `LeCsSetProcedureParametersComplete`, packets/hci_packets.pdl 5277. -/
def bodyLeCsSetProcedureParametersComplete : Fmt :=
  .uint 8 <| .uint 12 <| .reserved 4 <| .done

/-- `LeCsProcedureEnable`, packets/hci_packets.pdl 5283. -/
def bodyLeCsProcedureEnable : Fmt :=
  .uint 12 <| .reserved 4 <| .uint 8 <| .uint 8 <| .done

/-- `LeCsProcedureEnableStatus`, packets/hci_packets.pdl 5290. -/
def bodyLeCsProcedureEnableStatus : Fmt :=
  .done

/-- `LeCsProcedureEnableComplete`, packets/hci_packets.pdl 5293. -/
def bodyLeCsProcedureEnableComplete : Fmt :=
  .uint 8 <| .uint 12 <| .reserved 4 <| .uint 8 <| .uint 8 <| .uint 8 <| .uint 8 <| .uint 24 <| .uint 8 <| .uint 16 <|
   .uint 16 <| .uint 16 <| .uint 16 <| .uint 16 <| .done

/-- `LeCsTest`, packets/hci_packets.pdl 5310. -/
def bodyLeCsTest : Fmt :=
  .uint 8 <| .uint 8 <| .uint 8 <| .uint 8 <| .uint 8 <| .uint 8 <| .uint 8 <| .uint 8 <| .uint 24 <| .uint 16 <|
   .uint 8 <| .uint 8 <| .uint 8 <| .uint 8 <| .uint 8 <| .uint 8 <| .uint 8 <| .uint 8 <| .reserved 8 <| .uint 8 <|
   .uint 8 <| .uint 16 <| .uint 8 <| .uint 16 <| .len 0 8 <| .array (.uint 8 .done) (.size 0) 0 <| .done

/-- `LeCsTestComplete`, packets/hci_packets.pdl 5339. -/
def bodyLeCsTestComplete : Fmt :=
  .uint 8 <| .done

/-- `LeCsTestEnd`, packets/hci_packets.pdl 5343. -/
def bodyLeCsTestEnd : Fmt :=
  .done

/-- `LeCsTestEndStatus`, packets/hci_packets.pdl 5346. -/
def bodyLeCsTestEndStatus : Fmt :=
  .done

/-- `LeCsTestEndComplete`, packets/hci_packets.pdl 5349. -/
def bodyLeCsTestEndComplete : Fmt :=
  .uint 8 <| .done

/-- `LeCsSubeventResult`, packets/hci_packets.pdl 5360. -/
def bodyLeCsSubeventResult : Fmt :=
  .uint 12 <| .reserved 4 <| .uint 8 <| .uint 16 <| .uint 16 <| .uint 16 <| .uint 8 <| .uint 4 <| .uint 4 <|
   .uint 8 <| .uint 8 <| .len 0 8 <| .array structCsStepData (.count 0) 0 <| .done

/-- `LeCsSubeventResultContinue`, packets/hci_packets.pdl 5376. -/
def bodyLeCsSubeventResultContinue : Fmt :=
  .uint 12 <| .reserved 4 <| .uint 8 <| .uint 4 <| .uint 4 <| .uint 8 <| .uint 8 <| .len 0 8 <|
   .array structCsStepData (.count 0) 0 <| .done

/-- `InquiryComplete`, packets/hci_packets.pdl 5390. -/
def bodyInquiryComplete : Fmt :=
  .uint 8 <| .done

/-- `InquiryResult`, packets/hci_packets.pdl 5404. -/
def bodyInquiryResult : Fmt :=
  .len 0 8 <| .array structInquiryResponse (.count 0) 0 <| .done

/-- `ConnectionComplete`, packets/hci_packets.pdl 5414. -/
def bodyConnectionComplete : Fmt :=
  .uint 8 <| .uint 12 <| .reserved 4 <| .uint 48 <| .uint 8 <| .uint 8 <| .done

/-- `ConnectionRequest`, packets/hci_packets.pdl 5430. -/
def bodyConnectionRequest : Fmt :=
  .uint 48 <| .uint 24 <| .uint 8 <| .done

/-- `DisconnectionComplete`, packets/hci_packets.pdl 5436. -/
def bodyDisconnectionComplete : Fmt :=
  .uint 8 <| .uint 12 <| .reserved 4 <| .uint 8 <| .done

/-- `AuthenticationComplete`, packets/hci_packets.pdl 5443. -/
def bodyAuthenticationComplete : Fmt :=
  .uint 8 <| .uint 12 <| .reserved 4 <| .done

/-- `RemoteNameRequestComplete`, packets/hci_packets.pdl 5449. -/
def bodyRemoteNameRequestComplete : Fmt :=
  .uint 8 <| .uint 48 <| .array (.uint 8 .done) (.const 248) 0 <| .done

/-- `EncryptionChange`, packets/hci_packets.pdl 5461. -/
def bodyEncryptionChange : Fmt :=
  .uint 8 <| .uint 12 <| .reserved 4 <| .uint 8 <| .done

/-- `EncryptionChangeV2`, packets/hci_packets.pdl 5468. -/
def bodyEncryptionChangeV2 : Fmt :=
  .uint 8 <| .uint 12 <| .reserved 4 <| .uint 8 <| .uint 8 <| .done

/-- `ChangeConnectionLinkKeyComplete`, packets/hci_packets.pdl 5475. -/
def bodyChangeConnectionLinkKeyComplete : Fmt :=
  .uint 8 <| .uint 12 <| .reserved 4 <| .done

/-- `CentralLinkKeyComplete`, packets/hci_packets.pdl 5481. -/
def bodyCentralLinkKeyComplete : Fmt :=
  .uint 8 <| .uint 12 <| .reserved 4 <| .uint 8 <| .done

/-- `ReadRemoteSupportedFeaturesComplete`, packets/hci_packets.pdl 5488. -/
def bodyReadRemoteSupportedFeaturesComplete : Fmt :=
  .uint 8 <| .uint 12 <| .reserved 4 <| .uint 64 <| .done

/-- `ReadRemoteVersionInformationComplete`, packets/hci_packets.pdl 5495. -/
def bodyReadRemoteVersionInformationComplete : Fmt :=
  .uint 8 <| .uint 12 <| .reserved 4 <| .uint 8 <| .uint 16 <| .uint 16 <| .done

/-- `QosSetupComplete`, packets/hci_packets.pdl 5504. -/
def bodyQosSetupComplete : Fmt :=
  .uint 8 <| .uint 12 <| .reserved 4 <| .reserved 8 <| .uint 8 <| .uint 32 <| .uint 32 <| .uint 32 <| .uint 32 <|
   .done

/-- `HardwareError`, packets/hci_packets.pdl 5518. -/
def bodyHardwareError : Fmt :=
  .uint 8 <| .done

/-- `FlushOccurred`, packets/hci_packets.pdl 5522. -/
def bodyFlushOccurred : Fmt :=
  .uint 12 <| .reserved 4 <| .done

/-- `RoleChange`, packets/hci_packets.pdl 5527. -/
def bodyRoleChange : Fmt :=
  .uint 8 <| .uint 48 <| .uint 8 <| .done

/-- `NumberOfCompletedPackets`, packets/hci_packets.pdl 5533. -/
def bodyNumberOfCompletedPackets : Fmt :=
  .len 0 8 <| .array structCompletedPackets (.count 0) 0 <| .done

/-- `ModeChange`, packets/hci_packets.pdl 5544. -/
def bodyModeChange : Fmt :=
  .uint 8 <| .uint 12 <| .reserved 4 <| .uint 8 <| .uint 16 <| .done

/-- `ReturnLinkKeys`, packets/hci_packets.pdl 5558. -/
def bodyReturnLinkKeys : Fmt :=
  .len 0 8 <| .array structZeroKeyAndAddress (.count 0) 0 <| .done

/-- `PinCodeRequest`, packets/hci_packets.pdl 5563. -/
def bodyPinCodeRequest : Fmt :=
  .uint 48 <| .done

/-- `LinkKeyRequest`, packets/hci_packets.pdl 5567. -/
def bodyLinkKeyRequest : Fmt :=
  .uint 48 <| .done

/-- `LinkKeyNotification`, packets/hci_packets.pdl 5581. -/
def bodyLinkKeyNotification : Fmt :=
  .uint 48 <| .array (.uint 8 .done) (.const 16) 0 <| .uint 8 <| .done

/-- `LoopbackCommand`, packets/hci_packets.pdl 5587. -/
def bodyLoopbackCommand : Fmt :=
  .payload .rest <| .done

/-- `DataBufferOverflow`, packets/hci_packets.pdl 5591. -/
def bodyDataBufferOverflow : Fmt :=
  .uint 8 <| .done

/-- `MaxSlotsChange`, packets/hci_packets.pdl 5595. -/
def bodyMaxSlotsChange : Fmt :=
  .uint 12 <| .reserved 4 <| .uint 8 <| .done

/-- `ReadClockOffsetComplete`, packets/hci_packets.pdl 5601. -/
def bodyReadClockOffsetComplete : Fmt :=
  .uint 8 <| .uint 12 <| .reserved 4 <| .uint 15 <| .reserved 1 <| .done

/-- `ConnectionPacketTypeChanged`, packets/hci_packets.pdl 5609. -/
def bodyConnectionPacketTypeChanged : Fmt :=
  .uint 8 <| .uint 12 <| .reserved 4 <| .uint 16 <| .done

/-- `QosViolation`, packets/hci_packets.pdl 5616. -/
def bodyQosViolation : Fmt :=
  .uint 12 <| .reserved 4 <| .done

/-- `PageScanRepetitionModeChange`, packets/hci_packets.pdl 5621. -/
def bodyPageScanRepetitionModeChange : Fmt :=
  .uint 48 <| .uint 8 <| .done

/-- `FlowSpecificationComplete`, packets/hci_packets.pdl 5626. -/
def bodyFlowSpecificationComplete : Fmt :=
  .uint 8 <| .uint 12 <| .reserved 4 <| .reserved 8 <| .uint 8 <| .uint 8 <| .uint 32 <| .uint 32 <| .uint 32 <|
   .uint 32 <| .done

/-- `InquiryResultWithRssi`, packets/hci_packets.pdl 5649. -/
def bodyInquiryResultWithRssi : Fmt :=
  .len 0 8 <| .array structInquiryResponseWithRssi (.count 0) 0 <| .done

/-- `ReadRemoteExtendedFeaturesComplete`, packets/hci_packets.pdl 5654. -/
def bodyReadRemoteExtendedFeaturesComplete : Fmt :=
  .uint 8 <| .uint 12 <| .reserved 4 <| .uint 8 <| .uint 8 <| .uint 64 <| .done

/-- `SynchronousConnectionComplete`, packets/hci_packets.pdl 5675. -/
def bodySynchronousConnectionComplete : Fmt :=
  .uint 8 <| .uint 12 <| .reserved 4 <| .uint 48 <| .uint 8 <| .uint 8 <| .uint 8 <| .uint 16 <| .uint 16 <|
   .uint 8 <| .done

/-- `SynchronousConnectionChanged`, packets/hci_packets.pdl 5700. -/
def bodySynchronousConnectionChanged : Fmt :=
  .uint 8 <| .uint 12 <| .reserved 4 <| .uint 8 <| .uint 8 <| .uint 16 <| .uint 16 <| .done

/-- `SniffSubratingEvent`, packets/hci_packets.pdl 5715. -/
def bodySniffSubratingEvent : Fmt :=
  .uint 8 <| .uint 12 <| .reserved 4 <| .uint 16 <| .uint 16 <| .uint 16 <| .uint 16 <| .done

/-- `ExtendedInquiryResult`, packets/hci_packets.pdl 5725. -/
def bodyExtendedInquiryResult : Fmt :=
  .fixed 8 0x01 <| .uint 48 <| .uint 8 <| .reserved 8 <| .uint 24 <| .uint 15 <| .reserved 1 <| .uint 8 <|
   .array (.uint 8 .done) (.const 240) 0 <| .done

/-- `EncryptionKeyRefreshComplete`, packets/hci_packets.pdl 5740. -/
def bodyEncryptionKeyRefreshComplete : Fmt :=
  .uint 8 <| .uint 12 <| .reserved 4 <| .done

/-- `IoCapabilityRequest`, packets/hci_packets.pdl 5746. -/
def bodyIoCapabilityRequest : Fmt :=
  .uint 48 <| .done

/-- `IoCapabilityResponse`, packets/hci_packets.pdl 5750. -/
def bodyIoCapabilityResponse : Fmt :=
  .uint 48 <| .uint 8 <| .uint 8 <| .uint 8 <| .done

/-- `UserConfirmationRequest`, packets/hci_packets.pdl 5757. -/
def bodyUserConfirmationRequest : Fmt :=
  .uint 48 <| .uint 20 <| .reserved 12 <| .done

/-- `UserPasskeyRequest`, packets/hci_packets.pdl 5763. -/
def bodyUserPasskeyRequest : Fmt :=
  .uint 48 <| .done

/-- `RemoteOobDataRequest`, packets/hci_packets.pdl 5767. -/
def bodyRemoteOobDataRequest : Fmt :=
  .uint 48 <| .done

/-- `SimplePairingComplete`, packets/hci_packets.pdl 5771. -/
def bodySimplePairingComplete : Fmt :=
  .uint 8 <| .uint 48 <| .done

/-- `LinkSupervisionTimeoutChanged`, packets/hci_packets.pdl 5776. -/
def bodyLinkSupervisionTimeoutChanged : Fmt :=
  .uint 12 <| .reserved 4 <| .uint 16 <| .done

/-- `EnhancedFlush`, packets/hci_packets.pdl 5786. -/
def bodyEnhancedFlush : Fmt :=
  .uint 12 <| .reserved 4 <| .uint 8 <| .done

/-- `EnhancedFlushStatus`, packets/hci_packets.pdl 5796. -/
def bodyEnhancedFlushStatus : Fmt :=
  .done

/-- `EnhancedFlushComplete`, packets/hci_packets.pdl 5799. -/
def bodyEnhancedFlushComplete : Fmt :=
  .uint 12 <| .reserved 4 <| .done

/-- `UserPasskeyNotification`, packets/hci_packets.pdl 5808. -/
def bodyUserPasskeyNotification : Fmt :=
  .uint 48 <| .uint 20 <| .reserved 12 <| .done

/-- `KeypressNotification`, packets/hci_packets.pdl 5814. -/
def bodyKeypressNotification : Fmt :=
  .uint 48 <| .uint 8 <| .done

/-- `RemoteHostSupportedFeaturesNotification`, packets/hci_packets.pdl 5819. -/
def bodyRemoteHostSupportedFeaturesNotification : Fmt :=
  .uint 48 <| .uint 64 <| .done

/-- `NumberOfCompletedDataBlocks`, packets/hci_packets.pdl 5824. -/
def bodyNumberOfCompletedDataBlocks : Fmt :=
  .uint 16 <| .payload .rest <| .done

/-- `AuthenticatedPayloadTimeoutExpired`, packets/hci_packets.pdl 5829. -/
def bodyAuthenticatedPayloadTimeoutExpired : Fmt :=
  .uint 12 <| .reserved 4 <| .done

/-- `LeConnectionComplete`, packets/hci_packets.pdl 5835. -/
def bodyLeConnectionComplete : Fmt :=
  .uint 8 <| .uint 12 <| .reserved 4 <| .uint 8 <| .uint 8 <| .uint 48 <| .uint 16 <| .uint 16 <| .uint 16 <|
   .uint 8 <| .done

/-- `LeAdvertisingReport`, packets/hci_packets.pdl 5865. -/
def bodyLeAdvertisingReport : Fmt :=
  .len 0 8 <| .array structLeAdvertisingResponse (.count 0) 0 <| .done

/-- `LeConnectionUpdateComplete`, packets/hci_packets.pdl 5870. -/
def bodyLeConnectionUpdateComplete : Fmt :=
  .uint 8 <| .uint 12 <| .reserved 4 <| .uint 16 <| .uint 16 <| .uint 16 <| .done

/-- `LeLongTermKeyRequest`, packets/hci_packets.pdl 5879. -/
def bodyLeLongTermKeyRequest : Fmt :=
  .uint 12 <| .reserved 4 <| .array (.uint 8 .done) (.const 8) 0 <| .uint 16 <| .done

/-- `LeRemoteConnectionParameterRequest`, packets/hci_packets.pdl 5886. -/
def bodyLeRemoteConnectionParameterRequest : Fmt :=
  .uint 12 <| .reserved 4 <| .uint 16 <| .uint 16 <| .uint 16 <| .uint 16 <| .done

/-- `LeDataLengthChange`, packets/hci_packets.pdl 5895. -/
def bodyLeDataLengthChange : Fmt :=
  .uint 12 <| .reserved 4 <| .uint 16 <| .uint 16 <| .uint 16 <| .uint 16 <| .done

/-- `LeReadLocalP256PublicKeyComplete`, packets/hci_packets.pdl 5904. -/
def bodyLeReadLocalP256PublicKeyComplete : Fmt :=
  .uint 8 <| .array (.uint 8 .done) (.const 32) 0 <| .array (.uint 8 .done) (.const 32) 0 <| .done

/-- `LeGenerateDhKeyComplete`, packets/hci_packets.pdl 5910. -/
def bodyLeGenerateDhKeyComplete : Fmt :=
  .uint 8 <| .array (.uint 8 .done) (.const 32) 0 <| .done

/-- `LeEnhancedConnectionCompleteV1`, packets/hci_packets.pdl 5915. -/
def bodyLeEnhancedConnectionCompleteV1 : Fmt :=
  .uint 8 <| .uint 12 <| .reserved 4 <| .uint 8 <| .uint 8 <| .uint 48 <| .uint 48 <| .uint 48 <| .uint 16 <|
   .uint 16 <| .uint 16 <| .uint 8 <| .done

/-- `LeEnhancedConnectionCompleteV2`, packets/hci_packets.pdl 5930. -/
def bodyLeEnhancedConnectionCompleteV2 : Fmt :=
  .uint 8 <| .uint 12 <| .reserved 4 <| .uint 8 <| .uint 8 <| .uint 48 <| .uint 48 <| .uint 48 <| .uint 16 <|
   .uint 16 <| .uint 16 <| .uint 8 <| .uint 8 <| .uint 16 <| .done

/-- `LeDirectedAdvertisingReport`, packets/hci_packets.pdl 5973. -/
def bodyLeDirectedAdvertisingReport : Fmt :=
  .len 0 8 <| .array structLeDirectedAdvertisingResponse (.count 0) 0 <| .done

/-- `LePhyUpdateComplete`, packets/hci_packets.pdl 5978. -/
def bodyLePhyUpdateComplete : Fmt :=
  .uint 8 <| .uint 12 <| .reserved 4 <| .uint 8 <| .uint 8 <| .done

/-- `LeExtendedAdvertisingReport`, packets/hci_packets.pdl 6015. -/
def bodyLeExtendedAdvertisingReport : Fmt :=
  .len 0 8 <| .array structLeExtendedAdvertisingResponse (.count 0) 0 <| .done

/-- `LePeriodicAdvertisingSyncEstablishedV1`, packets/hci_packets.pdl 6020. -/
def bodyLePeriodicAdvertisingSyncEstablishedV1 : Fmt :=
  .uint 8 <| .uint 12 <| .reserved 4 <| .uint 8 <| .uint 8 <| .uint 48 <| .uint 8 <| .uint 16 <| .uint 8 <| .done

/-- `LePeriodicAdvertisingSyncEstablishedV2`, packets/hci_packets.pdl 6032. -/
def bodyLePeriodicAdvertisingSyncEstablishedV2 : Fmt :=
  .uint 8 <| .uint 12 <| .reserved 4 <| .uint 8 <| .uint 8 <| .uint 48 <| .uint 8 <| .uint 16 <| .uint 8 <| .uint 8 <|
   .uint 8 <| .uint 8 <| .uint 8 <| .done

/-- `LePeriodicAdvertisingReportV1`, packets/hci_packets.pdl 6048. -/
def bodyLePeriodicAdvertisingReportV1 : Fmt :=
  .uint 12 <| .reserved 4 <| .uint 8 <| .uint 8 <| .uint 8 <| .uint 2 <| .reserved 6 <| .len 0 8 <|
   .array (.uint 8 .done) (.size 0) 0 <| .done

/-- `LePeriodicAdvertisingReportV2`, packets/hci_packets.pdl 6060. -/
def bodyLePeriodicAdvertisingReportV2 : Fmt :=
  .uint 12 <| .reserved 4 <| .uint 8 <| .uint 8 <| .uint 8 <| .uint 16 <| .uint 8 <| .uint 2 <| .reserved 6 <|
   .len 0 8 <| .array (.uint 8 .done) (.size 0) 0 <| .done

/-- `LePeriodicAdvertisingSyncLost`, packets/hci_packets.pdl 6074. -/
def bodyLePeriodicAdvertisingSyncLost : Fmt :=
  .uint 12 <| .reserved 4 <| .done

/-- `LeScanTimeout`, packets/hci_packets.pdl 6079. -/
def bodyLeScanTimeout : Fmt :=
  .done

/-- `LeAdvertisingSetTerminated`, packets/hci_packets.pdl 6082. -/
def bodyLeAdvertisingSetTerminated : Fmt :=
  .uint 8 <| .uint 8 <| .uint 12 <| .reserved 4 <| .uint 8 <| .done

/-- `LeScanRequestReceived`, packets/hci_packets.pdl 6090. -/
def bodyLeScanRequestReceived : Fmt :=
  .uint 8 <| .uint 8 <| .uint 48 <| .done

/-- `LeChannelSelectionAlgorithm`, packets/hci_packets.pdl 6101. -/
def bodyLeChannelSelectionAlgorithm : Fmt :=
  .uint 12 <| .reserved 4 <| .uint 8 <| .done

/-- `LeConnectionlessIqReport`, packets/hci_packets.pdl 6107. -/
def bodyLeConnectionlessIqReport : Fmt :=
  .payload .rest <| .done

/-- `LeConnectionIqReport`, packets/hci_packets.pdl 6111. -/
def bodyLeConnectionIqReport : Fmt :=
  .payload .rest <| .done

/-- `LeCteRequestFailed`, packets/hci_packets.pdl 6115. -/
def bodyLeCteRequestFailed : Fmt :=
  .payload .rest <| .done

/-- `LePeriodicAdvertisingSyncTransferReceivedV1`, packets/hci_packets.pdl 6119. -/
def bodyLePeriodicAdvertisingSyncTransferReceivedV1 : Fmt :=
  .uint 8 <| .uint 12 <| .reserved 4 <| .uint 16 <| .uint 12 <| .reserved 4 <| .uint 4 <| .reserved 4 <| .uint 8 <|
   .uint 48 <| .uint 8 <| .uint 16 <| .uint 8 <| .done

/-- `LePeriodicAdvertisingSyncTransferReceivedV2`, packets/hci_packets.pdl 6135. -/
def bodyLePeriodicAdvertisingSyncTransferReceivedV2 : Fmt :=
  .uint 8 <| .uint 12 <| .reserved 4 <| .uint 16 <| .uint 12 <| .reserved 4 <| .uint 4 <| .reserved 4 <| .uint 8 <|
   .uint 48 <| .uint 8 <| .uint 16 <| .uint 8 <| .uint 8 <| .uint 8 <| .uint 8 <| .uint 8 <| .done

/-- `LeCisEstablishedV1`, packets/hci_packets.pdl 6155. -/
def bodyLeCisEstablishedV1 : Fmt :=
  .uint 8 <| .uint 12 <| .reserved 4 <| .uint 24 <| .uint 24 <| .uint 24 <| .uint 24 <| .uint 8 <| .uint 8 <|
   .uint 8 <| .uint 4 <| .reserved 4 <| .uint 4 <| .reserved 4 <| .uint 8 <| .uint 8 <| .uint 8 <| .reserved 8 <|
   .uint 8 <| .reserved 8 <| .uint 16 <| .done

/-- `LeCisEstablishedV2`, packets/hci_packets.pdl 6179. -/
def bodyLeCisEstablishedV2 : Fmt :=
  .uint 8 <| .uint 12 <| .reserved 4 <| .uint 24 <| .uint 24 <| .uint 24 <| .uint 24 <| .uint 8 <| .uint 8 <|
   .uint 8 <| .uint 4 <| .reserved 4 <| .uint 4 <| .reserved 4 <| .uint 8 <| .uint 8 <| .uint 8 <| .reserved 8 <|
   .uint 8 <| .reserved 8 <| .uint 16 <| .uint 24 <| .uint 16 <| .uint 16 <| .uint 24 <| .uint 24 <| .uint 8 <| .done

/-- `LeCisRequest`, packets/hci_packets.pdl 6209. -/
def bodyLeCisRequest : Fmt :=
  .uint 12 <| .reserved 4 <| .uint 12 <| .reserved 4 <| .uint 8 <| .uint 8 <| .done

/-- `LeCreateBigComplete`, packets/hci_packets.pdl 6218. -/
def bodyLeCreateBigComplete : Fmt :=
  .uint 8 <| .uint 8 <| .uint 24 <| .uint 24 <| .uint 8 <| .uint 8 <| .uint 8 <| .uint 8 <| .uint 8 <| .uint 16 <|
   .uint 16 <| .len 0 8 <| .array (.uint 16 .done) (.size 0) 0 <| .done

/-- `LeTerminateBigComplete`, packets/hci_packets.pdl 6234. -/
def bodyLeTerminateBigComplete : Fmt :=
  .uint 8 <| .uint 8 <| .done

/-- `LeBigSyncEstablished`, packets/hci_packets.pdl 6239. -/
def bodyLeBigSyncEstablished : Fmt :=
  .uint 8 <| .uint 8 <| .uint 24 <| .uint 8 <| .uint 8 <| .uint 8 <| .uint 8 <| .uint 16 <| .uint 16 <| .len 0 8 <|
   .array (.uint 16 .done) (.size 0) 0 <| .done

/-- `LeBigSyncLost`, packets/hci_packets.pdl 6253. -/
def bodyLeBigSyncLost : Fmt :=
  .uint 8 <| .uint 8 <| .done

/-- `LeRequestPeerScaComplete`, packets/hci_packets.pdl 6258. -/
def bodyLeRequestPeerScaComplete : Fmt :=
  .uint 8 <| .uint 12 <| .reserved 4 <| .uint 8 <| .done

/-- `LePathLossThreshold`, packets/hci_packets.pdl 6271. -/
def bodyLePathLossThreshold : Fmt :=
  .uint 12 <| .reserved 4 <| .uint 8 <| .uint 8 <| .done

/-- `LeTransmitPowerReporting`, packets/hci_packets.pdl 6284. -/
def bodyLeTransmitPowerReporting : Fmt :=
  .uint 8 <| .uint 12 <| .reserved 4 <| .uint 8 <| .uint 8 <| .uint 8 <| .uint 8 <| .uint 8 <| .done

/-- `LeBigInfoAdvertisingReport`, packets/hci_packets.pdl 6295. -/
def bodyLeBigInfoAdvertisingReport : Fmt :=
  .uint 12 <| .reserved 4 <| .uint 8 <| .uint 8 <| .uint 16 <| .uint 8 <| .uint 8 <| .uint 8 <| .uint 16 <|
   .uint 24 <| .uint 16 <| .uint 8 <| .uint 8 <| .uint 8 <| .done

/-- `LeSubrateChange`, packets/hci_packets.pdl 6312. -/
def bodyLeSubrateChange : Fmt :=
  .uint 8 <| .uint 12 <| .reserved 4 <| .uint 9 <| .reserved 7 <| .uint 9 <| .reserved 7 <| .uint 9 <| .reserved 7 <|
   .uint 12 <| .reserved 4 <| .done

/-- `Iso`, packets/hci_packets.pdl 6338. -/
def bodyIso : Fmt :=
  .uint 12 <| .uint 2 <| .uint 1 <| .reserved 1 <| .len 0 14 <| .reserved 2 <| .payload (.size 0) <| .done

/-- `IsoWithTimestamp`, packets/hci_packets.pdl 6354. -/
def bodyIsoWithTimestamp : Fmt :=
  .uint 32 <| .uint 16 <| .uint 12 <| .reserved 2 <| .uint 2 <| .payload .rest <| .done

/-- `IsoWithoutTimestamp`, packets/hci_packets.pdl 6363. -/
def bodyIsoWithoutTimestamp : Fmt :=
  .uint 16 <| .uint 12 <| .reserved 2 <| .uint 2 <| .payload .rest <| .done

/-- `RootcanalCommand`, packets/hci_packets.pdl 6429. -/
def bodyRootcanalCommand : Fmt :=
  .uint 8 <| .payload .rest <| .done

/-- `RootcanalCommandComplete`, packets/hci_packets.pdl 6434. -/
def bodyRootcanalCommandComplete : Fmt :=
  .uint 8 <| .uint 8 <| .done

/-- `RootcanalSendHciEvent`, packets/hci_packets.pdl 6439. -/
def bodyRootcanalSendHciEvent : Fmt :=
  .uint 8 <| .len 0 8 <| .payload (.size 0) <| .done

/-- `RootcanalSendHciAclData`, packets/hci_packets.pdl 6445. -/
def bodyRootcanalSendHciAclData : Fmt :=
  .uint 12 <| .uint 2 <| .uint 2 <| .len 0 16 <| .payload (.size 0) <| .done

/-- `LeGetVendorCapabilities`, packets/hci_packets.pdl 6458. -/
def bodyLeGetVendorCapabilities : Fmt :=
  .done

/-- `LeGetVendorCapabilitiesComplete`, packets/hci_packets.pdl 6465. -/
def bodyLeGetVendorCapabilitiesComplete : Fmt :=
  .uint 8 <| .array (.uint 8 .done) .rest 0 <| .done

/-- `LeBatchScan`, packets/hci_packets.pdl 6558. -/
def bodyLeBatchScan : Fmt :=
  .uint 8 <| .payload .rest <| .done

/-- `LeBatchScanComplete`, packets/hci_packets.pdl 6563. -/
def bodyLeBatchScanComplete : Fmt :=
  .uint 8 <| .uint 8 <| .payload .rest <| .done

/-- `LeBatchScanEnable`, packets/hci_packets.pdl 6569. -/
def bodyLeBatchScanEnable : Fmt :=
  .uint 8 <| .done

/-- `LeBatchScanEnableComplete`, packets/hci_packets.pdl 6573. -/
def bodyLeBatchScanEnableComplete : Fmt :=
  .done

/-- `LeBatchScanSetStorageParameters`, packets/hci_packets.pdl 6576. -/
def bodyLeBatchScanSetStorageParameters : Fmt :=
  .uint 8 <| .uint 8 <| .uint 8 <| .done

/-- `LeBatchScanSetStorageParametersComplete`, packets/hci_packets.pdl 6582. -/
def bodyLeBatchScanSetStorageParametersComplete : Fmt :=
  .done

/-- `LeBatchScanSetScanParameters`, packets/hci_packets.pdl 6590. -/
def bodyLeBatchScanSetScanParameters : Fmt :=
  .uint 1 <| .uint 1 <| .reserved 6 <| .uint 32 <| .uint 32 <| .uint 8 <| .uint 8 <| .done

/-- `LeBatchScanSetScanParametersComplete`, packets/hci_packets.pdl 6600. -/
def bodyLeBatchScanSetScanParametersComplete : Fmt :=
  .done

/-- `LeBatchScanReadResultParameters`, packets/hci_packets.pdl 6608. -/
def bodyLeBatchScanReadResultParameters : Fmt :=
  .uint 8 <| .done

/-- `LeBatchScanReadResultParametersComplete`, packets/hci_packets.pdl 6612. -/
def bodyLeBatchScanReadResultParametersComplete : Fmt :=
  .uint 8 <| .payload .rest <| .done

/-- `LeBatchScanReadTruncatedResultParametersComplete`, packets/hci_packets.pdl 6625. -/
def bodyLeBatchScanReadTruncatedResultParametersComplete : Fmt :=
  .len 0 8 <| .array structTruncatedResult (.count 0) 0 <| .done

/-- `LeBatchScanReadFullResultParametersComplete`, packets/hci_packets.pdl 6642. -/
def bodyLeBatchScanReadFullResultParametersComplete : Fmt :=
  .len 0 8 <| .array structFullResult (.count 0) 0 <| .done

/-- `StorageThresholdBreachEvent`, packets/hci_packets.pdl 6647. -/
def bodyStorageThresholdBreachEvent : Fmt :=
  .done

/-- `LeApcf`, packets/hci_packets.pdl 6670. -/
def bodyLeApcf : Fmt :=
  .uint 8 <| .payload .rest <| .done

/-- `LeApcfComplete`, packets/hci_packets.pdl 6675. -/
def bodyLeApcfComplete : Fmt :=
  .uint 8 <| .uint 8 <| .payload .rest <| .done

/-- `LeApcfEnable`, packets/hci_packets.pdl 6681. -/
def bodyLeApcfEnable : Fmt :=
  .uint 8 <| .done

/-- `LeApcfEnableComplete`, packets/hci_packets.pdl 6685. -/
def bodyLeApcfEnableComplete : Fmt :=
  .uint 8 <| .done

/-- `LeApcfSetFilteringParameters`, packets/hci_packets.pdl 6714. -/
def bodyLeApcfSetFilteringParameters : Fmt :=
  .uint 8 <| .payload .rest <| .done

/-- `LeApcfAddFilteringParameters`, packets/hci_packets.pdl 6719. -/
def bodyLeApcfAddFilteringParameters : Fmt :=
  .uint 8 <| .uint 16 <| .uint 16 <| .uint 8 <| .uint 8 <| .uint 8 <| .uint 16 <| .uint 8 <| .uint 8 <| .uint 16 <|
   .uint 16 <| .done

/-- `LeApcfDeleteFilteringParameters`, packets/hci_packets.pdl 6733. -/
def bodyLeApcfDeleteFilteringParameters : Fmt :=
  .uint 8 <| .done

/-- `LeApcfClearFilteringParameters`, packets/hci_packets.pdl 6737. -/
def bodyLeApcfClearFilteringParameters : Fmt :=
  .done

/-- `LeApcfSetFilteringParametersComplete`, packets/hci_packets.pdl 6740. -/
def bodyLeApcfSetFilteringParametersComplete : Fmt :=
  .uint 8 <| .uint 8 <| .done

/-- `LeApcfBroadcasterAddress`, packets/hci_packets.pdl 6751. -/
def bodyLeApcfBroadcasterAddress : Fmt :=
  .uint 8 <| .payload .rest <| .done

/-- `LeApcfAddBroadcasterAddress`, packets/hci_packets.pdl 6756. -/
def bodyLeApcfAddBroadcasterAddress : Fmt :=
  .uint 8 <| .uint 48 <| .uint 8 <| .done

/-- `LeApcfDeleteBroadcasterAddress`, packets/hci_packets.pdl 6762. -/
def bodyLeApcfDeleteBroadcasterAddress : Fmt :=
  .uint 8 <| .uint 48 <| .uint 8 <| .done

/-- `LeApcfClearBroadcasterAddress`, packets/hci_packets.pdl 6768. -/
def bodyLeApcfClearBroadcasterAddress : Fmt :=
  .uint 8 <| .done

/-- `LeApcfBroadcasterAddressComplete`, packets/hci_packets.pdl 6772. -/
def bodyLeApcfBroadcasterAddressComplete : Fmt :=
  .uint 8 <| .uint 8 <| .done

/-- `LeApcfServiceUuid`, packets/hci_packets.pdl 6777. -/
def bodyLeApcfServiceUuid : Fmt :=
  .uint 8 <| .uint 8 <| .array (.uint 8 .done) .rest 0 <| .done

/-- `LeApcfServiceUuidComplete`, packets/hci_packets.pdl 6783. -/
def bodyLeApcfServiceUuidComplete : Fmt :=
  .uint 8 <| .uint 8 <| .done

/-- `LeApcfServiceSolicitationUuid`, packets/hci_packets.pdl 6788. -/
def bodyLeApcfServiceSolicitationUuid : Fmt :=
  .uint 8 <| .uint 8 <| .array (.uint 8 .done) .rest 0 <| .done

/-- `LeApcfServiceSolicitationUuidComplete`, packets/hci_packets.pdl 6794. -/
def bodyLeApcfServiceSolicitationUuidComplete : Fmt :=
  .uint 8 <| .uint 8 <| .done

/-- `LeApcfLocalName`, packets/hci_packets.pdl 6799. -/
def bodyLeApcfLocalName : Fmt :=
  .uint 8 <| .uint 8 <| .array (.uint 8 .done) .rest 0 <| .done

/-- `LeApcfLocalNameComplete`, packets/hci_packets.pdl 6805. -/
def bodyLeApcfLocalNameComplete : Fmt :=
  .uint 8 <| .uint 8 <| .done

/-- `LeApcfManufacturerData`, packets/hci_packets.pdl 6810. -/
def bodyLeApcfManufacturerData : Fmt :=
  .uint 8 <| .uint 8 <| .array (.uint 8 .done) .rest 0 <| .done

/-- `LeApcfManufacturerDataComplete`, packets/hci_packets.pdl 6816. -/
def bodyLeApcfManufacturerDataComplete : Fmt :=
  .uint 8 <| .uint 8 <| .done

/-- `LeApcfServiceData`, packets/hci_packets.pdl 6821. -/
def bodyLeApcfServiceData : Fmt :=
  .uint 8 <| .uint 8 <| .array (.uint 8 .done) .rest 0 <| .done

/-- `LeApcfServiceDataComplete`, packets/hci_packets.pdl 6827. -/
def bodyLeApcfServiceDataComplete : Fmt :=
  .uint 8 <| .uint 8 <| .done

/-- `LeApcfAdTypeFilter`, packets/hci_packets.pdl 6832. -/
def bodyLeApcfAdTypeFilter : Fmt :=
  .uint 8 <| .uint 8 <| .uint 8 <| .len 0 8 <| .array (.uint 8 .done) (.size 0) 0 <| .array (.uint 8 .done) .rest 0 <|
   .done

/-- `LeApcfAdTypeFilterComplete`, packets/hci_packets.pdl 6841. -/
def bodyLeApcfAdTypeFilterComplete : Fmt :=
  .uint 8 <| .uint 8 <| .done

/-- `LeApcfTransportDiscoveryService`, packets/hci_packets.pdl 6846. -/
def bodyLeApcfTransportDiscoveryService : Fmt :=
  .uint 8 <| .uint 8 <| .array (.uint 8 .done) .rest 0 <| .done

/-- `LeApcfTransportDiscoveryServiceComplete`, packets/hci_packets.pdl 6852. -/
def bodyLeApcfTransportDiscoveryServiceComplete : Fmt :=
  .uint 8 <| .uint 8 <| .done

/-- `LeApcfReadExtendedFeatures`, packets/hci_packets.pdl 6857. -/
def bodyLeApcfReadExtendedFeatures : Fmt :=
  .done

/-- `LeApcfReadExtendedFeaturesComplete`, packets/hci_packets.pdl 6864. -/
def bodyLeApcfReadExtendedFeaturesComplete : Fmt :=
  .uint 1 <| .uint 1 <| .reserved 14 <| .done

/-- `LeAdvertisementTrackingEvent`, packets/hci_packets.pdl 6894. -/
def bodyLeAdvertisementTrackingEvent : Fmt :=
  .uint 8 <| .uint 8 <| .uint 8 <| .uint 48 <| .uint 8 <| .array structAdvtInfo .rest 0 <| .done

/-- `LeGetControllerActivityEnergyInfo`, packets/hci_packets.pdl 6908. -/
def bodyLeGetControllerActivityEnergyInfo : Fmt :=
  .done

/-- `LeGetControllerActivityEnergyInfoComplete`, packets/hci_packets.pdl 6911. -/
def bodyLeGetControllerActivityEnergyInfoComplete : Fmt :=
  .uint 8 <| .uint 32 <| .uint 32 <| .uint 32 <| .uint 32 <| .done

/-- `LeExSetScanParameters`, packets/hci_packets.pdl 6934. -/
def bodyLeExSetScanParameters : Fmt :=
  .uint 8 <| .uint 32 <| .uint 32 <| .uint 8 <| .uint 8 <| .done

/-- `LeExSetScanParametersComplete`, packets/hci_packets.pdl 6942. -/
def bodyLeExSetScanParametersComplete : Fmt :=
  .uint 8 <| .done

/-- `GetControllerDebugInfo`, packets/hci_packets.pdl 6951. -/
def bodyGetControllerDebugInfo : Fmt :=
  .done

/-- `GetControllerDebugInfoComplete`, packets/hci_packets.pdl 6954. -/
def bodyGetControllerDebugInfoComplete : Fmt :=
  .uint 8 <| .done

/-- `ControllerDebugInfoEvent`, packets/hci_packets.pdl 6958. -/
def bodyControllerDebugInfoEvent : Fmt :=
  .uint 16 <| .uint 8 <| .len 0 16 <| .array (.uint 8 .done) (.size 0) 0 <| .done

/-- Acl and the packets derived from it, in the order of packets/hci_packets.pdl (part 1). -/
def packetsAcl0 : List Packet := [
  ⟨"Acl", [⟨bodyAcl, []⟩]⟩]

/-- Acl and the packets derived from it, in the order of packets/hci_packets.pdl. -/
def packetsAcl : List Packet := packetsAcl0

/-- Sco and the packets derived from it, in the order of packets/hci_packets.pdl (part 1). -/
def packetsSco0 : List Packet := [
  ⟨"Sco", [⟨bodySco, []⟩]⟩]

/-- Sco and the packets derived from it, in the order of packets/hci_packets.pdl. -/
def packetsSco : List Packet := packetsSco0

/-- Command and the packets derived from it, in the order of packets/hci_packets.pdl (part 1). -/
def packetsCommand0 : List Packet := [
  ⟨"Command", [⟨bodyCommand, []⟩]⟩,
  ⟨"Inquiry", [⟨bodyCommand, [(0, 1025)]⟩, ⟨bodyInquiry, []⟩]⟩,
  ⟨"InquiryCancel", [⟨bodyCommand, [(0, 1026)]⟩, ⟨bodyInquiryCancel, []⟩]⟩,
  ⟨"PeriodicInquiryMode", [⟨bodyCommand, [(0, 1027)]⟩, ⟨bodyPeriodicInquiryMode, []⟩]⟩,
  ⟨"ExitPeriodicInquiryMode", [⟨bodyCommand, [(0, 1028)]⟩, ⟨bodyExitPeriodicInquiryMode, []⟩]⟩,
  ⟨"CreateConnection", [⟨bodyCommand, [(0, 1029)]⟩, ⟨bodyCreateConnection, []⟩]⟩,
  ⟨"Disconnect", [⟨bodyCommand, [(0, 1030)]⟩, ⟨bodyDisconnect, []⟩]⟩,
  ⟨"AddScoConnection", [⟨bodyCommand, [(0, 1031)]⟩, ⟨bodyAddScoConnection, []⟩]⟩,
  ⟨"CreateConnectionCancel", [⟨bodyCommand, [(0, 1032)]⟩, ⟨bodyCreateConnectionCancel, []⟩]⟩,
  ⟨"AcceptConnectionRequest", [⟨bodyCommand, [(0, 1033)]⟩, ⟨bodyAcceptConnectionRequest, []⟩]⟩,
  ⟨"RejectConnectionRequest", [⟨bodyCommand, [(0, 1034)]⟩, ⟨bodyRejectConnectionRequest, []⟩]⟩,
  ⟨"LinkKeyRequestReply", [⟨bodyCommand, [(0, 1035)]⟩, ⟨bodyLinkKeyRequestReply, []⟩]⟩,
  ⟨"LinkKeyRequestNegativeReply", [⟨bodyCommand, [(0, 1036)]⟩, ⟨bodyLinkKeyRequestNegativeReply, []⟩]⟩,
  ⟨"PinCodeRequestReply", [⟨bodyCommand, [(0, 1037)]⟩, ⟨bodyPinCodeRequestReply, []⟩]⟩,
  ⟨"PinCodeRequestNegativeReply", [⟨bodyCommand, [(0, 1038)]⟩, ⟨bodyPinCodeRequestNegativeReply, []⟩]⟩,
  ⟨"ChangeConnectionPacketType", [⟨bodyCommand, [(0, 1039)]⟩, ⟨bodyChangeConnectionPacketType, []⟩]⟩,
  ⟨"AuthenticationRequested", [⟨bodyCommand, [(0, 1041)]⟩, ⟨bodyAuthenticationRequested, []⟩]⟩,
  ⟨"SetConnectionEncryption", [⟨bodyCommand, [(0, 1043)]⟩, ⟨bodySetConnectionEncryption, []⟩]⟩,
  ⟨"ChangeConnectionLinkKey", [⟨bodyCommand, [(0, 1045)]⟩, ⟨bodyChangeConnectionLinkKey, []⟩]⟩,
  ⟨"CentralLinkKey", [⟨bodyCommand, [(0, 1047)]⟩, ⟨bodyCentralLinkKey, []⟩]⟩,
  ⟨"RemoteNameRequest", [⟨bodyCommand, [(0, 1049)]⟩, ⟨bodyRemoteNameRequest, []⟩]⟩,
  ⟨"RemoteNameRequestCancel", [⟨bodyCommand, [(0, 1050)]⟩, ⟨bodyRemoteNameRequestCancel, []⟩]⟩,
  ⟨"ReadRemoteSupportedFeatures", [⟨bodyCommand, [(0, 1051)]⟩, ⟨bodyReadRemoteSupportedFeatures, []⟩]⟩,
  ⟨"ReadRemoteExtendedFeatures", [⟨bodyCommand, [(0, 1052)]⟩, ⟨bodyReadRemoteExtendedFeatures, []⟩]⟩,
  ⟨"ReadRemoteVersionInformation", [⟨bodyCommand, [(0, 1053)]⟩, ⟨bodyReadRemoteVersionInformation, []⟩]⟩,
  ⟨"ReadClockOffset", [⟨bodyCommand, [(0, 1055)]⟩, ⟨bodyReadClockOffset, []⟩]⟩,
  ⟨"ReadLmpHandle", [⟨bodyCommand, [(0, 1056)]⟩, ⟨bodyReadLmpHandle, []⟩]⟩,
  ⟨"SetupSynchronousConnection", [⟨bodyCommand, [(0, 1064)]⟩, ⟨bodySetupSynchronousConnection, []⟩]⟩,
  ⟨"AcceptSynchronousConnection", [⟨bodyCommand, [(0, 1065)]⟩, ⟨bodyAcceptSynchronousConnection, []⟩]⟩,
  ⟨"RejectSynchronousConnection", [⟨bodyCommand, [(0, 1066)]⟩, ⟨bodyRejectSynchronousConnection, []⟩]⟩,
  ⟨"IoCapabilityRequestReply", [⟨bodyCommand, [(0, 1067)]⟩, ⟨bodyIoCapabilityRequestReply, []⟩]⟩,
  ⟨"UserConfirmationRequestReply", [⟨bodyCommand, [(0, 1068)]⟩, ⟨bodyUserConfirmationRequestReply, []⟩]⟩,
  ⟨"UserConfirmationRequestNegativeReply", [⟨bodyCommand, [(0, 1069)]⟩, ⟨bodyUserConfirmationRequestNegativeReply, []⟩]⟩,
  ⟨"UserPasskeyRequestReply", [⟨bodyCommand, [(0, 1070)]⟩, ⟨bodyUserPasskeyRequestReply, []⟩]⟩,
  ⟨"UserPasskeyRequestNegativeReply", [⟨bodyCommand, [(0, 1071)]⟩, ⟨bodyUserPasskeyRequestNegativeReply, []⟩]⟩,
  ⟨"RemoteOobDataRequestReply", [⟨bodyCommand, [(0, 1072)]⟩, ⟨bodyRemoteOobDataRequestReply, []⟩]⟩,
  ⟨"RemoteOobDataRequestNegativeReply", [⟨bodyCommand, [(0, 1075)]⟩, ⟨bodyRemoteOobDataRequestNegativeReply, []⟩]⟩,
  ⟨"IoCapabilityRequestNegativeReply", [⟨bodyCommand, [(0, 1076)]⟩, ⟨bodyIoCapabilityRequestNegativeReply, []⟩]⟩,
  ⟨"EnhancedSetupSynchronousConnection", [⟨bodyCommand, [(0, 1085)]⟩, ⟨bodyEnhancedSetupSynchronousConnection, []⟩]⟩,
  ⟨"EnhancedAcceptSynchronousConnection", [⟨bodyCommand, [(0, 1086)]⟩, ⟨bodyEnhancedAcceptSynchronousConnection, []⟩]⟩,
  ⟨"RemoteOobExtendedDataRequestReply", [⟨bodyCommand, [(0, 1093)]⟩, ⟨bodyRemoteOobExtendedDataRequestReply, []⟩]⟩,
  ⟨"HoldMode", [⟨bodyCommand, [(0, 2049)]⟩, ⟨bodyHoldMode, []⟩]⟩,
  ⟨"SniffMode", [⟨bodyCommand, [(0, 2051)]⟩, ⟨bodySniffMode, []⟩]⟩,
  ⟨"ExitSniffMode", [⟨bodyCommand, [(0, 2052)]⟩, ⟨bodyExitSniffMode, []⟩]⟩,
  ⟨"QosSetup", [⟨bodyCommand, [(0, 2055)]⟩, ⟨bodyQosSetup, []⟩]⟩,
  ⟨"RoleDiscovery", [⟨bodyCommand, [(0, 2057)]⟩, ⟨bodyRoleDiscovery, []⟩]⟩,
  ⟨"SwitchRole", [⟨bodyCommand, [(0, 2059)]⟩, ⟨bodySwitchRole, []⟩]⟩,
  ⟨"ReadLinkPolicySettings", [⟨bodyCommand, [(0, 2060)]⟩, ⟨bodyReadLinkPolicySettings, []⟩]⟩,
  ⟨"WriteLinkPolicySettings", [⟨bodyCommand, [(0, 2061)]⟩, ⟨bodyWriteLinkPolicySettings, []⟩]⟩,
  ⟨"ReadDefaultLinkPolicySettings", [⟨bodyCommand, [(0, 2062)]⟩, ⟨bodyReadDefaultLinkPolicySettings, []⟩]⟩,
  ⟨"WriteDefaultLinkPolicySettings", [⟨bodyCommand, [(0, 2063)]⟩, ⟨bodyWriteDefaultLinkPolicySettings, []⟩]⟩,
  ⟨"FlowSpecification", [⟨bodyCommand, [(0, 2064)]⟩, ⟨bodyFlowSpecification, []⟩]⟩,
  ⟨"SniffSubrating", [⟨bodyCommand, [(0, 2065)]⟩, ⟨bodySniffSubrating, []⟩]⟩,
  ⟨"SetEventMask", [⟨bodyCommand, [(0, 3073)]⟩, ⟨bodySetEventMask, []⟩]⟩,
  ⟨"Reset", [⟨bodyCommand, [(0, 3075)]⟩, ⟨bodyReset, []⟩]⟩,
  ⟨"SetEventFilter", [⟨bodyCommand, [(0, 3077)]⟩, ⟨bodySetEventFilter, []⟩]⟩,
  ⟨"SetEventFilterClearAll", [⟨bodyCommand, [(0, 3077)]⟩, ⟨bodySetEventFilter, [(0, 0)]⟩, ⟨bodySetEventFilterClearAll, []⟩]⟩,
  ⟨"SetEventFilterInquiryResult", [⟨bodyCommand, [(0, 3077)]⟩, ⟨bodySetEventFilter, [(0, 1)]⟩, ⟨bodySetEventFilterInquiryResult, []⟩]⟩,
  ⟨"SetEventFilterInquiryResultAllDevices", [⟨bodyCommand, [(0, 3077)]⟩, ⟨bodySetEventFilter, [(0, 1)]⟩, ⟨bodySetEventFilterInquiryResult, [(0, 0)]⟩, ⟨bodySetEventFilterInquiryResultAllDevices, []⟩]⟩,
  ⟨"SetEventFilterInquiryResultClassOfDevice", [⟨bodyCommand, [(0, 3077)]⟩, ⟨bodySetEventFilter, [(0, 1)]⟩, ⟨bodySetEventFilterInquiryResult, [(0, 1)]⟩, ⟨bodySetEventFilterInquiryResultClassOfDevice, []⟩]⟩,
  ⟨"SetEventFilterInquiryResultAddress", [⟨bodyCommand, [(0, 3077)]⟩, ⟨bodySetEventFilter, [(0, 1)]⟩, ⟨bodySetEventFilterInquiryResult, [(0, 2)]⟩, ⟨bodySetEventFilterInquiryResultAddress, []⟩]⟩,
  ⟨"SetEventFilterConnectionSetup", [⟨bodyCommand, [(0, 3077)]⟩, ⟨bodySetEventFilter, [(0, 2)]⟩, ⟨bodySetEventFilterConnectionSetup, []⟩]⟩,
  ⟨"SetEventFilterConnectionSetupAllDevices", [⟨bodyCommand, [(0, 3077)]⟩, ⟨bodySetEventFilter, [(0, 2)]⟩, ⟨bodySetEventFilterConnectionSetup, [(0, 0)]⟩, ⟨bodySetEventFilterConnectionSetupAllDevices, []⟩]⟩,
  ⟨"SetEventFilterConnectionSetupClassOfDevice", [⟨bodyCommand, [(0, 3077)]⟩, ⟨bodySetEventFilter, [(0, 2)]⟩, ⟨bodySetEventFilterConnectionSetup, [(0, 1)]⟩, ⟨bodySetEventFilterConnectionSetupClassOfDevice, []⟩]⟩,
  ⟨"SetEventFilterConnectionSetupAddress", [⟨bodyCommand, [(0, 3077)]⟩, ⟨bodySetEventFilter, [(0, 2)]⟩, ⟨bodySetEventFilterConnectionSetup, [(0, 2)]⟩, ⟨bodySetEventFilterConnectionSetupAddress, []⟩]⟩,
  ⟨"Flush", [⟨bodyCommand, [(0, 3080)]⟩, ⟨bodyFlush, []⟩]⟩,
  ⟨"ReadPinType", [⟨bodyCommand, [(0, 3081)]⟩, ⟨bodyReadPinType, []⟩]⟩,
  ⟨"WritePinType", [⟨bodyCommand, [(0, 3082)]⟩, ⟨bodyWritePinType, []⟩]⟩,
  ⟨"ReadStoredLinkKey", [⟨bodyCommand, [(0, 3085)]⟩, ⟨bodyReadStoredLinkKey, []⟩]⟩,
  ⟨"WriteStoredLinkKey", [⟨bodyCommand, [(0, 3089)]⟩, ⟨bodyWriteStoredLinkKey, []⟩]⟩,
  ⟨"DeleteStoredLinkKey", [⟨bodyCommand, [(0, 3090)]⟩, ⟨bodyDeleteStoredLinkKey, []⟩]⟩,
  ⟨"WriteLocalName", [⟨bodyCommand, [(0, 3091)]⟩, ⟨bodyWriteLocalName, []⟩]⟩,
  ⟨"ReadLocalName", [⟨bodyCommand, [(0, 3092)]⟩, ⟨bodyReadLocalName, []⟩]⟩,
  ⟨"ReadConnectionAcceptTimeout", [⟨bodyCommand, [(0, 3093)]⟩, ⟨bodyReadConnectionAcceptTimeout, []⟩]⟩,
  ⟨"WriteConnectionAcceptTimeout", [⟨bodyCommand, [(0, 3094)]⟩, ⟨bodyWriteConnectionAcceptTimeout, []⟩]⟩,
  ⟨"ReadPageTimeout", [⟨bodyCommand, [(0, 3095)]⟩, ⟨bodyReadPageTimeout, []⟩]⟩,
  ⟨"WritePageTimeout", [⟨bodyCommand, [(0, 3096)]⟩, ⟨bodyWritePageTimeout, []⟩]⟩,
  ⟨"ReadScanEnable", [⟨bodyCommand, [(0, 3097)]⟩, ⟨bodyReadScanEnable, []⟩]⟩,
  ⟨"WriteScanEnable", [⟨bodyCommand, [(0, 3098)]⟩, ⟨bodyWriteScanEnable, []⟩]⟩,
  ⟨"ReadPageScanActivity", [⟨bodyCommand, [(0, 3099)]⟩, ⟨bodyReadPageScanActivity, []⟩]⟩,
  ⟨"WritePageScanActivity", [⟨bodyCommand, [(0, 3100)]⟩, ⟨bodyWritePageScanActivity, []⟩]⟩,
  ⟨"ReadInquiryScanActivity", [⟨bodyCommand, [(0, 3101)]⟩, ⟨bodyReadInquiryScanActivity, []⟩]⟩,
  ⟨"WriteInquiryScanActivity", [⟨bodyCommand, [(0, 3102)]⟩, ⟨bodyWriteInquiryScanActivity, []⟩]⟩,
  ⟨"ReadAuthenticationEnable", [⟨bodyCommand, [(0, 3103)]⟩, ⟨bodyReadAuthenticationEnable, []⟩]⟩,
  ⟨"WriteAuthenticationEnable", [⟨bodyCommand, [(0, 3104)]⟩, ⟨bodyWriteAuthenticationEnable, []⟩]⟩,
  ⟨"ReadClassOfDevice", [⟨bodyCommand, [(0, 3107)]⟩, ⟨bodyReadClassOfDevice, []⟩]⟩,
  ⟨"WriteClassOfDevice", [⟨bodyCommand, [(0, 3108)]⟩, ⟨bodyWriteClassOfDevice, []⟩]⟩,
  ⟨"ReadVoiceSetting", [⟨bodyCommand, [(0, 3109)]⟩, ⟨bodyReadVoiceSetting, []⟩]⟩,
  ⟨"WriteVoiceSetting", [⟨bodyCommand, [(0, 3110)]⟩, ⟨bodyWriteVoiceSetting, []⟩]⟩,
  ⟨"ReadAutomaticFlushTimeout", [⟨bodyCommand, [(0, 3111)]⟩, ⟨bodyReadAutomaticFlushTimeout, []⟩]⟩,
  ⟨"WriteAutomaticFlushTimeout", [⟨bodyCommand, [(0, 3112)]⟩, ⟨bodyWriteAutomaticFlushTimeout, []⟩]⟩,
  ⟨"ReadNumBroadcastRetransmits", [⟨bodyCommand, [(0, 3113)]⟩, ⟨bodyReadNumBroadcastRetransmits, []⟩]⟩,
  ⟨"WriteNumBroadcastRetransmits", [⟨bodyCommand, [(0, 3114)]⟩, ⟨bodyWriteNumBroadcastRetransmits, []⟩]⟩,
  ⟨"ReadHoldModeActivity", [⟨bodyCommand, [(0, 3115)]⟩, ⟨bodyReadHoldModeActivity, []⟩]⟩,
  ⟨"WriteHoldModeActivity", [⟨bodyCommand, [(0, 3116)]⟩, ⟨bodyWriteHoldModeActivity, []⟩]⟩,
  ⟨"ReadTransmitPowerLevel", [⟨bodyCommand, [(0, 3117)]⟩, ⟨bodyReadTransmitPowerLevel, []⟩]⟩,
  ⟨"ReadSynchronousFlowControlEnable", [⟨bodyCommand, [(0, 3118)]⟩, ⟨bodyReadSynchronousFlowControlEnable, []⟩]⟩,
  ⟨"WriteSynchronousFlowControlEnable", [⟨bodyCommand, [(0, 3119)]⟩, ⟨bodyWriteSynchronousFlowControlEnable, []⟩]⟩,
  ⟨"SetControllerToHostFlowControl", [⟨bodyCommand, [(0, 3121)]⟩, ⟨bodySetControllerToHostFlowControl, []⟩]⟩,
  ⟨"HostBufferSize", [⟨bodyCommand, [(0, 3123)]⟩, ⟨bodyHostBufferSize, []⟩]⟩]

/-- Command and the packets derived from it, in the order of packets/hci_packets.pdl (part 2). -/
def packetsCommand1 : List Packet := [
  ⟨"HostNumCompletedPackets", [⟨bodyCommand, [(0, 3125)]⟩, ⟨bodyHostNumCompletedPackets, []⟩]⟩,
  ⟨"ReadLinkSupervisionTimeout", [⟨bodyCommand, [(0, 3126)]⟩, ⟨bodyReadLinkSupervisionTimeout, []⟩]⟩,
  ⟨"WriteLinkSupervisionTimeout", [⟨bodyCommand, [(0, 3127)]⟩, ⟨bodyWriteLinkSupervisionTimeout, []⟩]⟩,
  ⟨"ReadNumberOfSupportedIac", [⟨bodyCommand, [(0, 3128)]⟩, ⟨bodyReadNumberOfSupportedIac, []⟩]⟩,
  ⟨"ReadCurrentIacLap", [⟨bodyCommand, [(0, 3129)]⟩, ⟨bodyReadCurrentIacLap, []⟩]⟩,
  ⟨"WriteCurrentIacLap", [⟨bodyCommand, [(0, 3130)]⟩, ⟨bodyWriteCurrentIacLap, []⟩]⟩,
  ⟨"SetAfhHostChannelClassification", [⟨bodyCommand, [(0, 3135)]⟩, ⟨bodySetAfhHostChannelClassification, []⟩]⟩,
  ⟨"ReadInquiryScanType", [⟨bodyCommand, [(0, 3138)]⟩, ⟨bodyReadInquiryScanType, []⟩]⟩,
  ⟨"WriteInquiryScanType", [⟨bodyCommand, [(0, 3139)]⟩, ⟨bodyWriteInquiryScanType, []⟩]⟩,
  ⟨"ReadInquiryMode", [⟨bodyCommand, [(0, 3140)]⟩, ⟨bodyReadInquiryMode, []⟩]⟩,
  ⟨"WriteInquiryMode", [⟨bodyCommand, [(0, 3141)]⟩, ⟨bodyWriteInquiryMode, []⟩]⟩,
  ⟨"ReadPageScanType", [⟨bodyCommand, [(0, 3142)]⟩, ⟨bodyReadPageScanType, []⟩]⟩,
  ⟨"WritePageScanType", [⟨bodyCommand, [(0, 3143)]⟩, ⟨bodyWritePageScanType, []⟩]⟩,
  ⟨"ReadAfhChannelAssessmentMode", [⟨bodyCommand, [(0, 3144)]⟩, ⟨bodyReadAfhChannelAssessmentMode, []⟩]⟩,
  ⟨"WriteAfhChannelAssessmentMode", [⟨bodyCommand, [(0, 3145)]⟩, ⟨bodyWriteAfhChannelAssessmentMode, []⟩]⟩,
  ⟨"ReadExtendedInquiryResponse", [⟨bodyCommand, [(0, 3153)]⟩, ⟨bodyReadExtendedInquiryResponse, []⟩]⟩,
  ⟨"WriteExtendedInquiryResponse", [⟨bodyCommand, [(0, 3154)]⟩, ⟨bodyWriteExtendedInquiryResponse, []⟩]⟩,
  ⟨"RefreshEncryptionKey", [⟨bodyCommand, [(0, 3155)]⟩, ⟨bodyRefreshEncryptionKey, []⟩]⟩,
  ⟨"ReadSimplePairingMode", [⟨bodyCommand, [(0, 3157)]⟩, ⟨bodyReadSimplePairingMode, []⟩]⟩,
  ⟨"WriteSimplePairingMode", [⟨bodyCommand, [(0, 3158)]⟩, ⟨bodyWriteSimplePairingMode, []⟩]⟩,
  ⟨"ReadLocalOobData", [⟨bodyCommand, [(0, 3159)]⟩, ⟨bodyReadLocalOobData, []⟩]⟩,
  ⟨"ReadInquiryResponseTransmitPowerLevel", [⟨bodyCommand, [(0, 3160)]⟩, ⟨bodyReadInquiryResponseTransmitPowerLevel, []⟩]⟩,
  ⟨"WriteInquiryTransmitPowerLevel", [⟨bodyCommand, [(0, 3161)]⟩, ⟨bodyWriteInquiryTransmitPowerLevel, []⟩]⟩,
  ⟨"SendKeypressNotification", [⟨bodyCommand, [(0, 3168)]⟩, ⟨bodySendKeypressNotification, []⟩]⟩,
  ⟨"SetEventMaskPage2", [⟨bodyCommand, [(0, 3171)]⟩, ⟨bodySetEventMaskPage2, []⟩]⟩,
  ⟨"ReadEnhancedTransmitPowerLevel", [⟨bodyCommand, [(0, 3176)]⟩, ⟨bodyReadEnhancedTransmitPowerLevel, []⟩]⟩,
  ⟨"ReadLeHostSupport", [⟨bodyCommand, [(0, 3180)]⟩, ⟨bodyReadLeHostSupport, []⟩]⟩,
  ⟨"WriteLeHostSupport", [⟨bodyCommand, [(0, 3181)]⟩, ⟨bodyWriteLeHostSupport, []⟩]⟩,
  ⟨"ReadSecureConnectionsHostSupport", [⟨bodyCommand, [(0, 3193)]⟩, ⟨bodyReadSecureConnectionsHostSupport, []⟩]⟩,
  ⟨"WriteSecureConnectionsHostSupport", [⟨bodyCommand, [(0, 3194)]⟩, ⟨bodyWriteSecureConnectionsHostSupport, []⟩]⟩,
  ⟨"ReadLocalOobExtendedData", [⟨bodyCommand, [(0, 3197)]⟩, ⟨bodyReadLocalOobExtendedData, []⟩]⟩,
  ⟨"SetEcosystemBaseInterval", [⟨bodyCommand, [(0, 3202)]⟩, ⟨bodySetEcosystemBaseInterval, []⟩]⟩,
  ⟨"ConfigureDataPath", [⟨bodyCommand, [(0, 3203)]⟩, ⟨bodyConfigureDataPath, []⟩]⟩,
  ⟨"SetMinEncryptionKeySize", [⟨bodyCommand, [(0, 3204)]⟩, ⟨bodySetMinEncryptionKeySize, []⟩]⟩,
  ⟨"ReadLocalVersionInformation", [⟨bodyCommand, [(0, 4097)]⟩, ⟨bodyReadLocalVersionInformation, []⟩]⟩,
  ⟨"ReadLocalSupportedCommands", [⟨bodyCommand, [(0, 4098)]⟩, ⟨bodyReadLocalSupportedCommands, []⟩]⟩,
  ⟨"ReadLocalSupportedFeatures", [⟨bodyCommand, [(0, 4099)]⟩, ⟨bodyReadLocalSupportedFeatures, []⟩]⟩,
  ⟨"ReadLocalExtendedFeatures", [⟨bodyCommand, [(0, 4100)]⟩, ⟨bodyReadLocalExtendedFeatures, []⟩]⟩,
  ⟨"ReadBufferSize", [⟨bodyCommand, [(0, 4101)]⟩, ⟨bodyReadBufferSize, []⟩]⟩,
  ⟨"ReadBdAddr", [⟨bodyCommand, [(0, 4105)]⟩, ⟨bodyReadBdAddr, []⟩]⟩,
  ⟨"ReadDataBlockSize", [⟨bodyCommand, [(0, 4106)]⟩, ⟨bodyReadDataBlockSize, []⟩]⟩,
  ⟨"ReadLocalSupportedCodecsV1", [⟨bodyCommand, [(0, 4107)]⟩, ⟨bodyReadLocalSupportedCodecsV1, []⟩]⟩,
  ⟨"ReadLocalSupportedCodecsV2", [⟨bodyCommand, [(0, 4109)]⟩, ⟨bodyReadLocalSupportedCodecsV2, []⟩]⟩,
  ⟨"ReadLocalSupportedCodecCapabilities", [⟨bodyCommand, [(0, 4110)]⟩, ⟨bodyReadLocalSupportedCodecCapabilities, []⟩]⟩,
  ⟨"ReadLocalSupportedControllerDelay", [⟨bodyCommand, [(0, 4111)]⟩, ⟨bodyReadLocalSupportedControllerDelay, []⟩]⟩,
  ⟨"ReadFailedContactCounter", [⟨bodyCommand, [(0, 5121)]⟩, ⟨bodyReadFailedContactCounter, []⟩]⟩,
  ⟨"ResetFailedContactCounter", [⟨bodyCommand, [(0, 5122)]⟩, ⟨bodyResetFailedContactCounter, []⟩]⟩,
  ⟨"ReadLinkQuality", [⟨bodyCommand, [(0, 5123)]⟩, ⟨bodyReadLinkQuality, []⟩]⟩,
  ⟨"ReadRssi", [⟨bodyCommand, [(0, 5125)]⟩, ⟨bodyReadRssi, []⟩]⟩,
  ⟨"ReadAfhChannelMap", [⟨bodyCommand, [(0, 5126)]⟩, ⟨bodyReadAfhChannelMap, []⟩]⟩,
  ⟨"ReadClock", [⟨bodyCommand, [(0, 5127)]⟩, ⟨bodyReadClock, []⟩]⟩,
  ⟨"ReadEncryptionKeySize", [⟨bodyCommand, [(0, 5128)]⟩, ⟨bodyReadEncryptionKeySize, []⟩]⟩,
  ⟨"ReadLoopbackMode", [⟨bodyCommand, [(0, 6145)]⟩, ⟨bodyReadLoopbackMode, []⟩]⟩,
  ⟨"WriteLoopbackMode", [⟨bodyCommand, [(0, 6146)]⟩, ⟨bodyWriteLoopbackMode, []⟩]⟩,
  ⟨"EnableImplementationUnderTestMode", [⟨bodyCommand, [(0, 6147)]⟩, ⟨bodyEnableImplementationUnderTestMode, []⟩]⟩,
  ⟨"WriteSimplePairingDebugMode", [⟨bodyCommand, [(0, 6148)]⟩, ⟨bodyWriteSimplePairingDebugMode, []⟩]⟩,
  ⟨"WriteSecureConnectionsTestMode", [⟨bodyCommand, [(0, 6154)]⟩, ⟨bodyWriteSecureConnectionsTestMode, []⟩]⟩,
  ⟨"LeSetEventMask", [⟨bodyCommand, [(0, 8193)]⟩, ⟨bodyLeSetEventMask, []⟩]⟩,
  ⟨"LeReadBufferSizeV1", [⟨bodyCommand, [(0, 8194)]⟩, ⟨bodyLeReadBufferSizeV1, []⟩]⟩,
  ⟨"LeReadLocalSupportedFeaturesPage0", [⟨bodyCommand, [(0, 8195)]⟩, ⟨bodyLeReadLocalSupportedFeaturesPage0, []⟩]⟩,
  ⟨"LeReadAllLocalSupportedFeatures", [⟨bodyCommand, [(0, 8327)]⟩, ⟨bodyLeReadAllLocalSupportedFeatures, []⟩]⟩,
  ⟨"LeSetRandomAddress", [⟨bodyCommand, [(0, 8197)]⟩, ⟨bodyLeSetRandomAddress, []⟩]⟩,
  ⟨"LeSetAdvertisingParameters", [⟨bodyCommand, [(0, 8198)]⟩, ⟨bodyLeSetAdvertisingParameters, []⟩]⟩,
  ⟨"LeReadAdvertisingPhysicalChannelTxPower", [⟨bodyCommand, [(0, 8199)]⟩, ⟨bodyLeReadAdvertisingPhysicalChannelTxPower, []⟩]⟩,
  ⟨"LeSetAdvertisingData", [⟨bodyCommand, [(0, 8200)]⟩, ⟨bodyLeSetAdvertisingData, []⟩]⟩,
  ⟨"LeSetScanResponseData", [⟨bodyCommand, [(0, 8201)]⟩, ⟨bodyLeSetScanResponseData, []⟩]⟩,
  ⟨"LeSetAdvertisingEnable", [⟨bodyCommand, [(0, 8202)]⟩, ⟨bodyLeSetAdvertisingEnable, []⟩]⟩,
  ⟨"LeSetScanParameters", [⟨bodyCommand, [(0, 8203)]⟩, ⟨bodyLeSetScanParameters, []⟩]⟩,
  ⟨"LeSetScanEnable", [⟨bodyCommand, [(0, 8204)]⟩, ⟨bodyLeSetScanEnable, []⟩]⟩,
  ⟨"LeCreateConnection", [⟨bodyCommand, [(0, 8205)]⟩, ⟨bodyLeCreateConnection, []⟩]⟩,
  ⟨"LeCreateConnectionCancel", [⟨bodyCommand, [(0, 8206)]⟩, ⟨bodyLeCreateConnectionCancel, []⟩]⟩,
  ⟨"LeReadFilterAcceptListSize", [⟨bodyCommand, [(0, 8207)]⟩, ⟨bodyLeReadFilterAcceptListSize, []⟩]⟩,
  ⟨"LeClearFilterAcceptList", [⟨bodyCommand, [(0, 8208)]⟩, ⟨bodyLeClearFilterAcceptList, []⟩]⟩,
  ⟨"LeAddDeviceToFilterAcceptList", [⟨bodyCommand, [(0, 8209)]⟩, ⟨bodyLeAddDeviceToFilterAcceptList, []⟩]⟩,
  ⟨"LeRemoveDeviceFromFilterAcceptList", [⟨bodyCommand, [(0, 8210)]⟩, ⟨bodyLeRemoveDeviceFromFilterAcceptList, []⟩]⟩,
  ⟨"LeConnectionUpdate", [⟨bodyCommand, [(0, 8211)]⟩, ⟨bodyLeConnectionUpdate, []⟩]⟩,
  ⟨"LeSetHostChannelClassification", [⟨bodyCommand, [(0, 8212)]⟩, ⟨bodyLeSetHostChannelClassification, []⟩]⟩,
  ⟨"LeReadChannelMap", [⟨bodyCommand, [(0, 8213)]⟩, ⟨bodyLeReadChannelMap, []⟩]⟩,
  ⟨"LeReadRemoteFeaturesPage0", [⟨bodyCommand, [(0, 8214)]⟩, ⟨bodyLeReadRemoteFeaturesPage0, []⟩]⟩,
  ⟨"LeReadAllRemoteFeatures", [⟨bodyCommand, [(0, 8328)]⟩, ⟨bodyLeReadAllRemoteFeatures, []⟩]⟩,
  ⟨"LeEncrypt", [⟨bodyCommand, [(0, 8215)]⟩, ⟨bodyLeEncrypt, []⟩]⟩,
  ⟨"LeRand", [⟨bodyCommand, [(0, 8216)]⟩, ⟨bodyLeRand, []⟩]⟩,
  ⟨"LeStartEncryption", [⟨bodyCommand, [(0, 8217)]⟩, ⟨bodyLeStartEncryption, []⟩]⟩,
  ⟨"LeLongTermKeyRequestReply", [⟨bodyCommand, [(0, 8218)]⟩, ⟨bodyLeLongTermKeyRequestReply, []⟩]⟩,
  ⟨"LeLongTermKeyRequestNegativeReply", [⟨bodyCommand, [(0, 8219)]⟩, ⟨bodyLeLongTermKeyRequestNegativeReply, []⟩]⟩,
  ⟨"LeReadSupportedStates", [⟨bodyCommand, [(0, 8220)]⟩, ⟨bodyLeReadSupportedStates, []⟩]⟩,
  ⟨"LeReceiverTest", [⟨bodyCommand, [(0, 8221)]⟩, ⟨bodyLeReceiverTest, []⟩]⟩,
  ⟨"LeTransmitterTest", [⟨bodyCommand, [(0, 8222)]⟩, ⟨bodyLeTransmitterTest, []⟩]⟩,
  ⟨"LeTestEnd", [⟨bodyCommand, [(0, 8223)]⟩, ⟨bodyLeTestEnd, []⟩]⟩,
  ⟨"LeRemoteConnectionParameterRequestReply", [⟨bodyCommand, [(0, 8224)]⟩, ⟨bodyLeRemoteConnectionParameterRequestReply, []⟩]⟩,
  ⟨"LeRemoteConnectionParameterRequestNegativeReply", [⟨bodyCommand, [(0, 8225)]⟩, ⟨bodyLeRemoteConnectionParameterRequestNegativeReply, []⟩]⟩,
  ⟨"LeSetDataLength", [⟨bodyCommand, [(0, 8226)]⟩, ⟨bodyLeSetDataLength, []⟩]⟩,
  ⟨"LeReadSuggestedDefaultDataLength", [⟨bodyCommand, [(0, 8227)]⟩, ⟨bodyLeReadSuggestedDefaultDataLength, []⟩]⟩,
  ⟨"LeWriteSuggestedDefaultDataLength", [⟨bodyCommand, [(0, 8228)]⟩, ⟨bodyLeWriteSuggestedDefaultDataLength, []⟩]⟩,
  ⟨"LeReadLocalP256PublicKey", [⟨bodyCommand, [(0, 8229)]⟩, ⟨bodyLeReadLocalP256PublicKey, []⟩]⟩,
  ⟨"LeGenerateDhkeyV1", [⟨bodyCommand, [(0, 8230)]⟩, ⟨bodyLeGenerateDhkeyV1, []⟩]⟩,
  ⟨"LeAddDeviceToResolvingList", [⟨bodyCommand, [(0, 8231)]⟩, ⟨bodyLeAddDeviceToResolvingList, []⟩]⟩,
  ⟨"LeRemoveDeviceFromResolvingList", [⟨bodyCommand, [(0, 8232)]⟩, ⟨bodyLeRemoveDeviceFromResolvingList, []⟩]⟩,
  ⟨"LeClearResolvingList", [⟨bodyCommand, [(0, 8233)]⟩, ⟨bodyLeClearResolvingList, []⟩]⟩,
  ⟨"LeReadResolvingListSize", [⟨bodyCommand, [(0, 8234)]⟩, ⟨bodyLeReadResolvingListSize, []⟩]⟩]

/-- Command and the packets derived from it, in the order of packets/hci_packets.pdl (part 3). -/
def packetsCommand2 : List Packet := [
  ⟨"LeReadPeerResolvableAddress", [⟨bodyCommand, [(0, 8235)]⟩, ⟨bodyLeReadPeerResolvableAddress, []⟩]⟩,
  ⟨"LeReadLocalResolvableAddress", [⟨bodyCommand, [(0, 8236)]⟩, ⟨bodyLeReadLocalResolvableAddress, []⟩]⟩,
  ⟨"LeSetAddressResolutionEnable", [⟨bodyCommand, [(0, 8237)]⟩, ⟨bodyLeSetAddressResolutionEnable, []⟩]⟩,
  ⟨"LeSetResolvablePrivateAddressTimeout", [⟨bodyCommand, [(0, 8238)]⟩, ⟨bodyLeSetResolvablePrivateAddressTimeout, []⟩]⟩,
  ⟨"LeReadMaximumDataLength", [⟨bodyCommand, [(0, 8239)]⟩, ⟨bodyLeReadMaximumDataLength, []⟩]⟩,
  ⟨"LeReadPhy", [⟨bodyCommand, [(0, 8240)]⟩, ⟨bodyLeReadPhy, []⟩]⟩,
  ⟨"LeSetDefaultPhy", [⟨bodyCommand, [(0, 8241)]⟩, ⟨bodyLeSetDefaultPhy, []⟩]⟩,
  ⟨"LeSetPhy", [⟨bodyCommand, [(0, 8242)]⟩, ⟨bodyLeSetPhy, []⟩]⟩,
  ⟨"LeEnhancedReceiverTest", [⟨bodyCommand, [(0, 8243)]⟩, ⟨bodyLeEnhancedReceiverTest, []⟩]⟩,
  ⟨"LeEnhancedTransmitterTest", [⟨bodyCommand, [(0, 8244)]⟩, ⟨bodyLeEnhancedTransmitterTest, []⟩]⟩,
  ⟨"LeSetAdvertisingSetRandomAddress", [⟨bodyCommand, [(0, 8245)]⟩, ⟨bodyLeSetAdvertisingSetRandomAddress, []⟩]⟩,
  ⟨"LeSetExtendedAdvertisingParametersV1", [⟨bodyCommand, [(0, 8246)]⟩, ⟨bodyLeSetExtendedAdvertisingParametersV1, []⟩]⟩,
  ⟨"LeSetExtendedAdvertisingParametersV2", [⟨bodyCommand, [(0, 8319)]⟩, ⟨bodyLeSetExtendedAdvertisingParametersV2, []⟩]⟩,
  ⟨"LeSetExtendedAdvertisingData", [⟨bodyCommand, [(0, 8247)]⟩, ⟨bodyLeSetExtendedAdvertisingData, []⟩]⟩,
  ⟨"LeSetExtendedScanResponseData", [⟨bodyCommand, [(0, 8248)]⟩, ⟨bodyLeSetExtendedScanResponseData, []⟩]⟩,
  ⟨"LeSetExtendedAdvertisingEnableDisableAll", [⟨bodyCommand, [(0, 8249)]⟩, ⟨bodyLeSetExtendedAdvertisingEnableDisableAll, []⟩]⟩,
  ⟨"LeSetExtendedAdvertisingEnable", [⟨bodyCommand, [(0, 8249)]⟩, ⟨bodyLeSetExtendedAdvertisingEnable, []⟩]⟩,
  ⟨"LeReadMaximumAdvertisingDataLength", [⟨bodyCommand, [(0, 8250)]⟩, ⟨bodyLeReadMaximumAdvertisingDataLength, []⟩]⟩,
  ⟨"LeReadNumberOfSupportedAdvertisingSets", [⟨bodyCommand, [(0, 8251)]⟩, ⟨bodyLeReadNumberOfSupportedAdvertisingSets, []⟩]⟩,
  ⟨"LeRemoveAdvertisingSet", [⟨bodyCommand, [(0, 8252)]⟩, ⟨bodyLeRemoveAdvertisingSet, []⟩]⟩,
  ⟨"LeClearAdvertisingSets", [⟨bodyCommand, [(0, 8253)]⟩, ⟨bodyLeClearAdvertisingSets, []⟩]⟩,
  ⟨"LeSetPeriodicAdvertisingParametersV1", [⟨bodyCommand, [(0, 8254)]⟩, ⟨bodyLeSetPeriodicAdvertisingParametersV1, []⟩]⟩,
  ⟨"LeSetPeriodicAdvertisingParametersV2", [⟨bodyCommand, [(0, 8326)]⟩, ⟨bodyLeSetPeriodicAdvertisingParametersV2, []⟩]⟩,
  ⟨"LeSetPeriodicAdvertisingData", [⟨bodyCommand, [(0, 8255)]⟩, ⟨bodyLeSetPeriodicAdvertisingData, []⟩]⟩,
  ⟨"LeSetPeriodicAdvertisingEnable", [⟨bodyCommand, [(0, 8256)]⟩, ⟨bodyLeSetPeriodicAdvertisingEnable, []⟩]⟩,
  ⟨"LeSetExtendedScanParameters", [⟨bodyCommand, [(0, 8257)]⟩, ⟨bodyLeSetExtendedScanParameters, []⟩]⟩,
  ⟨"LeSetExtendedScanEnable", [⟨bodyCommand, [(0, 8258)]⟩, ⟨bodyLeSetExtendedScanEnable, []⟩]⟩,
  ⟨"LeExtendedCreateConnectionV1", [⟨bodyCommand, [(0, 8259)]⟩, ⟨bodyLeExtendedCreateConnectionV1, []⟩]⟩,
  ⟨"LeExtendedCreateConnectionV2", [⟨bodyCommand, [(0, 8325)]⟩, ⟨bodyLeExtendedCreateConnectionV2, []⟩]⟩,
  ⟨"LePeriodicAdvertisingCreateSync", [⟨bodyCommand, [(0, 8260)]⟩, ⟨bodyLePeriodicAdvertisingCreateSync, []⟩]⟩,
  ⟨"LePeriodicAdvertisingCreateSyncCancel", [⟨bodyCommand, [(0, 8261)]⟩, ⟨bodyLePeriodicAdvertisingCreateSyncCancel, []⟩]⟩,
  ⟨"LePeriodicAdvertisingTerminateSync", [⟨bodyCommand, [(0, 8262)]⟩, ⟨bodyLePeriodicAdvertisingTerminateSync, []⟩]⟩,
  ⟨"LeAddDeviceToPeriodicAdvertiserList", [⟨bodyCommand, [(0, 8263)]⟩, ⟨bodyLeAddDeviceToPeriodicAdvertiserList, []⟩]⟩,
  ⟨"LeRemoveDeviceFromPeriodicAdvertiserList", [⟨bodyCommand, [(0, 8264)]⟩, ⟨bodyLeRemoveDeviceFromPeriodicAdvertiserList, []⟩]⟩,
  ⟨"LeClearPeriodicAdvertiserList", [⟨bodyCommand, [(0, 8265)]⟩, ⟨bodyLeClearPeriodicAdvertiserList, []⟩]⟩,
  ⟨"LeReadPeriodicAdvertiserListSize", [⟨bodyCommand, [(0, 8266)]⟩, ⟨bodyLeReadPeriodicAdvertiserListSize, []⟩]⟩,
  ⟨"LeReadTransmitPower", [⟨bodyCommand, [(0, 8267)]⟩, ⟨bodyLeReadTransmitPower, []⟩]⟩,
  ⟨"LeReadRfPathCompensationPower", [⟨bodyCommand, [(0, 8268)]⟩, ⟨bodyLeReadRfPathCompensationPower, []⟩]⟩,
  ⟨"LeWriteRfPathCompensationPower", [⟨bodyCommand, [(0, 8269)]⟩, ⟨bodyLeWriteRfPathCompensationPower, []⟩]⟩,
  ⟨"LeSetPrivacyMode", [⟨bodyCommand, [(0, 8270)]⟩, ⟨bodyLeSetPrivacyMode, []⟩]⟩,
  ⟨"LeSetPeriodicAdvertisingReceiveEnable", [⟨bodyCommand, [(0, 8281)]⟩, ⟨bodyLeSetPeriodicAdvertisingReceiveEnable, []⟩]⟩,
  ⟨"LePeriodicAdvertisingSyncTransfer", [⟨bodyCommand, [(0, 8282)]⟩, ⟨bodyLePeriodicAdvertisingSyncTransfer, []⟩]⟩,
  ⟨"LePeriodicAdvertisingSetInfoTransfer", [⟨bodyCommand, [(0, 8283)]⟩, ⟨bodyLePeriodicAdvertisingSetInfoTransfer, []⟩]⟩,
  ⟨"LeSetPeriodicAdvertisingSyncTransferParameters", [⟨bodyCommand, [(0, 8284)]⟩, ⟨bodyLeSetPeriodicAdvertisingSyncTransferParameters, []⟩]⟩,
  ⟨"LeSetDefaultPeriodicAdvertisingSyncTransferParameters", [⟨bodyCommand, [(0, 8285)]⟩, ⟨bodyLeSetDefaultPeriodicAdvertisingSyncTransferParameters, []⟩]⟩,
  ⟨"LeGenerateDhkeyCommand", [⟨bodyCommand, [(0, 8286)]⟩, ⟨bodyLeGenerateDhkeyCommand, []⟩]⟩,
  ⟨"LeModifySleepClockAccuracy", [⟨bodyCommand, [(0, 8287)]⟩, ⟨bodyLeModifySleepClockAccuracy, []⟩]⟩,
  ⟨"LeReadBufferSizeV2", [⟨bodyCommand, [(0, 8288)]⟩, ⟨bodyLeReadBufferSizeV2, []⟩]⟩,
  ⟨"LeReadIsoTxSync", [⟨bodyCommand, [(0, 8289)]⟩, ⟨bodyLeReadIsoTxSync, []⟩]⟩,
  ⟨"LeSetCigParameters", [⟨bodyCommand, [(0, 8290)]⟩, ⟨bodyLeSetCigParameters, []⟩]⟩,
  ⟨"LeSetCigParametersTest", [⟨bodyCommand, [(0, 8291)]⟩, ⟨bodyLeSetCigParametersTest, []⟩]⟩,
  ⟨"LeCreateCis", [⟨bodyCommand, [(0, 8292)]⟩, ⟨bodyLeCreateCis, []⟩]⟩,
  ⟨"LeRemoveCig", [⟨bodyCommand, [(0, 8293)]⟩, ⟨bodyLeRemoveCig, []⟩]⟩,
  ⟨"LeAcceptCisRequest", [⟨bodyCommand, [(0, 8294)]⟩, ⟨bodyLeAcceptCisRequest, []⟩]⟩,
  ⟨"LeRejectCisRequest", [⟨bodyCommand, [(0, 8295)]⟩, ⟨bodyLeRejectCisRequest, []⟩]⟩,
  ⟨"LeCreateBig", [⟨bodyCommand, [(0, 8296)]⟩, ⟨bodyLeCreateBig, []⟩]⟩,
  ⟨"LeTerminateBig", [⟨bodyCommand, [(0, 8298)]⟩, ⟨bodyLeTerminateBig, []⟩]⟩,
  ⟨"LeBigCreateSync", [⟨bodyCommand, [(0, 8299)]⟩, ⟨bodyLeBigCreateSync, []⟩]⟩,
  ⟨"LeBigTerminateSync", [⟨bodyCommand, [(0, 8300)]⟩, ⟨bodyLeBigTerminateSync, []⟩]⟩,
  ⟨"LeRequestPeerSca", [⟨bodyCommand, [(0, 8301)]⟩, ⟨bodyLeRequestPeerSca, []⟩]⟩,
  ⟨"LeSetupIsoDataPath", [⟨bodyCommand, [(0, 8302)]⟩, ⟨bodyLeSetupIsoDataPath, []⟩]⟩,
  ⟨"LeRemoveIsoDataPath", [⟨bodyCommand, [(0, 8303)]⟩, ⟨bodyLeRemoveIsoDataPath, []⟩]⟩,
  ⟨"LeSetHostFeatureV1", [⟨bodyCommand, [(0, 8308)]⟩, ⟨bodyLeSetHostFeatureV1, []⟩]⟩,
  ⟨"LeReadIsoLinkQuality", [⟨bodyCommand, [(0, 8309)]⟩, ⟨bodyLeReadIsoLinkQuality, []⟩]⟩,
  ⟨"LeEnhancedReadTransmitPowerLevel", [⟨bodyCommand, [(0, 8310)]⟩, ⟨bodyLeEnhancedReadTransmitPowerLevel, []⟩]⟩,
  ⟨"LeReadRemoteTransmitPowerLevel", [⟨bodyCommand, [(0, 8311)]⟩, ⟨bodyLeReadRemoteTransmitPowerLevel, []⟩]⟩,
  ⟨"LeSetPathLossReportingParameters", [⟨bodyCommand, [(0, 8312)]⟩, ⟨bodyLeSetPathLossReportingParameters, []⟩]⟩,
  ⟨"LeSetPathLossReportingEnable", [⟨bodyCommand, [(0, 8313)]⟩, ⟨bodyLeSetPathLossReportingEnable, []⟩]⟩,
  ⟨"LeSetTransmitPowerReportingEnable", [⟨bodyCommand, [(0, 8314)]⟩, ⟨bodyLeSetTransmitPowerReportingEnable, []⟩]⟩,
  ⟨"LeSetDataRelatedAddressChanges", [⟨bodyCommand, [(0, 8316)]⟩, ⟨bodyLeSetDataRelatedAddressChanges, []⟩]⟩,
  ⟨"LeSetDefaultSubrate", [⟨bodyCommand, [(0, 8317)]⟩, ⟨bodyLeSetDefaultSubrate, []⟩]⟩,
  ⟨"LeSubrateRequest", [⟨bodyCommand, [(0, 8318)]⟩, ⟨bodyLeSubrateRequest, []⟩]⟩,
  ⟨"LeCsReadLocalSupportedCapabilities", [⟨bodyCommand, [(0, 8329)]⟩, ⟨bodyLeCsReadLocalSupportedCapabilities, []⟩]⟩,
  ⟨"LeCsReadRemoteSupportedCapabilities", [⟨bodyCommand, [(0, 8330)]⟩, ⟨bodyLeCsReadRemoteSupportedCapabilities, []⟩]⟩,
  ⟨"LeCsWriteCachedRemoteSupportedCapabilities", [⟨bodyCommand, [(0, 8331)]⟩, ⟨bodyLeCsWriteCachedRemoteSupportedCapabilities, []⟩]⟩,
  ⟨"LeCsSecurityEnable", [⟨bodyCommand, [(0, 8332)]⟩, ⟨bodyLeCsSecurityEnable, []⟩]⟩,
  ⟨"LeCsSetDefaultSettings", [⟨bodyCommand, [(0, 8333)]⟩, ⟨bodyLeCsSetDefaultSettings, []⟩]⟩,
  ⟨"LeCsReadRemoteFaeTable", [⟨bodyCommand, [(0, 8334)]⟩, ⟨bodyLeCsReadRemoteFaeTable, []⟩]⟩,
  ⟨"LeCsWriteCachedRemoteFaeTable", [⟨bodyCommand, [(0, 8335)]⟩, ⟨bodyLeCsWriteCachedRemoteFaeTable, []⟩]⟩,
  ⟨"LeCsCreateConfig", [⟨bodyCommand, [(0, 8336)]⟩, ⟨bodyLeCsCreateConfig, []⟩]⟩,
  ⟨"LeCsRemoveConfig", [⟨bodyCommand, [(0, 8337)]⟩, ⟨bodyLeCsRemoveConfig, []⟩]⟩,
  ⟨"LeCsSetChannelClassification", [⟨bodyCommand, [(0, 8338)]⟩, ⟨bodyLeCsSetChannelClassification, []⟩]⟩,
  ⟨"LeCsSetProcedureParameters", [⟨bodyCommand, [(0, 8339)]⟩, ⟨bodyLeCsSetProcedureParameters, []⟩]⟩,
  ⟨"LeCsProcedureEnable", [⟨bodyCommand, [(0, 8340)]⟩, ⟨bodyLeCsProcedureEnable, []⟩]⟩,
  ⟨"LeCsTest", [⟨bodyCommand, [(0, 8341)]⟩, ⟨bodyLeCsTest, []⟩]⟩,
  ⟨"LeCsTestEnd", [⟨bodyCommand, [(0, 8342)]⟩, ⟨bodyLeCsTestEnd, []⟩]⟩,
  ⟨"EnhancedFlush", [⟨bodyCommand, [(0, 3167)]⟩, ⟨bodyEnhancedFlush, []⟩]⟩,
  ⟨"RootcanalCommand", [⟨bodyCommand, [(0, 64513)]⟩, ⟨bodyRootcanalCommand, []⟩]⟩,
  ⟨"RootcanalSendHciEvent", [⟨bodyCommand, [(0, 64513)]⟩, ⟨bodyRootcanalCommand, [(0, 1)]⟩, ⟨bodyRootcanalSendHciEvent, []⟩]⟩,
  ⟨"RootcanalSendHciAclData", [⟨bodyCommand, [(0, 64513)]⟩, ⟨bodyRootcanalCommand, [(0, 2)]⟩, ⟨bodyRootcanalSendHciAclData, []⟩]⟩,
  ⟨"LeGetVendorCapabilities", [⟨bodyCommand, [(0, 64851)]⟩, ⟨bodyLeGetVendorCapabilities, []⟩]⟩,
  ⟨"LeBatchScan", [⟨bodyCommand, [(0, 64854)]⟩, ⟨bodyLeBatchScan, []⟩]⟩,
  ⟨"LeBatchScanEnable", [⟨bodyCommand, [(0, 64854)]⟩, ⟨bodyLeBatchScan, [(0, 1)]⟩, ⟨bodyLeBatchScanEnable, []⟩]⟩,
  ⟨"LeBatchScanSetStorageParameters", [⟨bodyCommand, [(0, 64854)]⟩, ⟨bodyLeBatchScan, [(0, 2)]⟩, ⟨bodyLeBatchScanSetStorageParameters, []⟩]⟩,
  ⟨"LeBatchScanSetScanParameters", [⟨bodyCommand, [(0, 64854)]⟩, ⟨bodyLeBatchScan, [(0, 3)]⟩, ⟨bodyLeBatchScanSetScanParameters, []⟩]⟩,
  ⟨"LeBatchScanReadResultParameters", [⟨bodyCommand, [(0, 64854)]⟩, ⟨bodyLeBatchScan, [(0, 4)]⟩, ⟨bodyLeBatchScanReadResultParameters, []⟩]⟩,
  ⟨"LeApcf", [⟨bodyCommand, [(0, 64855)]⟩, ⟨bodyLeApcf, []⟩]⟩,
  ⟨"LeApcfEnable", [⟨bodyCommand, [(0, 64855)]⟩, ⟨bodyLeApcf, [(0, 0)]⟩, ⟨bodyLeApcfEnable, []⟩]⟩,
  ⟨"LeApcfSetFilteringParameters", [⟨bodyCommand, [(0, 64855)]⟩, ⟨bodyLeApcf, [(0, 1)]⟩, ⟨bodyLeApcfSetFilteringParameters, []⟩]⟩,
  ⟨"LeApcfAddFilteringParameters", [⟨bodyCommand, [(0, 64855)]⟩, ⟨bodyLeApcf, [(0, 1)]⟩, ⟨bodyLeApcfSetFilteringParameters, [(0, 0)]⟩, ⟨bodyLeApcfAddFilteringParameters, []⟩]⟩]

/-- Command and the packets derived from it, in the order of packets/hci_packets.pdl (part 4). -/
def packetsCommand3 : List Packet := [
  ⟨"LeApcfDeleteFilteringParameters", [⟨bodyCommand, [(0, 64855)]⟩, ⟨bodyLeApcf, [(0, 1)]⟩, ⟨bodyLeApcfSetFilteringParameters, [(0, 1)]⟩, ⟨bodyLeApcfDeleteFilteringParameters, []⟩]⟩,
  ⟨"LeApcfClearFilteringParameters", [⟨bodyCommand, [(0, 64855)]⟩, ⟨bodyLeApcf, [(0, 1)]⟩, ⟨bodyLeApcfSetFilteringParameters, [(0, 2)]⟩, ⟨bodyLeApcfClearFilteringParameters, []⟩]⟩,
  ⟨"LeApcfBroadcasterAddress", [⟨bodyCommand, [(0, 64855)]⟩, ⟨bodyLeApcf, [(0, 2)]⟩, ⟨bodyLeApcfBroadcasterAddress, []⟩]⟩,
  ⟨"LeApcfAddBroadcasterAddress", [⟨bodyCommand, [(0, 64855)]⟩, ⟨bodyLeApcf, [(0, 2)]⟩, ⟨bodyLeApcfBroadcasterAddress, [(0, 0)]⟩, ⟨bodyLeApcfAddBroadcasterAddress, []⟩]⟩,
  ⟨"LeApcfDeleteBroadcasterAddress", [⟨bodyCommand, [(0, 64855)]⟩, ⟨bodyLeApcf, [(0, 2)]⟩, ⟨bodyLeApcfBroadcasterAddress, [(0, 1)]⟩, ⟨bodyLeApcfDeleteBroadcasterAddress, []⟩]⟩,
  ⟨"LeApcfClearBroadcasterAddress", [⟨bodyCommand, [(0, 64855)]⟩, ⟨bodyLeApcf, [(0, 2)]⟩, ⟨bodyLeApcfBroadcasterAddress, [(0, 2)]⟩, ⟨bodyLeApcfClearBroadcasterAddress, []⟩]⟩,
  ⟨"LeApcfServiceUuid", [⟨bodyCommand, [(0, 64855)]⟩, ⟨bodyLeApcf, [(0, 3)]⟩, ⟨bodyLeApcfServiceUuid, []⟩]⟩,
  ⟨"LeApcfServiceSolicitationUuid", [⟨bodyCommand, [(0, 64855)]⟩, ⟨bodyLeApcf, [(0, 4)]⟩, ⟨bodyLeApcfServiceSolicitationUuid, []⟩]⟩,
  ⟨"LeApcfLocalName", [⟨bodyCommand, [(0, 64855)]⟩, ⟨bodyLeApcf, [(0, 5)]⟩, ⟨bodyLeApcfLocalName, []⟩]⟩,
  ⟨"LeApcfManufacturerData", [⟨bodyCommand, [(0, 64855)]⟩, ⟨bodyLeApcf, [(0, 6)]⟩, ⟨bodyLeApcfManufacturerData, []⟩]⟩,
  ⟨"LeApcfServiceData", [⟨bodyCommand, [(0, 64855)]⟩, ⟨bodyLeApcf, [(0, 7)]⟩, ⟨bodyLeApcfServiceData, []⟩]⟩,
  ⟨"LeApcfAdTypeFilter", [⟨bodyCommand, [(0, 64855)]⟩, ⟨bodyLeApcf, [(0, 9)]⟩, ⟨bodyLeApcfAdTypeFilter, []⟩]⟩,
  ⟨"LeApcfTransportDiscoveryService", [⟨bodyCommand, [(0, 64855)]⟩, ⟨bodyLeApcf, [(0, 8)]⟩, ⟨bodyLeApcfTransportDiscoveryService, []⟩]⟩,
  ⟨"LeApcfReadExtendedFeatures", [⟨bodyCommand, [(0, 64855)]⟩, ⟨bodyLeApcf, [(0, 255)]⟩, ⟨bodyLeApcfReadExtendedFeatures, []⟩]⟩,
  ⟨"LeGetControllerActivityEnergyInfo", [⟨bodyCommand, [(0, 64857)]⟩, ⟨bodyLeGetControllerActivityEnergyInfo, []⟩]⟩,
  ⟨"LeExSetScanParameters", [⟨bodyCommand, [(0, 64858)]⟩, ⟨bodyLeExSetScanParameters, []⟩]⟩,
  ⟨"GetControllerDebugInfo", [⟨bodyCommand, [(0, 64859)]⟩, ⟨bodyGetControllerDebugInfo, []⟩]⟩]

/-- Command and the packets derived from it, in the order of packets/hci_packets.pdl. -/
def packetsCommand : List Packet := packetsCommand0 ++ packetsCommand1 ++ packetsCommand2 ++ packetsCommand3

/-- Event and the packets derived from it, in the order of packets/hci_packets.pdl (part 1). -/
def packetsEvent0 : List Packet := [
  ⟨"Event", [⟨bodyEvent, []⟩]⟩,
  ⟨"LeMetaEvent", [⟨bodyEvent, [(0, 62)]⟩, ⟨bodyLeMetaEvent, []⟩]⟩,
  ⟨"CommandComplete", [⟨bodyEvent, [(0, 14)]⟩, ⟨bodyCommandComplete, []⟩]⟩,
  ⟨"CommandStatus", [⟨bodyEvent, [(0, 15)]⟩, ⟨bodyCommandStatus, []⟩]⟩,
  ⟨"VendorSpecificEvent", [⟨bodyEvent, [(0, 255)]⟩, ⟨bodyVendorSpecificEvent, []⟩]⟩,
  ⟨"NoCommandComplete", [⟨bodyEvent, [(0, 14)]⟩, ⟨bodyCommandComplete, [(1, 0)]⟩, ⟨bodyNoCommandComplete, []⟩]⟩,
  ⟨"InquiryStatus", [⟨bodyEvent, [(0, 15)]⟩, ⟨bodyCommandStatus, [(2, 1025)]⟩, ⟨bodyInquiryStatus, []⟩]⟩,
  ⟨"InquiryCancelComplete", [⟨bodyEvent, [(0, 14)]⟩, ⟨bodyCommandComplete, [(1, 1026)]⟩, ⟨bodyInquiryCancelComplete, []⟩]⟩,
  ⟨"PeriodicInquiryModeComplete", [⟨bodyEvent, [(0, 14)]⟩, ⟨bodyCommandComplete, [(1, 1027)]⟩, ⟨bodyPeriodicInquiryModeComplete, []⟩]⟩,
  ⟨"ExitPeriodicInquiryModeComplete", [⟨bodyEvent, [(0, 14)]⟩, ⟨bodyCommandComplete, [(1, 1028)]⟩, ⟨bodyExitPeriodicInquiryModeComplete, []⟩]⟩,
  ⟨"CreateConnectionStatus", [⟨bodyEvent, [(0, 15)]⟩, ⟨bodyCommandStatus, [(2, 1029)]⟩, ⟨bodyCreateConnectionStatus, []⟩]⟩,
  ⟨"DisconnectStatus", [⟨bodyEvent, [(0, 15)]⟩, ⟨bodyCommandStatus, [(2, 1030)]⟩, ⟨bodyDisconnectStatus, []⟩]⟩,
  ⟨"AddScoConnectionStatus", [⟨bodyEvent, [(0, 15)]⟩, ⟨bodyCommandStatus, [(2, 1031)]⟩, ⟨bodyAddScoConnectionStatus, []⟩]⟩,
  ⟨"CreateConnectionCancelComplete", [⟨bodyEvent, [(0, 14)]⟩, ⟨bodyCommandComplete, [(1, 1032)]⟩, ⟨bodyCreateConnectionCancelComplete, []⟩]⟩,
  ⟨"AcceptConnectionRequestStatus", [⟨bodyEvent, [(0, 15)]⟩, ⟨bodyCommandStatus, [(2, 1033)]⟩, ⟨bodyAcceptConnectionRequestStatus, []⟩]⟩,
  ⟨"RejectConnectionRequestStatus", [⟨bodyEvent, [(0, 15)]⟩, ⟨bodyCommandStatus, [(2, 1034)]⟩, ⟨bodyRejectConnectionRequestStatus, []⟩]⟩,
  ⟨"LinkKeyRequestReplyComplete", [⟨bodyEvent, [(0, 14)]⟩, ⟨bodyCommandComplete, [(1, 1035)]⟩, ⟨bodyLinkKeyRequestReplyComplete, []⟩]⟩,
  ⟨"LinkKeyRequestNegativeReplyComplete", [⟨bodyEvent, [(0, 14)]⟩, ⟨bodyCommandComplete, [(1, 1036)]⟩, ⟨bodyLinkKeyRequestNegativeReplyComplete, []⟩]⟩,
  ⟨"PinCodeRequestReplyComplete", [⟨bodyEvent, [(0, 14)]⟩, ⟨bodyCommandComplete, [(1, 1037)]⟩, ⟨bodyPinCodeRequestReplyComplete, []⟩]⟩,
  ⟨"PinCodeRequestNegativeReplyComplete", [⟨bodyEvent, [(0, 14)]⟩, ⟨bodyCommandComplete, [(1, 1038)]⟩, ⟨bodyPinCodeRequestNegativeReplyComplete, []⟩]⟩,
  ⟨"ChangeConnectionPacketTypeStatus", [⟨bodyEvent, [(0, 15)]⟩, ⟨bodyCommandStatus, [(2, 1039)]⟩, ⟨bodyChangeConnectionPacketTypeStatus, []⟩]⟩,
  ⟨"AuthenticationRequestedStatus", [⟨bodyEvent, [(0, 15)]⟩, ⟨bodyCommandStatus, [(2, 1041)]⟩, ⟨bodyAuthenticationRequestedStatus, []⟩]⟩,
  ⟨"SetConnectionEncryptionStatus", [⟨bodyEvent, [(0, 15)]⟩, ⟨bodyCommandStatus, [(2, 1043)]⟩, ⟨bodySetConnectionEncryptionStatus, []⟩]⟩,
  ⟨"ChangeConnectionLinkKeyStatus", [⟨bodyEvent, [(0, 15)]⟩, ⟨bodyCommandStatus, [(2, 1045)]⟩, ⟨bodyChangeConnectionLinkKeyStatus, []⟩]⟩,
  ⟨"CentralLinkKeyStatus", [⟨bodyEvent, [(0, 15)]⟩, ⟨bodyCommandStatus, [(2, 1047)]⟩, ⟨bodyCentralLinkKeyStatus, []⟩]⟩,
  ⟨"RemoteNameRequestStatus", [⟨bodyEvent, [(0, 15)]⟩, ⟨bodyCommandStatus, [(2, 1049)]⟩, ⟨bodyRemoteNameRequestStatus, []⟩]⟩,
  ⟨"RemoteNameRequestCancelComplete", [⟨bodyEvent, [(0, 14)]⟩, ⟨bodyCommandComplete, [(1, 1050)]⟩, ⟨bodyRemoteNameRequestCancelComplete, []⟩]⟩,
  ⟨"ReadRemoteSupportedFeaturesStatus", [⟨bodyEvent, [(0, 15)]⟩, ⟨bodyCommandStatus, [(2, 1051)]⟩, ⟨bodyReadRemoteSupportedFeaturesStatus, []⟩]⟩,
  ⟨"ReadRemoteExtendedFeaturesStatus", [⟨bodyEvent, [(0, 15)]⟩, ⟨bodyCommandStatus, [(2, 1052)]⟩, ⟨bodyReadRemoteExtendedFeaturesStatus, []⟩]⟩,
  ⟨"ReadRemoteVersionInformationStatus", [⟨bodyEvent, [(0, 15)]⟩, ⟨bodyCommandStatus, [(2, 1053)]⟩, ⟨bodyReadRemoteVersionInformationStatus, []⟩]⟩,
  ⟨"ReadClockOffsetStatus", [⟨bodyEvent, [(0, 15)]⟩, ⟨bodyCommandStatus, [(2, 1055)]⟩, ⟨bodyReadClockOffsetStatus, []⟩]⟩,
  ⟨"ReadLmpHandleComplete", [⟨bodyEvent, [(0, 14)]⟩, ⟨bodyCommandComplete, [(1, 1056)]⟩, ⟨bodyReadLmpHandleComplete, []⟩]⟩,
  ⟨"SetupSynchronousConnectionStatus", [⟨bodyEvent, [(0, 15)]⟩, ⟨bodyCommandStatus, [(2, 1064)]⟩, ⟨bodySetupSynchronousConnectionStatus, []⟩]⟩,
  ⟨"AcceptSynchronousConnectionStatus", [⟨bodyEvent, [(0, 15)]⟩, ⟨bodyCommandStatus, [(2, 1065)]⟩, ⟨bodyAcceptSynchronousConnectionStatus, []⟩]⟩,
  ⟨"RejectSynchronousConnectionStatus", [⟨bodyEvent, [(0, 15)]⟩, ⟨bodyCommandStatus, [(2, 1066)]⟩, ⟨bodyRejectSynchronousConnectionStatus, []⟩]⟩,
  ⟨"IoCapabilityRequestReplyComplete", [⟨bodyEvent, [(0, 14)]⟩, ⟨bodyCommandComplete, [(1, 1067)]⟩, ⟨bodyIoCapabilityRequestReplyComplete, []⟩]⟩,
  ⟨"UserConfirmationRequestReplyComplete", [⟨bodyEvent, [(0, 14)]⟩, ⟨bodyCommandComplete, [(1, 1068)]⟩, ⟨bodyUserConfirmationRequestReplyComplete, []⟩]⟩,
  ⟨"UserConfirmationRequestNegativeReplyComplete", [⟨bodyEvent, [(0, 14)]⟩, ⟨bodyCommandComplete, [(1, 1069)]⟩, ⟨bodyUserConfirmationRequestNegativeReplyComplete, []⟩]⟩,
  ⟨"UserPasskeyRequestReplyComplete", [⟨bodyEvent, [(0, 14)]⟩, ⟨bodyCommandComplete, [(1, 1070)]⟩, ⟨bodyUserPasskeyRequestReplyComplete, []⟩]⟩,
  ⟨"UserPasskeyRequestNegativeReplyComplete", [⟨bodyEvent, [(0, 14)]⟩, ⟨bodyCommandComplete, [(1, 1071)]⟩, ⟨bodyUserPasskeyRequestNegativeReplyComplete, []⟩]⟩,
  ⟨"RemoteOobDataRequestReplyComplete", [⟨bodyEvent, [(0, 14)]⟩, ⟨bodyCommandComplete, [(1, 1072)]⟩, ⟨bodyRemoteOobDataRequestReplyComplete, []⟩]⟩,
  ⟨"RemoteOobDataRequestNegativeReplyComplete", [⟨bodyEvent, [(0, 14)]⟩, ⟨bodyCommandComplete, [(1, 1075)]⟩, ⟨bodyRemoteOobDataRequestNegativeReplyComplete, []⟩]⟩,
  ⟨"IoCapabilityRequestNegativeReplyComplete", [⟨bodyEvent, [(0, 14)]⟩, ⟨bodyCommandComplete, [(1, 1076)]⟩, ⟨bodyIoCapabilityRequestNegativeReplyComplete, []⟩]⟩,
  ⟨"EnhancedSetupSynchronousConnectionStatus", [⟨bodyEvent, [(0, 15)]⟩, ⟨bodyCommandStatus, [(2, 1085)]⟩, ⟨bodyEnhancedSetupSynchronousConnectionStatus, []⟩]⟩,
  ⟨"EnhancedAcceptSynchronousConnectionStatus", [⟨bodyEvent, [(0, 15)]⟩, ⟨bodyCommandStatus, [(2, 1086)]⟩, ⟨bodyEnhancedAcceptSynchronousConnectionStatus, []⟩]⟩,
  ⟨"RemoteOobExtendedDataRequestReplyComplete", [⟨bodyEvent, [(0, 14)]⟩, ⟨bodyCommandComplete, [(1, 1093)]⟩, ⟨bodyRemoteOobExtendedDataRequestReplyComplete, []⟩]⟩,
  ⟨"HoldModeStatus", [⟨bodyEvent, [(0, 15)]⟩, ⟨bodyCommandStatus, [(2, 2049)]⟩, ⟨bodyHoldModeStatus, []⟩]⟩,
  ⟨"SniffModeStatus", [⟨bodyEvent, [(0, 15)]⟩, ⟨bodyCommandStatus, [(2, 2051)]⟩, ⟨bodySniffModeStatus, []⟩]⟩,
  ⟨"ExitSniffModeStatus", [⟨bodyEvent, [(0, 15)]⟩, ⟨bodyCommandStatus, [(2, 2052)]⟩, ⟨bodyExitSniffModeStatus, []⟩]⟩,
  ⟨"QosSetupStatus", [⟨bodyEvent, [(0, 15)]⟩, ⟨bodyCommandStatus, [(2, 2055)]⟩, ⟨bodyQosSetupStatus, []⟩]⟩,
  ⟨"RoleDiscoveryComplete", [⟨bodyEvent, [(0, 14)]⟩, ⟨bodyCommandComplete, [(1, 2057)]⟩, ⟨bodyRoleDiscoveryComplete, []⟩]⟩,
  ⟨"SwitchRoleStatus", [⟨bodyEvent, [(0, 15)]⟩, ⟨bodyCommandStatus, [(2, 2059)]⟩, ⟨bodySwitchRoleStatus, []⟩]⟩,
  ⟨"ReadLinkPolicySettingsComplete", [⟨bodyEvent, [(0, 14)]⟩, ⟨bodyCommandComplete, [(1, 2060)]⟩, ⟨bodyReadLinkPolicySettingsComplete, []⟩]⟩,
  ⟨"WriteLinkPolicySettingsComplete", [⟨bodyEvent, [(0, 14)]⟩, ⟨bodyCommandComplete, [(1, 2061)]⟩, ⟨bodyWriteLinkPolicySettingsComplete, []⟩]⟩,
  ⟨"ReadDefaultLinkPolicySettingsComplete", [⟨bodyEvent, [(0, 14)]⟩, ⟨bodyCommandComplete, [(1, 2062)]⟩, ⟨bodyReadDefaultLinkPolicySettingsComplete, []⟩]⟩,
  ⟨"WriteDefaultLinkPolicySettingsComplete", [⟨bodyEvent, [(0, 14)]⟩, ⟨bodyCommandComplete, [(1, 2063)]⟩, ⟨bodyWriteDefaultLinkPolicySettingsComplete, []⟩]⟩,
  ⟨"FlowSpecificationStatus", [⟨bodyEvent, [(0, 15)]⟩, ⟨bodyCommandStatus, [(2, 2064)]⟩, ⟨bodyFlowSpecificationStatus, []⟩]⟩,
  ⟨"SniffSubratingComplete", [⟨bodyEvent, [(0, 14)]⟩, ⟨bodyCommandComplete, [(1, 2065)]⟩, ⟨bodySniffSubratingComplete, []⟩]⟩,
  ⟨"SetEventMaskComplete", [⟨bodyEvent, [(0, 14)]⟩, ⟨bodyCommandComplete, [(1, 3073)]⟩, ⟨bodySetEventMaskComplete, []⟩]⟩,
  ⟨"ResetComplete", [⟨bodyEvent, [(0, 14)]⟩, ⟨bodyCommandComplete, [(1, 3075)]⟩, ⟨bodyResetComplete, []⟩]⟩,
  ⟨"SetEventFilterComplete", [⟨bodyEvent, [(0, 14)]⟩, ⟨bodyCommandComplete, [(1, 3077)]⟩, ⟨bodySetEventFilterComplete, []⟩]⟩,
  ⟨"FlushComplete", [⟨bodyEvent, [(0, 14)]⟩, ⟨bodyCommandComplete, [(1, 3080)]⟩, ⟨bodyFlushComplete, []⟩]⟩,
  ⟨"ReadPinTypeComplete", [⟨bodyEvent, [(0, 14)]⟩, ⟨bodyCommandComplete, [(1, 3081)]⟩, ⟨bodyReadPinTypeComplete, []⟩]⟩,
  ⟨"WritePinTypeComplete", [⟨bodyEvent, [(0, 14)]⟩, ⟨bodyCommandComplete, [(1, 3082)]⟩, ⟨bodyWritePinTypeComplete, []⟩]⟩,
  ⟨"ReadStoredLinkKeyComplete", [⟨bodyEvent, [(0, 14)]⟩, ⟨bodyCommandComplete, [(1, 3085)]⟩, ⟨bodyReadStoredLinkKeyComplete, []⟩]⟩,
  ⟨"WriteStoredLinkKeyComplete", [⟨bodyEvent, [(0, 14)]⟩, ⟨bodyCommandComplete, [(1, 3089)]⟩, ⟨bodyWriteStoredLinkKeyComplete, []⟩]⟩,
  ⟨"DeleteStoredLinkKeyComplete", [⟨bodyEvent, [(0, 14)]⟩, ⟨bodyCommandComplete, [(1, 3090)]⟩, ⟨bodyDeleteStoredLinkKeyComplete, []⟩]⟩,
  ⟨"WriteLocalNameComplete", [⟨bodyEvent, [(0, 14)]⟩, ⟨bodyCommandComplete, [(1, 3091)]⟩, ⟨bodyWriteLocalNameComplete, []⟩]⟩,
  ⟨"ReadLocalNameComplete", [⟨bodyEvent, [(0, 14)]⟩, ⟨bodyCommandComplete, [(1, 3092)]⟩, ⟨bodyReadLocalNameComplete, []⟩]⟩,
  ⟨"ReadConnectionAcceptTimeoutComplete", [⟨bodyEvent, [(0, 14)]⟩, ⟨bodyCommandComplete, [(1, 3093)]⟩, ⟨bodyReadConnectionAcceptTimeoutComplete, []⟩]⟩,
  ⟨"WriteConnectionAcceptTimeoutComplete", [⟨bodyEvent, [(0, 14)]⟩, ⟨bodyCommandComplete, [(1, 3094)]⟩, ⟨bodyWriteConnectionAcceptTimeoutComplete, []⟩]⟩,
  ⟨"ReadPageTimeoutComplete", [⟨bodyEvent, [(0, 14)]⟩, ⟨bodyCommandComplete, [(1, 3095)]⟩, ⟨bodyReadPageTimeoutComplete, []⟩]⟩,
  ⟨"WritePageTimeoutComplete", [⟨bodyEvent, [(0, 14)]⟩, ⟨bodyCommandComplete, [(1, 3096)]⟩, ⟨bodyWritePageTimeoutComplete, []⟩]⟩,
  ⟨"ReadScanEnableComplete", [⟨bodyEvent, [(0, 14)]⟩, ⟨bodyCommandComplete, [(1, 3097)]⟩, ⟨bodyReadScanEnableComplete, []⟩]⟩,
  ⟨"WriteScanEnableComplete", [⟨bodyEvent, [(0, 14)]⟩, ⟨bodyCommandComplete, [(1, 3098)]⟩, ⟨bodyWriteScanEnableComplete, []⟩]⟩,
  ⟨"ReadPageScanActivityComplete", [⟨bodyEvent, [(0, 14)]⟩, ⟨bodyCommandComplete, [(1, 3099)]⟩, ⟨bodyReadPageScanActivityComplete, []⟩]⟩,
  ⟨"WritePageScanActivityComplete", [⟨bodyEvent, [(0, 14)]⟩, ⟨bodyCommandComplete, [(1, 3100)]⟩, ⟨bodyWritePageScanActivityComplete, []⟩]⟩,
  ⟨"ReadInquiryScanActivityComplete", [⟨bodyEvent, [(0, 14)]⟩, ⟨bodyCommandComplete, [(1, 3101)]⟩, ⟨bodyReadInquiryScanActivityComplete, []⟩]⟩,
  ⟨"WriteInquiryScanActivityComplete", [⟨bodyEvent, [(0, 14)]⟩, ⟨bodyCommandComplete, [(1, 3102)]⟩, ⟨bodyWriteInquiryScanActivityComplete, []⟩]⟩,
  ⟨"ReadAuthenticationEnableComplete", [⟨bodyEvent, [(0, 14)]⟩, ⟨bodyCommandComplete, [(1, 3103)]⟩, ⟨bodyReadAuthenticationEnableComplete, []⟩]⟩,
  ⟨"WriteAuthenticationEnableComplete", [⟨bodyEvent, [(0, 14)]⟩, ⟨bodyCommandComplete, [(1, 3104)]⟩, ⟨bodyWriteAuthenticationEnableComplete, []⟩]⟩,
  ⟨"ReadClassOfDeviceComplete", [⟨bodyEvent, [(0, 14)]⟩, ⟨bodyCommandComplete, [(1, 3107)]⟩, ⟨bodyReadClassOfDeviceComplete, []⟩]⟩,
  ⟨"WriteClassOfDeviceComplete", [⟨bodyEvent, [(0, 14)]⟩, ⟨bodyCommandComplete, [(1, 3108)]⟩, ⟨bodyWriteClassOfDeviceComplete, []⟩]⟩,
  ⟨"ReadVoiceSettingComplete", [⟨bodyEvent, [(0, 14)]⟩, ⟨bodyCommandComplete, [(1, 3109)]⟩, ⟨bodyReadVoiceSettingComplete, []⟩]⟩,
  ⟨"WriteVoiceSettingComplete", [⟨bodyEvent, [(0, 14)]⟩, ⟨bodyCommandComplete, [(1, 3110)]⟩, ⟨bodyWriteVoiceSettingComplete, []⟩]⟩,
  ⟨"ReadAutomaticFlushTimeoutComplete", [⟨bodyEvent, [(0, 14)]⟩, ⟨bodyCommandComplete, [(1, 3111)]⟩, ⟨bodyReadAutomaticFlushTimeoutComplete, []⟩]⟩,
  ⟨"WriteAutomaticFlushTimeoutComplete", [⟨bodyEvent, [(0, 14)]⟩, ⟨bodyCommandComplete, [(1, 3112)]⟩, ⟨bodyWriteAutomaticFlushTimeoutComplete, []⟩]⟩,
  ⟨"ReadNumBroadcastRetransmitsComplete", [⟨bodyEvent, [(0, 14)]⟩, ⟨bodyCommandComplete, [(1, 3113)]⟩, ⟨bodyReadNumBroadcastRetransmitsComplete, []⟩]⟩,
  ⟨"WriteNumBroadcastRetransmitsComplete", [⟨bodyEvent, [(0, 14)]⟩, ⟨bodyCommandComplete, [(1, 3114)]⟩, ⟨bodyWriteNumBroadcastRetransmitsComplete, []⟩]⟩,
  ⟨"ReadHoldModeActivityComplete", [⟨bodyEvent, [(0, 14)]⟩, ⟨bodyCommandComplete, [(1, 3115)]⟩, ⟨bodyReadHoldModeActivityComplete, []⟩]⟩,
  ⟨"WriteHoldModeActivityComplete", [⟨bodyEvent, [(0, 14)]⟩, ⟨bodyCommandComplete, [(1, 3116)]⟩, ⟨bodyWriteHoldModeActivityComplete, []⟩]⟩,
  ⟨"ReadTransmitPowerLevelComplete", [⟨bodyEvent, [(0, 14)]⟩, ⟨bodyCommandComplete, [(1, 3117)]⟩, ⟨bodyReadTransmitPowerLevelComplete, []⟩]⟩,
  ⟨"ReadSynchronousFlowControlEnableComplete", [⟨bodyEvent, [(0, 14)]⟩, ⟨bodyCommandComplete, [(1, 3118)]⟩, ⟨bodyReadSynchronousFlowControlEnableComplete, []⟩]⟩,
  ⟨"WriteSynchronousFlowControlEnableComplete", [⟨bodyEvent, [(0, 14)]⟩, ⟨bodyCommandComplete, [(1, 3119)]⟩, ⟨bodyWriteSynchronousFlowControlEnableComplete, []⟩]⟩,
  ⟨"SetControllerToHostFlowControlComplete", [⟨bodyEvent, [(0, 14)]⟩, ⟨bodyCommandComplete, [(1, 3121)]⟩, ⟨bodySetControllerToHostFlowControlComplete, []⟩]⟩,
  ⟨"HostBufferSizeComplete", [⟨bodyEvent, [(0, 14)]⟩, ⟨bodyCommandComplete, [(1, 3123)]⟩, ⟨bodyHostBufferSizeComplete, []⟩]⟩,
  ⟨"HostNumCompletedPacketsError", [⟨bodyEvent, [(0, 14)]⟩, ⟨bodyCommandComplete, [(1, 3125)]⟩, ⟨bodyHostNumCompletedPacketsError, []⟩]⟩,
  ⟨"ReadLinkSupervisionTimeoutComplete", [⟨bodyEvent, [(0, 14)]⟩, ⟨bodyCommandComplete, [(1, 3126)]⟩, ⟨bodyReadLinkSupervisionTimeoutComplete, []⟩]⟩,
  ⟨"WriteLinkSupervisionTimeoutComplete", [⟨bodyEvent, [(0, 14)]⟩, ⟨bodyCommandComplete, [(1, 3127)]⟩, ⟨bodyWriteLinkSupervisionTimeoutComplete, []⟩]⟩,
  ⟨"ReadNumberOfSupportedIacComplete", [⟨bodyEvent, [(0, 14)]⟩, ⟨bodyCommandComplete, [(1, 3128)]⟩, ⟨bodyReadNumberOfSupportedIacComplete, []⟩]⟩]

/-- Event and the packets derived from it, in the order of packets/hci_packets.pdl (part 2). -/
def packetsEvent1 : List Packet := [
  ⟨"ReadCurrentIacLapComplete", [⟨bodyEvent, [(0, 14)]⟩, ⟨bodyCommandComplete, [(1, 3129)]⟩, ⟨bodyReadCurrentIacLapComplete, []⟩]⟩,
  ⟨"WriteCurrentIacLapComplete", [⟨bodyEvent, [(0, 14)]⟩, ⟨bodyCommandComplete, [(1, 3130)]⟩, ⟨bodyWriteCurrentIacLapComplete, []⟩]⟩,
  ⟨"SetAfhHostChannelClassificationComplete", [⟨bodyEvent, [(0, 14)]⟩, ⟨bodyCommandComplete, [(1, 3135)]⟩, ⟨bodySetAfhHostChannelClassificationComplete, []⟩]⟩,
  ⟨"ReadInquiryScanTypeComplete", [⟨bodyEvent, [(0, 14)]⟩, ⟨bodyCommandComplete, [(1, 3138)]⟩, ⟨bodyReadInquiryScanTypeComplete, []⟩]⟩,
  ⟨"WriteInquiryScanTypeComplete", [⟨bodyEvent, [(0, 14)]⟩, ⟨bodyCommandComplete, [(1, 3139)]⟩, ⟨bodyWriteInquiryScanTypeComplete, []⟩]⟩,
  ⟨"ReadInquiryModeComplete", [⟨bodyEvent, [(0, 14)]⟩, ⟨bodyCommandComplete, [(1, 3140)]⟩, ⟨bodyReadInquiryModeComplete, []⟩]⟩,
  ⟨"WriteInquiryModeComplete", [⟨bodyEvent, [(0, 14)]⟩, ⟨bodyCommandComplete, [(1, 3141)]⟩, ⟨bodyWriteInquiryModeComplete, []⟩]⟩,
  ⟨"ReadPageScanTypeComplete", [⟨bodyEvent, [(0, 14)]⟩, ⟨bodyCommandComplete, [(1, 3142)]⟩, ⟨bodyReadPageScanTypeComplete, []⟩]⟩,
  ⟨"WritePageScanTypeComplete", [⟨bodyEvent, [(0, 14)]⟩, ⟨bodyCommandComplete, [(1, 3143)]⟩, ⟨bodyWritePageScanTypeComplete, []⟩]⟩,
  ⟨"ReadAfhChannelAssessmentModeComplete", [⟨bodyEvent, [(0, 14)]⟩, ⟨bodyCommandComplete, [(1, 3144)]⟩, ⟨bodyReadAfhChannelAssessmentModeComplete, []⟩]⟩,
  ⟨"WriteAfhChannelAssessmentModeComplete", [⟨bodyEvent, [(0, 14)]⟩, ⟨bodyCommandComplete, [(1, 3145)]⟩, ⟨bodyWriteAfhChannelAssessmentModeComplete, []⟩]⟩,
  ⟨"ReadExtendedInquiryResponseComplete", [⟨bodyEvent, [(0, 14)]⟩, ⟨bodyCommandComplete, [(1, 3153)]⟩, ⟨bodyReadExtendedInquiryResponseComplete, []⟩]⟩,
  ⟨"WriteExtendedInquiryResponseComplete", [⟨bodyEvent, [(0, 14)]⟩, ⟨bodyCommandComplete, [(1, 3154)]⟩, ⟨bodyWriteExtendedInquiryResponseComplete, []⟩]⟩,
  ⟨"RefreshEncryptionKeyStatus", [⟨bodyEvent, [(0, 15)]⟩, ⟨bodyCommandStatus, [(2, 3155)]⟩, ⟨bodyRefreshEncryptionKeyStatus, []⟩]⟩,
  ⟨"ReadSimplePairingModeComplete", [⟨bodyEvent, [(0, 14)]⟩, ⟨bodyCommandComplete, [(1, 3157)]⟩, ⟨bodyReadSimplePairingModeComplete, []⟩]⟩,
  ⟨"WriteSimplePairingModeComplete", [⟨bodyEvent, [(0, 14)]⟩, ⟨bodyCommandComplete, [(1, 3158)]⟩, ⟨bodyWriteSimplePairingModeComplete, []⟩]⟩,
  ⟨"ReadLocalOobDataComplete", [⟨bodyEvent, [(0, 14)]⟩, ⟨bodyCommandComplete, [(1, 3159)]⟩, ⟨bodyReadLocalOobDataComplete, []⟩]⟩,
  ⟨"ReadInquiryResponseTransmitPowerLevelComplete", [⟨bodyEvent, [(0, 14)]⟩, ⟨bodyCommandComplete, [(1, 3160)]⟩, ⟨bodyReadInquiryResponseTransmitPowerLevelComplete, []⟩]⟩,
  ⟨"WriteInquiryResponseTransmitPowerLevelComplete", [⟨bodyEvent, [(0, 14)]⟩, ⟨bodyCommandComplete, [(1, 3161)]⟩, ⟨bodyWriteInquiryResponseTransmitPowerLevelComplete, []⟩]⟩,
  ⟨"SendKeypressNotificationComplete", [⟨bodyEvent, [(0, 14)]⟩, ⟨bodyCommandComplete, [(1, 3168)]⟩, ⟨bodySendKeypressNotificationComplete, []⟩]⟩,
  ⟨"SetEventMaskPage2Complete", [⟨bodyEvent, [(0, 14)]⟩, ⟨bodyCommandComplete, [(1, 3171)]⟩, ⟨bodySetEventMaskPage2Complete, []⟩]⟩,
  ⟨"ReadEnhancedTransmitPowerLevelComplete", [⟨bodyEvent, [(0, 14)]⟩, ⟨bodyCommandComplete, [(1, 3176)]⟩, ⟨bodyReadEnhancedTransmitPowerLevelComplete, []⟩]⟩,
  ⟨"ReadLeHostSupportComplete", [⟨bodyEvent, [(0, 14)]⟩, ⟨bodyCommandComplete, [(1, 3180)]⟩, ⟨bodyReadLeHostSupportComplete, []⟩]⟩,
  ⟨"WriteLeHostSupportComplete", [⟨bodyEvent, [(0, 14)]⟩, ⟨bodyCommandComplete, [(1, 3181)]⟩, ⟨bodyWriteLeHostSupportComplete, []⟩]⟩,
  ⟨"ReadSecureConnectionsHostSupportComplete", [⟨bodyEvent, [(0, 14)]⟩, ⟨bodyCommandComplete, [(1, 3193)]⟩, ⟨bodyReadSecureConnectionsHostSupportComplete, []⟩]⟩,
  ⟨"WriteSecureConnectionsHostSupportComplete", [⟨bodyEvent, [(0, 14)]⟩, ⟨bodyCommandComplete, [(1, 3194)]⟩, ⟨bodyWriteSecureConnectionsHostSupportComplete, []⟩]⟩,
  ⟨"ReadLocalOobExtendedDataComplete", [⟨bodyEvent, [(0, 14)]⟩, ⟨bodyCommandComplete, [(1, 3197)]⟩, ⟨bodyReadLocalOobExtendedDataComplete, []⟩]⟩,
  ⟨"SetEcosystemBaseIntervalComplete", [⟨bodyEvent, [(0, 14)]⟩, ⟨bodyCommandComplete, [(1, 3202)]⟩, ⟨bodySetEcosystemBaseIntervalComplete, []⟩]⟩,
  ⟨"ConfigureDataPathComplete", [⟨bodyEvent, [(0, 14)]⟩, ⟨bodyCommandComplete, [(1, 3203)]⟩, ⟨bodyConfigureDataPathComplete, []⟩]⟩,
  ⟨"SetMinEncryptionKeySizeComplete", [⟨bodyEvent, [(0, 14)]⟩, ⟨bodyCommandComplete, [(1, 3204)]⟩, ⟨bodySetMinEncryptionKeySizeComplete, []⟩]⟩,
  ⟨"ReadLocalVersionInformationComplete", [⟨bodyEvent, [(0, 14)]⟩, ⟨bodyCommandComplete, [(1, 4097)]⟩, ⟨bodyReadLocalVersionInformationComplete, []⟩]⟩,
  ⟨"ReadLocalSupportedCommandsComplete", [⟨bodyEvent, [(0, 14)]⟩, ⟨bodyCommandComplete, [(1, 4098)]⟩, ⟨bodyReadLocalSupportedCommandsComplete, []⟩]⟩,
  ⟨"ReadLocalSupportedFeaturesComplete", [⟨bodyEvent, [(0, 14)]⟩, ⟨bodyCommandComplete, [(1, 4099)]⟩, ⟨bodyReadLocalSupportedFeaturesComplete, []⟩]⟩,
  ⟨"ReadLocalExtendedFeaturesComplete", [⟨bodyEvent, [(0, 14)]⟩, ⟨bodyCommandComplete, [(1, 4100)]⟩, ⟨bodyReadLocalExtendedFeaturesComplete, []⟩]⟩,
  ⟨"ReadBufferSizeComplete", [⟨bodyEvent, [(0, 14)]⟩, ⟨bodyCommandComplete, [(1, 4101)]⟩, ⟨bodyReadBufferSizeComplete, []⟩]⟩,
  ⟨"ReadBdAddrComplete", [⟨bodyEvent, [(0, 14)]⟩, ⟨bodyCommandComplete, [(1, 4105)]⟩, ⟨bodyReadBdAddrComplete, []⟩]⟩,
  ⟨"ReadDataBlockSizeComplete", [⟨bodyEvent, [(0, 14)]⟩, ⟨bodyCommandComplete, [(1, 4106)]⟩, ⟨bodyReadDataBlockSizeComplete, []⟩]⟩,
  ⟨"ReadLocalSupportedCodecsV1Complete", [⟨bodyEvent, [(0, 14)]⟩, ⟨bodyCommandComplete, [(1, 4107)]⟩, ⟨bodyReadLocalSupportedCodecsV1Complete, []⟩]⟩,
  ⟨"ReadLocalSupportedCodecsV2Complete", [⟨bodyEvent, [(0, 14)]⟩, ⟨bodyCommandComplete, [(1, 4109)]⟩, ⟨bodyReadLocalSupportedCodecsV2Complete, []⟩]⟩,
  ⟨"ReadLocalSupportedCodecCapabilitiesComplete", [⟨bodyEvent, [(0, 14)]⟩, ⟨bodyCommandComplete, [(1, 4110)]⟩, ⟨bodyReadLocalSupportedCodecCapabilitiesComplete, []⟩]⟩,
  ⟨"ReadLocalSupportedControllerDelayComplete", [⟨bodyEvent, [(0, 14)]⟩, ⟨bodyCommandComplete, [(1, 4111)]⟩, ⟨bodyReadLocalSupportedControllerDelayComplete, []⟩]⟩,
  ⟨"ReadFailedContactCounterComplete", [⟨bodyEvent, [(0, 14)]⟩, ⟨bodyCommandComplete, [(1, 5121)]⟩, ⟨bodyReadFailedContactCounterComplete, []⟩]⟩,
  ⟨"ResetFailedContactCounterComplete", [⟨bodyEvent, [(0, 14)]⟩, ⟨bodyCommandComplete, [(1, 5122)]⟩, ⟨bodyResetFailedContactCounterComplete, []⟩]⟩,
  ⟨"ReadLinkQualityComplete", [⟨bodyEvent, [(0, 14)]⟩, ⟨bodyCommandComplete, [(1, 5123)]⟩, ⟨bodyReadLinkQualityComplete, []⟩]⟩,
  ⟨"ReadRssiComplete", [⟨bodyEvent, [(0, 14)]⟩, ⟨bodyCommandComplete, [(1, 5125)]⟩, ⟨bodyReadRssiComplete, []⟩]⟩,
  ⟨"ReadAfhChannelMapComplete", [⟨bodyEvent, [(0, 14)]⟩, ⟨bodyCommandComplete, [(1, 5126)]⟩, ⟨bodyReadAfhChannelMapComplete, []⟩]⟩,
  ⟨"ReadClockComplete", [⟨bodyEvent, [(0, 14)]⟩, ⟨bodyCommandComplete, [(1, 5127)]⟩, ⟨bodyReadClockComplete, []⟩]⟩,
  ⟨"ReadEncryptionKeySizeComplete", [⟨bodyEvent, [(0, 14)]⟩, ⟨bodyCommandComplete, [(1, 5128)]⟩, ⟨bodyReadEncryptionKeySizeComplete, []⟩]⟩,
  ⟨"ReadLoopbackModeComplete", [⟨bodyEvent, [(0, 14)]⟩, ⟨bodyCommandComplete, [(1, 6145)]⟩, ⟨bodyReadLoopbackModeComplete, []⟩]⟩,
  ⟨"WriteLoopbackModeComplete", [⟨bodyEvent, [(0, 14)]⟩, ⟨bodyCommandComplete, [(1, 6146)]⟩, ⟨bodyWriteLoopbackModeComplete, []⟩]⟩,
  ⟨"EnableImplementationUnderTestModeComplete", [⟨bodyEvent, [(0, 14)]⟩, ⟨bodyCommandComplete, [(1, 6147)]⟩, ⟨bodyEnableImplementationUnderTestModeComplete, []⟩]⟩,
  ⟨"WriteSimplePairingDebugModeComplete", [⟨bodyEvent, [(0, 14)]⟩, ⟨bodyCommandComplete, [(1, 6148)]⟩, ⟨bodyWriteSimplePairingDebugModeComplete, []⟩]⟩,
  ⟨"WriteSecureConnectionsTestModeComplete", [⟨bodyEvent, [(0, 14)]⟩, ⟨bodyCommandComplete, [(1, 6154)]⟩, ⟨bodyWriteSecureConnectionsTestModeComplete, []⟩]⟩,
  ⟨"LeSetEventMaskComplete", [⟨bodyEvent, [(0, 14)]⟩, ⟨bodyCommandComplete, [(1, 8193)]⟩, ⟨bodyLeSetEventMaskComplete, []⟩]⟩,
  ⟨"LeReadBufferSizeV1Complete", [⟨bodyEvent, [(0, 14)]⟩, ⟨bodyCommandComplete, [(1, 8194)]⟩, ⟨bodyLeReadBufferSizeV1Complete, []⟩]⟩,
  ⟨"LeReadLocalSupportedFeaturesPage0Complete", [⟨bodyEvent, [(0, 14)]⟩, ⟨bodyCommandComplete, [(1, 8195)]⟩, ⟨bodyLeReadLocalSupportedFeaturesPage0Complete, []⟩]⟩,
  ⟨"LeReadAllLocalSupportedFeaturesComplete", [⟨bodyEvent, [(0, 14)]⟩, ⟨bodyCommandComplete, [(1, 8327)]⟩, ⟨bodyLeReadAllLocalSupportedFeaturesComplete, []⟩]⟩,
  ⟨"LeSetRandomAddressComplete", [⟨bodyEvent, [(0, 14)]⟩, ⟨bodyCommandComplete, [(1, 8197)]⟩, ⟨bodyLeSetRandomAddressComplete, []⟩]⟩,
  ⟨"LeSetAdvertisingParametersComplete", [⟨bodyEvent, [(0, 14)]⟩, ⟨bodyCommandComplete, [(1, 8198)]⟩, ⟨bodyLeSetAdvertisingParametersComplete, []⟩]⟩,
  ⟨"LeReadAdvertisingPhysicalChannelTxPowerComplete", [⟨bodyEvent, [(0, 14)]⟩, ⟨bodyCommandComplete, [(1, 8199)]⟩, ⟨bodyLeReadAdvertisingPhysicalChannelTxPowerComplete, []⟩]⟩,
  ⟨"LeSetAdvertisingDataComplete", [⟨bodyEvent, [(0, 14)]⟩, ⟨bodyCommandComplete, [(1, 8200)]⟩, ⟨bodyLeSetAdvertisingDataComplete, []⟩]⟩,
  ⟨"LeSetScanResponseDataComplete", [⟨bodyEvent, [(0, 14)]⟩, ⟨bodyCommandComplete, [(1, 8201)]⟩, ⟨bodyLeSetScanResponseDataComplete, []⟩]⟩,
  ⟨"LeSetAdvertisingEnableComplete", [⟨bodyEvent, [(0, 14)]⟩, ⟨bodyCommandComplete, [(1, 8202)]⟩, ⟨bodyLeSetAdvertisingEnableComplete, []⟩]⟩,
  ⟨"LeSetScanParametersComplete", [⟨bodyEvent, [(0, 14)]⟩, ⟨bodyCommandComplete, [(1, 8203)]⟩, ⟨bodyLeSetScanParametersComplete, []⟩]⟩,
  ⟨"LeSetScanEnableComplete", [⟨bodyEvent, [(0, 14)]⟩, ⟨bodyCommandComplete, [(1, 8204)]⟩, ⟨bodyLeSetScanEnableComplete, []⟩]⟩,
  ⟨"LeCreateConnectionStatus", [⟨bodyEvent, [(0, 15)]⟩, ⟨bodyCommandStatus, [(2, 8205)]⟩, ⟨bodyLeCreateConnectionStatus, []⟩]⟩,
  ⟨"LeCreateConnectionCancelComplete", [⟨bodyEvent, [(0, 14)]⟩, ⟨bodyCommandComplete, [(1, 8206)]⟩, ⟨bodyLeCreateConnectionCancelComplete, []⟩]⟩,
  ⟨"LeReadFilterAcceptListSizeComplete", [⟨bodyEvent, [(0, 14)]⟩, ⟨bodyCommandComplete, [(1, 8207)]⟩, ⟨bodyLeReadFilterAcceptListSizeComplete, []⟩]⟩,
  ⟨"LeClearFilterAcceptListComplete", [⟨bodyEvent, [(0, 14)]⟩, ⟨bodyCommandComplete, [(1, 8208)]⟩, ⟨bodyLeClearFilterAcceptListComplete, []⟩]⟩,
  ⟨"LeAddDeviceToFilterAcceptListComplete", [⟨bodyEvent, [(0, 14)]⟩, ⟨bodyCommandComplete, [(1, 8209)]⟩, ⟨bodyLeAddDeviceToFilterAcceptListComplete, []⟩]⟩,
  ⟨"LeRemoveDeviceFromFilterAcceptListComplete", [⟨bodyEvent, [(0, 14)]⟩, ⟨bodyCommandComplete, [(1, 8210)]⟩, ⟨bodyLeRemoveDeviceFromFilterAcceptListComplete, []⟩]⟩,
  ⟨"LeConnectionUpdateStatus", [⟨bodyEvent, [(0, 15)]⟩, ⟨bodyCommandStatus, [(2, 8211)]⟩, ⟨bodyLeConnectionUpdateStatus, []⟩]⟩,
  ⟨"LeSetHostChannelClassificationComplete", [⟨bodyEvent, [(0, 14)]⟩, ⟨bodyCommandComplete, [(1, 8212)]⟩, ⟨bodyLeSetHostChannelClassificationComplete, []⟩]⟩,
  ⟨"LeReadChannelMapComplete", [⟨bodyEvent, [(0, 14)]⟩, ⟨bodyCommandComplete, [(1, 8213)]⟩, ⟨bodyLeReadChannelMapComplete, []⟩]⟩,
  ⟨"LeReadRemoteFeaturesPage0Status", [⟨bodyEvent, [(0, 15)]⟩, ⟨bodyCommandStatus, [(2, 8214)]⟩, ⟨bodyLeReadRemoteFeaturesPage0Status, []⟩]⟩,
  ⟨"LeReadRemoteFeaturesPage0Complete", [⟨bodyEvent, [(0, 62)]⟩, ⟨bodyLeMetaEvent, [(0, 4)]⟩, ⟨bodyLeReadRemoteFeaturesPage0Complete, []⟩]⟩,
  ⟨"LeReadAllRemoteFeaturesStatus", [⟨bodyEvent, [(0, 15)]⟩, ⟨bodyCommandStatus, [(2, 8328)]⟩, ⟨bodyLeReadAllRemoteFeaturesStatus, []⟩]⟩,
  ⟨"LeReadAllRemoteFeaturesComplete", [⟨bodyEvent, [(0, 62)]⟩, ⟨bodyLeMetaEvent, [(0, 43)]⟩, ⟨bodyLeReadAllRemoteFeaturesComplete, []⟩]⟩,
  ⟨"LeEncryptComplete", [⟨bodyEvent, [(0, 14)]⟩, ⟨bodyCommandComplete, [(1, 8215)]⟩, ⟨bodyLeEncryptComplete, []⟩]⟩,
  ⟨"LeRandComplete", [⟨bodyEvent, [(0, 14)]⟩, ⟨bodyCommandComplete, [(1, 8216)]⟩, ⟨bodyLeRandComplete, []⟩]⟩,
  ⟨"LeStartEncryptionStatus", [⟨bodyEvent, [(0, 15)]⟩, ⟨bodyCommandStatus, [(2, 8217)]⟩, ⟨bodyLeStartEncryptionStatus, []⟩]⟩,
  ⟨"LeLongTermKeyRequestReplyComplete", [⟨bodyEvent, [(0, 14)]⟩, ⟨bodyCommandComplete, [(1, 8218)]⟩, ⟨bodyLeLongTermKeyRequestReplyComplete, []⟩]⟩,
  ⟨"LeLongTermKeyRequestNegativeReplyComplete", [⟨bodyEvent, [(0, 14)]⟩, ⟨bodyCommandComplete, [(1, 8219)]⟩, ⟨bodyLeLongTermKeyRequestNegativeReplyComplete, []⟩]⟩,
  ⟨"LeReadSupportedStatesComplete", [⟨bodyEvent, [(0, 14)]⟩, ⟨bodyCommandComplete, [(1, 8220)]⟩, ⟨bodyLeReadSupportedStatesComplete, []⟩]⟩,
  ⟨"LeReceiverTestComplete", [⟨bodyEvent, [(0, 14)]⟩, ⟨bodyCommandComplete, [(1, 8221)]⟩, ⟨bodyLeReceiverTestComplete, []⟩]⟩,
  ⟨"LeTransmitterTestComplete", [⟨bodyEvent, [(0, 14)]⟩, ⟨bodyCommandComplete, [(1, 8222)]⟩, ⟨bodyLeTransmitterTestComplete, []⟩]⟩,
  ⟨"LeTestEndComplete", [⟨bodyEvent, [(0, 14)]⟩, ⟨bodyCommandComplete, [(1, 8223)]⟩, ⟨bodyLeTestEndComplete, []⟩]⟩,
  ⟨"LeRemoteConnectionParameterRequestReplyComplete", [⟨bodyEvent, [(0, 14)]⟩, ⟨bodyCommandComplete, [(1, 8224)]⟩, ⟨bodyLeRemoteConnectionParameterRequestReplyComplete, []⟩]⟩,
  ⟨"LeRemoteConnectionParameterRequestNegativeReplyComplete", [⟨bodyEvent, [(0, 14)]⟩, ⟨bodyCommandComplete, [(1, 8225)]⟩, ⟨bodyLeRemoteConnectionParameterRequestNegativeReplyComplete, []⟩]⟩,
  ⟨"LeSetDataLengthComplete", [⟨bodyEvent, [(0, 14)]⟩, ⟨bodyCommandComplete, [(1, 8226)]⟩, ⟨bodyLeSetDataLengthComplete, []⟩]⟩,
  ⟨"LeReadSuggestedDefaultDataLengthComplete", [⟨bodyEvent, [(0, 14)]⟩, ⟨bodyCommandComplete, [(1, 8227)]⟩, ⟨bodyLeReadSuggestedDefaultDataLengthComplete, []⟩]⟩,
  ⟨"LeWriteSuggestedDefaultDataLengthComplete", [⟨bodyEvent, [(0, 14)]⟩, ⟨bodyCommandComplete, [(1, 8228)]⟩, ⟨bodyLeWriteSuggestedDefaultDataLengthComplete, []⟩]⟩,
  ⟨"LeReadLocalP256PublicKeyStatus", [⟨bodyEvent, [(0, 15)]⟩, ⟨bodyCommandStatus, [(2, 8229)]⟩, ⟨bodyLeReadLocalP256PublicKeyStatus, []⟩]⟩,
  ⟨"LeGenerateDhkeyV1Status", [⟨bodyEvent, [(0, 15)]⟩, ⟨bodyCommandStatus, [(2, 8230)]⟩, ⟨bodyLeGenerateDhkeyV1Status, []⟩]⟩,
  ⟨"LeAddDeviceToResolvingListComplete", [⟨bodyEvent, [(0, 14)]⟩, ⟨bodyCommandComplete, [(1, 8231)]⟩, ⟨bodyLeAddDeviceToResolvingListComplete, []⟩]⟩,
  ⟨"LeRemoveDeviceFromResolvingListComplete", [⟨bodyEvent, [(0, 14)]⟩, ⟨bodyCommandComplete, [(1, 8232)]⟩, ⟨bodyLeRemoveDeviceFromResolvingListComplete, []⟩]⟩,
  ⟨"LeClearResolvingListComplete", [⟨bodyEvent, [(0, 14)]⟩, ⟨bodyCommandComplete, [(1, 8233)]⟩, ⟨bodyLeClearResolvingListComplete, []⟩]⟩,
  ⟨"LeReadResolvingListSizeComplete", [⟨bodyEvent, [(0, 14)]⟩, ⟨bodyCommandComplete, [(1, 8234)]⟩, ⟨bodyLeReadResolvingListSizeComplete, []⟩]⟩,
  ⟨"LeReadPeerResolvableAddressComplete", [⟨bodyEvent, [(0, 14)]⟩, ⟨bodyCommandComplete, [(1, 8235)]⟩, ⟨bodyLeReadPeerResolvableAddressComplete, []⟩]⟩,
  ⟨"LeReadLocalResolvableAddressComplete", [⟨bodyEvent, [(0, 14)]⟩, ⟨bodyCommandComplete, [(1, 8236)]⟩, ⟨bodyLeReadLocalResolvableAddressComplete, []⟩]⟩]

/-- Event and the packets derived from it, in the order of packets/hci_packets.pdl (part 3). -/
def packetsEvent2 : List Packet := [
  ⟨"LeSetAddressResolutionEnableComplete", [⟨bodyEvent, [(0, 14)]⟩, ⟨bodyCommandComplete, [(1, 8237)]⟩, ⟨bodyLeSetAddressResolutionEnableComplete, []⟩]⟩,
  ⟨"LeSetResolvablePrivateAddressTimeoutComplete", [⟨bodyEvent, [(0, 14)]⟩, ⟨bodyCommandComplete, [(1, 8238)]⟩, ⟨bodyLeSetResolvablePrivateAddressTimeoutComplete, []⟩]⟩,
  ⟨"LeReadMaximumDataLengthComplete", [⟨bodyEvent, [(0, 14)]⟩, ⟨bodyCommandComplete, [(1, 8239)]⟩, ⟨bodyLeReadMaximumDataLengthComplete, []⟩]⟩,
  ⟨"LeReadPhyComplete", [⟨bodyEvent, [(0, 14)]⟩, ⟨bodyCommandComplete, [(1, 8240)]⟩, ⟨bodyLeReadPhyComplete, []⟩]⟩,
  ⟨"LeSetDefaultPhyComplete", [⟨bodyEvent, [(0, 14)]⟩, ⟨bodyCommandComplete, [(1, 8241)]⟩, ⟨bodyLeSetDefaultPhyComplete, []⟩]⟩,
  ⟨"LeSetPhyStatus", [⟨bodyEvent, [(0, 15)]⟩, ⟨bodyCommandStatus, [(2, 8242)]⟩, ⟨bodyLeSetPhyStatus, []⟩]⟩,
  ⟨"LeEnhancedReceiverTestComplete", [⟨bodyEvent, [(0, 14)]⟩, ⟨bodyCommandComplete, [(1, 8243)]⟩, ⟨bodyLeEnhancedReceiverTestComplete, []⟩]⟩,
  ⟨"LeEnhancedTransmitterTestComplete", [⟨bodyEvent, [(0, 14)]⟩, ⟨bodyCommandComplete, [(1, 8244)]⟩, ⟨bodyLeEnhancedTransmitterTestComplete, []⟩]⟩,
  ⟨"LeSetAdvertisingSetRandomAddressComplete", [⟨bodyEvent, [(0, 14)]⟩, ⟨bodyCommandComplete, [(1, 8245)]⟩, ⟨bodyLeSetAdvertisingSetRandomAddressComplete, []⟩]⟩,
  ⟨"LeSetExtendedAdvertisingParametersV1Complete", [⟨bodyEvent, [(0, 14)]⟩, ⟨bodyCommandComplete, [(1, 8246)]⟩, ⟨bodyLeSetExtendedAdvertisingParametersV1Complete, []⟩]⟩,
  ⟨"LeSetExtendedAdvertisingParametersV2Complete", [⟨bodyEvent, [(0, 14)]⟩, ⟨bodyCommandComplete, [(1, 8319)]⟩, ⟨bodyLeSetExtendedAdvertisingParametersV2Complete, []⟩]⟩,
  ⟨"LeSetExtendedAdvertisingDataComplete", [⟨bodyEvent, [(0, 14)]⟩, ⟨bodyCommandComplete, [(1, 8247)]⟩, ⟨bodyLeSetExtendedAdvertisingDataComplete, []⟩]⟩,
  ⟨"LeSetExtendedScanResponseDataComplete", [⟨bodyEvent, [(0, 14)]⟩, ⟨bodyCommandComplete, [(1, 8248)]⟩, ⟨bodyLeSetExtendedScanResponseDataComplete, []⟩]⟩,
  ⟨"LeSetExtendedAdvertisingEnableComplete", [⟨bodyEvent, [(0, 14)]⟩, ⟨bodyCommandComplete, [(1, 8249)]⟩, ⟨bodyLeSetExtendedAdvertisingEnableComplete, []⟩]⟩,
  ⟨"LeReadMaximumAdvertisingDataLengthComplete", [⟨bodyEvent, [(0, 14)]⟩, ⟨bodyCommandComplete, [(1, 8250)]⟩, ⟨bodyLeReadMaximumAdvertisingDataLengthComplete, []⟩]⟩,
  ⟨"LeReadNumberOfSupportedAdvertisingSetsComplete", [⟨bodyEvent, [(0, 14)]⟩, ⟨bodyCommandComplete, [(1, 8251)]⟩, ⟨bodyLeReadNumberOfSupportedAdvertisingSetsComplete, []⟩]⟩,
  ⟨"LeRemoveAdvertisingSetComplete", [⟨bodyEvent, [(0, 14)]⟩, ⟨bodyCommandComplete, [(1, 8252)]⟩, ⟨bodyLeRemoveAdvertisingSetComplete, []⟩]⟩,
  ⟨"LeClearAdvertisingSetsComplete", [⟨bodyEvent, [(0, 14)]⟩, ⟨bodyCommandComplete, [(1, 8253)]⟩, ⟨bodyLeClearAdvertisingSetsComplete, []⟩]⟩,
  ⟨"LeSetPeriodicAdvertisingParametersV1Complete", [⟨bodyEvent, [(0, 14)]⟩, ⟨bodyCommandComplete, [(1, 8254)]⟩, ⟨bodyLeSetPeriodicAdvertisingParametersV1Complete, []⟩]⟩,
  ⟨"LeSetPeriodicAdvertisingParametersV2Complete", [⟨bodyEvent, [(0, 14)]⟩, ⟨bodyCommandComplete, [(1, 8326)]⟩, ⟨bodyLeSetPeriodicAdvertisingParametersV2Complete, []⟩]⟩,
  ⟨"LeSetPeriodicAdvertisingDataComplete", [⟨bodyEvent, [(0, 14)]⟩, ⟨bodyCommandComplete, [(1, 8255)]⟩, ⟨bodyLeSetPeriodicAdvertisingDataComplete, []⟩]⟩,
  ⟨"LeSetPeriodicAdvertisingEnableComplete", [⟨bodyEvent, [(0, 14)]⟩, ⟨bodyCommandComplete, [(1, 8256)]⟩, ⟨bodyLeSetPeriodicAdvertisingEnableComplete, []⟩]⟩,
  ⟨"LeSetExtendedScanParametersComplete", [⟨bodyEvent, [(0, 14)]⟩, ⟨bodyCommandComplete, [(1, 8257)]⟩, ⟨bodyLeSetExtendedScanParametersComplete, []⟩]⟩,
  ⟨"LeSetExtendedScanEnableComplete", [⟨bodyEvent, [(0, 14)]⟩, ⟨bodyCommandComplete, [(1, 8258)]⟩, ⟨bodyLeSetExtendedScanEnableComplete, []⟩]⟩,
  ⟨"LeExtendedCreateConnectionV1Status", [⟨bodyEvent, [(0, 15)]⟩, ⟨bodyCommandStatus, [(2, 8259)]⟩, ⟨bodyLeExtendedCreateConnectionV1Status, []⟩]⟩,
  ⟨"LeExtendedCreateConnectionV2Status", [⟨bodyEvent, [(0, 15)]⟩, ⟨bodyCommandStatus, [(2, 8325)]⟩, ⟨bodyLeExtendedCreateConnectionV2Status, []⟩]⟩,
  ⟨"LePeriodicAdvertisingCreateSyncStatus", [⟨bodyEvent, [(0, 15)]⟩, ⟨bodyCommandStatus, [(2, 8260)]⟩, ⟨bodyLePeriodicAdvertisingCreateSyncStatus, []⟩]⟩,
  ⟨"LePeriodicAdvertisingCreateSyncCancelComplete", [⟨bodyEvent, [(0, 14)]⟩, ⟨bodyCommandComplete, [(1, 8261)]⟩, ⟨bodyLePeriodicAdvertisingCreateSyncCancelComplete, []⟩]⟩,
  ⟨"LePeriodicAdvertisingTerminateSyncComplete", [⟨bodyEvent, [(0, 14)]⟩, ⟨bodyCommandComplete, [(1, 8262)]⟩, ⟨bodyLePeriodicAdvertisingTerminateSyncComplete, []⟩]⟩,
  ⟨"LeAddDeviceToPeriodicAdvertiserListComplete", [⟨bodyEvent, [(0, 14)]⟩, ⟨bodyCommandComplete, [(1, 8263)]⟩, ⟨bodyLeAddDeviceToPeriodicAdvertiserListComplete, []⟩]⟩,
  ⟨"LeRemoveDeviceFromPeriodicAdvertiserListComplete", [⟨bodyEvent, [(0, 14)]⟩, ⟨bodyCommandComplete, [(1, 8264)]⟩, ⟨bodyLeRemoveDeviceFromPeriodicAdvertiserListComplete, []⟩]⟩,
  ⟨"LeClearPeriodicAdvertiserListComplete", [⟨bodyEvent, [(0, 14)]⟩, ⟨bodyCommandComplete, [(1, 8265)]⟩, ⟨bodyLeClearPeriodicAdvertiserListComplete, []⟩]⟩,
  ⟨"LeReadPeriodicAdvertiserListSizeComplete", [⟨bodyEvent, [(0, 14)]⟩, ⟨bodyCommandComplete, [(1, 8266)]⟩, ⟨bodyLeReadPeriodicAdvertiserListSizeComplete, []⟩]⟩,
  ⟨"LeReadTransmitPowerComplete", [⟨bodyEvent, [(0, 14)]⟩, ⟨bodyCommandComplete, [(1, 8267)]⟩, ⟨bodyLeReadTransmitPowerComplete, []⟩]⟩,
  ⟨"LeReadRfPathCompensationPowerComplete", [⟨bodyEvent, [(0, 14)]⟩, ⟨bodyCommandComplete, [(1, 8268)]⟩, ⟨bodyLeReadRfPathCompensationPowerComplete, []⟩]⟩,
  ⟨"LeWriteRfPathCompensationPowerComplete", [⟨bodyEvent, [(0, 14)]⟩, ⟨bodyCommandComplete, [(1, 8269)]⟩, ⟨bodyLeWriteRfPathCompensationPowerComplete, []⟩]⟩,
  ⟨"LeSetPrivacyModeComplete", [⟨bodyEvent, [(0, 14)]⟩, ⟨bodyCommandComplete, [(1, 8270)]⟩, ⟨bodyLeSetPrivacyModeComplete, []⟩]⟩,
  ⟨"LeSetPeriodicAdvertisingReceiveEnableComplete", [⟨bodyEvent, [(0, 14)]⟩, ⟨bodyCommandComplete, [(1, 8281)]⟩, ⟨bodyLeSetPeriodicAdvertisingReceiveEnableComplete, []⟩]⟩,
  ⟨"LePeriodicAdvertisingSyncTransferComplete", [⟨bodyEvent, [(0, 14)]⟩, ⟨bodyCommandComplete, [(1, 8282)]⟩, ⟨bodyLePeriodicAdvertisingSyncTransferComplete, []⟩]⟩,
  ⟨"LePeriodicAdvertisingSetInfoTransferComplete", [⟨bodyEvent, [(0, 14)]⟩, ⟨bodyCommandComplete, [(1, 8283)]⟩, ⟨bodyLePeriodicAdvertisingSetInfoTransferComplete, []⟩]⟩,
  ⟨"LeSetPeriodicAdvertisingSyncTransferParametersComplete", [⟨bodyEvent, [(0, 14)]⟩, ⟨bodyCommandComplete, [(1, 8284)]⟩, ⟨bodyLeSetPeriodicAdvertisingSyncTransferParametersComplete, []⟩]⟩,
  ⟨"LeSetDefaultPeriodicAdvertisingSyncTransferParametersComplete", [⟨bodyEvent, [(0, 14)]⟩, ⟨bodyCommandComplete, [(1, 8285)]⟩, ⟨bodyLeSetDefaultPeriodicAdvertisingSyncTransferParametersComplete, []⟩]⟩,
  ⟨"LeGenerateDhkeyCommandStatus", [⟨bodyEvent, [(0, 15)]⟩, ⟨bodyCommandStatus, [(2, 8286)]⟩, ⟨bodyLeGenerateDhkeyCommandStatus, []⟩]⟩,
  ⟨"LeModifySleepClockAccuracyComplete", [⟨bodyEvent, [(0, 14)]⟩, ⟨bodyCommandComplete, [(1, 8287)]⟩, ⟨bodyLeModifySleepClockAccuracyComplete, []⟩]⟩,
  ⟨"LeReadBufferSizeV2Complete", [⟨bodyEvent, [(0, 14)]⟩, ⟨bodyCommandComplete, [(1, 8288)]⟩, ⟨bodyLeReadBufferSizeV2Complete, []⟩]⟩,
  ⟨"LeReadIsoTxSyncComplete", [⟨bodyEvent, [(0, 14)]⟩, ⟨bodyCommandComplete, [(1, 8289)]⟩, ⟨bodyLeReadIsoTxSyncComplete, []⟩]⟩,
  ⟨"LeSetCigParametersComplete", [⟨bodyEvent, [(0, 14)]⟩, ⟨bodyCommandComplete, [(1, 8290)]⟩, ⟨bodyLeSetCigParametersComplete, []⟩]⟩,
  ⟨"LeSetCigParametersTestComplete", [⟨bodyEvent, [(0, 14)]⟩, ⟨bodyCommandComplete, [(1, 8291)]⟩, ⟨bodyLeSetCigParametersTestComplete, []⟩]⟩,
  ⟨"LeCreateCisStatus", [⟨bodyEvent, [(0, 15)]⟩, ⟨bodyCommandStatus, [(2, 8292)]⟩, ⟨bodyLeCreateCisStatus, []⟩]⟩,
  ⟨"LeRemoveCigComplete", [⟨bodyEvent, [(0, 14)]⟩, ⟨bodyCommandComplete, [(1, 8293)]⟩, ⟨bodyLeRemoveCigComplete, []⟩]⟩,
  ⟨"LeAcceptCisRequestStatus", [⟨bodyEvent, [(0, 15)]⟩, ⟨bodyCommandStatus, [(2, 8294)]⟩, ⟨bodyLeAcceptCisRequestStatus, []⟩]⟩,
  ⟨"LeRejectCisRequestComplete", [⟨bodyEvent, [(0, 14)]⟩, ⟨bodyCommandComplete, [(1, 8295)]⟩, ⟨bodyLeRejectCisRequestComplete, []⟩]⟩,
  ⟨"LeCreateBigStatus", [⟨bodyEvent, [(0, 15)]⟩, ⟨bodyCommandStatus, [(2, 8296)]⟩, ⟨bodyLeCreateBigStatus, []⟩]⟩,
  ⟨"LeTerminateBigStatus", [⟨bodyEvent, [(0, 15)]⟩, ⟨bodyCommandStatus, [(2, 8298)]⟩, ⟨bodyLeTerminateBigStatus, []⟩]⟩,
  ⟨"LeBigCreateSyncStatus", [⟨bodyEvent, [(0, 15)]⟩, ⟨bodyCommandStatus, [(2, 8299)]⟩, ⟨bodyLeBigCreateSyncStatus, []⟩]⟩,
  ⟨"LeBigTerminateSyncComplete", [⟨bodyEvent, [(0, 14)]⟩, ⟨bodyCommandComplete, [(1, 8300)]⟩, ⟨bodyLeBigTerminateSyncComplete, []⟩]⟩,
  ⟨"LeRequestPeerScaStatus", [⟨bodyEvent, [(0, 15)]⟩, ⟨bodyCommandStatus, [(2, 8301)]⟩, ⟨bodyLeRequestPeerScaStatus, []⟩]⟩,
  ⟨"LeSetupIsoDataPathComplete", [⟨bodyEvent, [(0, 14)]⟩, ⟨bodyCommandComplete, [(1, 8302)]⟩, ⟨bodyLeSetupIsoDataPathComplete, []⟩]⟩,
  ⟨"LeRemoveIsoDataPathComplete", [⟨bodyEvent, [(0, 14)]⟩, ⟨bodyCommandComplete, [(1, 8303)]⟩, ⟨bodyLeRemoveIsoDataPathComplete, []⟩]⟩,
  ⟨"LeSetHostFeatureV1Complete", [⟨bodyEvent, [(0, 14)]⟩, ⟨bodyCommandComplete, [(1, 8308)]⟩, ⟨bodyLeSetHostFeatureV1Complete, []⟩]⟩,
  ⟨"LeReadIsoLinkQualityComplete", [⟨bodyEvent, [(0, 14)]⟩, ⟨bodyCommandComplete, [(1, 8309)]⟩, ⟨bodyLeReadIsoLinkQualityComplete, []⟩]⟩,
  ⟨"LeEnhancedReadTransmitPowerLevelComplete", [⟨bodyEvent, [(0, 14)]⟩, ⟨bodyCommandComplete, [(1, 8310)]⟩, ⟨bodyLeEnhancedReadTransmitPowerLevelComplete, []⟩]⟩,
  ⟨"LeReadRemoteTransmitPowerLevelStatus", [⟨bodyEvent, [(0, 15)]⟩, ⟨bodyCommandStatus, [(2, 8311)]⟩, ⟨bodyLeReadRemoteTransmitPowerLevelStatus, []⟩]⟩,
  ⟨"LeSetPathLossReportingParametersComplete", [⟨bodyEvent, [(0, 14)]⟩, ⟨bodyCommandComplete, [(1, 8312)]⟩, ⟨bodyLeSetPathLossReportingParametersComplete, []⟩]⟩,
  ⟨"LeSetPathLossReportingEnableComplete", [⟨bodyEvent, [(0, 14)]⟩, ⟨bodyCommandComplete, [(1, 8313)]⟩, ⟨bodyLeSetPathLossReportingEnableComplete, []⟩]⟩,
  ⟨"LeSetTransmitPowerReportingEnableComplete", [⟨bodyEvent, [(0, 14)]⟩, ⟨bodyCommandComplete, [(1, 8314)]⟩, ⟨bodyLeSetTransmitPowerReportingEnableComplete, []⟩]⟩,
  ⟨"LeSetDataRelatedAddressChangesComplete", [⟨bodyEvent, [(0, 14)]⟩, ⟨bodyCommandComplete, [(1, 8316)]⟩, ⟨bodyLeSetDataRelatedAddressChangesComplete, []⟩]⟩,
  ⟨"LeSetDefaultSubrateComplete", [⟨bodyEvent, [(0, 14)]⟩, ⟨bodyCommandComplete, [(1, 8317)]⟩, ⟨bodyLeSetDefaultSubrateComplete, []⟩]⟩,
  ⟨"LeSubrateRequestStatus", [⟨bodyEvent, [(0, 15)]⟩, ⟨bodyCommandStatus, [(2, 8318)]⟩, ⟨bodyLeSubrateRequestStatus, []⟩]⟩,
  ⟨"LeCsReadLocalSupportedCapabilitiesComplete", [⟨bodyEvent, [(0, 14)]⟩, ⟨bodyCommandComplete, [(1, 8329)]⟩, ⟨bodyLeCsReadLocalSupportedCapabilitiesComplete, []⟩]⟩,
  ⟨"LeCsReadRemoteSupportedCapabilitiesStatus", [⟨bodyEvent, [(0, 15)]⟩, ⟨bodyCommandStatus, [(2, 8330)]⟩, ⟨bodyLeCsReadRemoteSupportedCapabilitiesStatus, []⟩]⟩,
  ⟨"LeCsReadRemoteSupportedCapabilitiesComplete", [⟨bodyEvent, [(0, 62)]⟩, ⟨bodyLeMetaEvent, [(0, 44)]⟩, ⟨bodyLeCsReadRemoteSupportedCapabilitiesComplete, []⟩]⟩,
  ⟨"LeCsWriteCachedRemoteSupportedCapabilitiesComplete", [⟨bodyEvent, [(0, 14)]⟩, ⟨bodyCommandComplete, [(1, 8331)]⟩, ⟨bodyLeCsWriteCachedRemoteSupportedCapabilitiesComplete, []⟩]⟩,
  ⟨"LeCsSecurityEnableStatus", [⟨bodyEvent, [(0, 15)]⟩, ⟨bodyCommandStatus, [(2, 8332)]⟩, ⟨bodyLeCsSecurityEnableStatus, []⟩]⟩,
  ⟨"LeCsSecurityEnableComplete", [⟨bodyEvent, [(0, 62)]⟩, ⟨bodyLeMetaEvent, [(0, 46)]⟩, ⟨bodyLeCsSecurityEnableComplete, []⟩]⟩,
  ⟨"LeCsSetDefaultSettingsComplete", [⟨bodyEvent, [(0, 14)]⟩, ⟨bodyCommandComplete, [(1, 8333)]⟩, ⟨bodyLeCsSetDefaultSettingsComplete, []⟩]⟩,
  ⟨"LeCsReadRemoteFaeTableStatus", [⟨bodyEvent, [(0, 15)]⟩, ⟨bodyCommandStatus, [(2, 8334)]⟩, ⟨bodyLeCsReadRemoteFaeTableStatus, []⟩]⟩,
  ⟨"LeCsReadRemoteFaeTableComplete", [⟨bodyEvent, [(0, 62)]⟩, ⟨bodyLeMetaEvent, [(0, 45)]⟩, ⟨bodyLeCsReadRemoteFaeTableComplete, []⟩]⟩,
  ⟨"LeCsWriteCachedRemoteFaeTableComplete", [⟨bodyEvent, [(0, 14)]⟩, ⟨bodyCommandComplete, [(1, 8335)]⟩, ⟨bodyLeCsWriteCachedRemoteFaeTableComplete, []⟩]⟩,
  ⟨"LeCsConfigComplete", [⟨bodyEvent, [(0, 62)]⟩, ⟨bodyLeMetaEvent, [(0, 47)]⟩, ⟨bodyLeCsConfigComplete, []⟩]⟩,
  ⟨"LeCsCreateConfigStatus", [⟨bodyEvent, [(0, 15)]⟩, ⟨bodyCommandStatus, [(2, 8336)]⟩, ⟨bodyLeCsCreateConfigStatus, []⟩]⟩,
  ⟨"LeCsRemoveConfigStatus", [⟨bodyEvent, [(0, 15)]⟩, ⟨bodyCommandStatus, [(2, 8337)]⟩, ⟨bodyLeCsRemoveConfigStatus, []⟩]⟩,
  ⟨"LeCsSetChannelClassificationComplete", [⟨bodyEvent, [(0, 14)]⟩, ⟨bodyCommandComplete, [(1, 8338)]⟩, ⟨bodyLeCsSetChannelClassificationComplete, []⟩]⟩,
  ⟨"LeCsSetProcedureParametersComplete", [⟨bodyEvent, [(0, 14)]⟩, ⟨bodyCommandComplete, [(1, 8339)]⟩, ⟨bodyLeCsSetProcedureParametersComplete, []⟩]⟩,
  ⟨"LeCsProcedureEnableStatus", [⟨bodyEvent, [(0, 15)]⟩, ⟨bodyCommandStatus, [(2, 8340)]⟩, ⟨bodyLeCsProcedureEnableStatus, []⟩]⟩,
  ⟨"LeCsProcedureEnableComplete", [⟨bodyEvent, [(0, 62)]⟩, ⟨bodyLeMetaEvent, [(0, 48)]⟩, ⟨bodyLeCsProcedureEnableComplete, []⟩]⟩,
  ⟨"LeCsTestComplete", [⟨bodyEvent, [(0, 14)]⟩, ⟨bodyCommandComplete, [(1, 8341)]⟩, ⟨bodyLeCsTestComplete, []⟩]⟩,
  ⟨"LeCsTestEndStatus", [⟨bodyEvent, [(0, 15)]⟩, ⟨bodyCommandStatus, [(2, 8342)]⟩, ⟨bodyLeCsTestEndStatus, []⟩]⟩,
  ⟨"LeCsTestEndComplete", [⟨bodyEvent, [(0, 62)]⟩, ⟨bodyLeMetaEvent, [(0, 51)]⟩, ⟨bodyLeCsTestEndComplete, []⟩]⟩,
  ⟨"LeCsSubeventResult", [⟨bodyEvent, [(0, 62)]⟩, ⟨bodyLeMetaEvent, [(0, 49)]⟩, ⟨bodyLeCsSubeventResult, []⟩]⟩,
  ⟨"LeCsSubeventResultContinue", [⟨bodyEvent, [(0, 62)]⟩, ⟨bodyLeMetaEvent, [(0, 50)]⟩, ⟨bodyLeCsSubeventResultContinue, []⟩]⟩,
  ⟨"InquiryComplete", [⟨bodyEvent, [(0, 1)]⟩, ⟨bodyInquiryComplete, []⟩]⟩,
  ⟨"InquiryResult", [⟨bodyEvent, [(0, 2)]⟩, ⟨bodyInquiryResult, []⟩]⟩,
  ⟨"ConnectionComplete", [⟨bodyEvent, [(0, 3)]⟩, ⟨bodyConnectionComplete, []⟩]⟩,
  ⟨"ConnectionRequest", [⟨bodyEvent, [(0, 4)]⟩, ⟨bodyConnectionRequest, []⟩]⟩,
  ⟨"DisconnectionComplete", [⟨bodyEvent, [(0, 5)]⟩, ⟨bodyDisconnectionComplete, []⟩]⟩,
  ⟨"AuthenticationComplete", [⟨bodyEvent, [(0, 6)]⟩, ⟨bodyAuthenticationComplete, []⟩]⟩,
  ⟨"RemoteNameRequestComplete", [⟨bodyEvent, [(0, 7)]⟩, ⟨bodyRemoteNameRequestComplete, []⟩]⟩,
  ⟨"EncryptionChange", [⟨bodyEvent, [(0, 8)]⟩, ⟨bodyEncryptionChange, []⟩]⟩,
  ⟨"EncryptionChangeV2", [⟨bodyEvent, [(0, 89)]⟩, ⟨bodyEncryptionChangeV2, []⟩]⟩]

/-- Event and the packets derived from it, in the order of packets/hci_packets.pdl (part 4). -/
def packetsEvent3 : List Packet := [
  ⟨"ChangeConnectionLinkKeyComplete", [⟨bodyEvent, [(0, 9)]⟩, ⟨bodyChangeConnectionLinkKeyComplete, []⟩]⟩,
  ⟨"CentralLinkKeyComplete", [⟨bodyEvent, [(0, 10)]⟩, ⟨bodyCentralLinkKeyComplete, []⟩]⟩,
  ⟨"ReadRemoteSupportedFeaturesComplete", [⟨bodyEvent, [(0, 11)]⟩, ⟨bodyReadRemoteSupportedFeaturesComplete, []⟩]⟩,
  ⟨"ReadRemoteVersionInformationComplete", [⟨bodyEvent, [(0, 12)]⟩, ⟨bodyReadRemoteVersionInformationComplete, []⟩]⟩,
  ⟨"QosSetupComplete", [⟨bodyEvent, [(0, 13)]⟩, ⟨bodyQosSetupComplete, []⟩]⟩,
  ⟨"HardwareError", [⟨bodyEvent, [(0, 16)]⟩, ⟨bodyHardwareError, []⟩]⟩,
  ⟨"FlushOccurred", [⟨bodyEvent, [(0, 17)]⟩, ⟨bodyFlushOccurred, []⟩]⟩,
  ⟨"RoleChange", [⟨bodyEvent, [(0, 18)]⟩, ⟨bodyRoleChange, []⟩]⟩,
  ⟨"NumberOfCompletedPackets", [⟨bodyEvent, [(0, 19)]⟩, ⟨bodyNumberOfCompletedPackets, []⟩]⟩,
  ⟨"ModeChange", [⟨bodyEvent, [(0, 20)]⟩, ⟨bodyModeChange, []⟩]⟩,
  ⟨"ReturnLinkKeys", [⟨bodyEvent, [(0, 21)]⟩, ⟨bodyReturnLinkKeys, []⟩]⟩,
  ⟨"PinCodeRequest", [⟨bodyEvent, [(0, 22)]⟩, ⟨bodyPinCodeRequest, []⟩]⟩,
  ⟨"LinkKeyRequest", [⟨bodyEvent, [(0, 23)]⟩, ⟨bodyLinkKeyRequest, []⟩]⟩,
  ⟨"LinkKeyNotification", [⟨bodyEvent, [(0, 24)]⟩, ⟨bodyLinkKeyNotification, []⟩]⟩,
  ⟨"LoopbackCommand", [⟨bodyEvent, [(0, 25)]⟩, ⟨bodyLoopbackCommand, []⟩]⟩,
  ⟨"DataBufferOverflow", [⟨bodyEvent, [(0, 26)]⟩, ⟨bodyDataBufferOverflow, []⟩]⟩,
  ⟨"MaxSlotsChange", [⟨bodyEvent, [(0, 27)]⟩, ⟨bodyMaxSlotsChange, []⟩]⟩,
  ⟨"ReadClockOffsetComplete", [⟨bodyEvent, [(0, 28)]⟩, ⟨bodyReadClockOffsetComplete, []⟩]⟩,
  ⟨"ConnectionPacketTypeChanged", [⟨bodyEvent, [(0, 29)]⟩, ⟨bodyConnectionPacketTypeChanged, []⟩]⟩,
  ⟨"QosViolation", [⟨bodyEvent, [(0, 30)]⟩, ⟨bodyQosViolation, []⟩]⟩,
  ⟨"PageScanRepetitionModeChange", [⟨bodyEvent, [(0, 32)]⟩, ⟨bodyPageScanRepetitionModeChange, []⟩]⟩,
  ⟨"FlowSpecificationComplete", [⟨bodyEvent, [(0, 33)]⟩, ⟨bodyFlowSpecificationComplete, []⟩]⟩,
  ⟨"InquiryResultWithRssi", [⟨bodyEvent, [(0, 34)]⟩, ⟨bodyInquiryResultWithRssi, []⟩]⟩,
  ⟨"ReadRemoteExtendedFeaturesComplete", [⟨bodyEvent, [(0, 35)]⟩, ⟨bodyReadRemoteExtendedFeaturesComplete, []⟩]⟩,
  ⟨"SynchronousConnectionComplete", [⟨bodyEvent, [(0, 44)]⟩, ⟨bodySynchronousConnectionComplete, []⟩]⟩,
  ⟨"SynchronousConnectionChanged", [⟨bodyEvent, [(0, 45)]⟩, ⟨bodySynchronousConnectionChanged, []⟩]⟩,
  ⟨"SniffSubratingEvent", [⟨bodyEvent, [(0, 46)]⟩, ⟨bodySniffSubratingEvent, []⟩]⟩,
  ⟨"ExtendedInquiryResult", [⟨bodyEvent, [(0, 47)]⟩, ⟨bodyExtendedInquiryResult, []⟩]⟩,
  ⟨"EncryptionKeyRefreshComplete", [⟨bodyEvent, [(0, 48)]⟩, ⟨bodyEncryptionKeyRefreshComplete, []⟩]⟩,
  ⟨"IoCapabilityRequest", [⟨bodyEvent, [(0, 49)]⟩, ⟨bodyIoCapabilityRequest, []⟩]⟩,
  ⟨"IoCapabilityResponse", [⟨bodyEvent, [(0, 50)]⟩, ⟨bodyIoCapabilityResponse, []⟩]⟩,
  ⟨"UserConfirmationRequest", [⟨bodyEvent, [(0, 51)]⟩, ⟨bodyUserConfirmationRequest, []⟩]⟩,
  ⟨"UserPasskeyRequest", [⟨bodyEvent, [(0, 52)]⟩, ⟨bodyUserPasskeyRequest, []⟩]⟩,
  ⟨"RemoteOobDataRequest", [⟨bodyEvent, [(0, 53)]⟩, ⟨bodyRemoteOobDataRequest, []⟩]⟩,
  ⟨"SimplePairingComplete", [⟨bodyEvent, [(0, 54)]⟩, ⟨bodySimplePairingComplete, []⟩]⟩,
  ⟨"LinkSupervisionTimeoutChanged", [⟨bodyEvent, [(0, 56)]⟩, ⟨bodyLinkSupervisionTimeoutChanged, []⟩]⟩,
  ⟨"EnhancedFlushStatus", [⟨bodyEvent, [(0, 15)]⟩, ⟨bodyCommandStatus, [(2, 3167)]⟩, ⟨bodyEnhancedFlushStatus, []⟩]⟩,
  ⟨"EnhancedFlushComplete", [⟨bodyEvent, [(0, 57)]⟩, ⟨bodyEnhancedFlushComplete, []⟩]⟩,
  ⟨"UserPasskeyNotification", [⟨bodyEvent, [(0, 59)]⟩, ⟨bodyUserPasskeyNotification, []⟩]⟩,
  ⟨"KeypressNotification", [⟨bodyEvent, [(0, 60)]⟩, ⟨bodyKeypressNotification, []⟩]⟩,
  ⟨"RemoteHostSupportedFeaturesNotification", [⟨bodyEvent, [(0, 61)]⟩, ⟨bodyRemoteHostSupportedFeaturesNotification, []⟩]⟩,
  ⟨"NumberOfCompletedDataBlocks", [⟨bodyEvent, [(0, 72)]⟩, ⟨bodyNumberOfCompletedDataBlocks, []⟩]⟩,
  ⟨"AuthenticatedPayloadTimeoutExpired", [⟨bodyEvent, [(0, 87)]⟩, ⟨bodyAuthenticatedPayloadTimeoutExpired, []⟩]⟩,
  ⟨"LeConnectionComplete", [⟨bodyEvent, [(0, 62)]⟩, ⟨bodyLeMetaEvent, [(0, 1)]⟩, ⟨bodyLeConnectionComplete, []⟩]⟩,
  ⟨"LeAdvertisingReport", [⟨bodyEvent, [(0, 62)]⟩, ⟨bodyLeMetaEvent, [(0, 2)]⟩, ⟨bodyLeAdvertisingReport, []⟩]⟩,
  ⟨"LeConnectionUpdateComplete", [⟨bodyEvent, [(0, 62)]⟩, ⟨bodyLeMetaEvent, [(0, 3)]⟩, ⟨bodyLeConnectionUpdateComplete, []⟩]⟩,
  ⟨"LeLongTermKeyRequest", [⟨bodyEvent, [(0, 62)]⟩, ⟨bodyLeMetaEvent, [(0, 5)]⟩, ⟨bodyLeLongTermKeyRequest, []⟩]⟩,
  ⟨"LeRemoteConnectionParameterRequest", [⟨bodyEvent, [(0, 62)]⟩, ⟨bodyLeMetaEvent, [(0, 6)]⟩, ⟨bodyLeRemoteConnectionParameterRequest, []⟩]⟩,
  ⟨"LeDataLengthChange", [⟨bodyEvent, [(0, 62)]⟩, ⟨bodyLeMetaEvent, [(0, 7)]⟩, ⟨bodyLeDataLengthChange, []⟩]⟩,
  ⟨"LeReadLocalP256PublicKeyComplete", [⟨bodyEvent, [(0, 62)]⟩, ⟨bodyLeMetaEvent, [(0, 8)]⟩, ⟨bodyLeReadLocalP256PublicKeyComplete, []⟩]⟩,
  ⟨"LeGenerateDhKeyComplete", [⟨bodyEvent, [(0, 62)]⟩, ⟨bodyLeMetaEvent, [(0, 9)]⟩, ⟨bodyLeGenerateDhKeyComplete, []⟩]⟩,
  ⟨"LeEnhancedConnectionCompleteV1", [⟨bodyEvent, [(0, 62)]⟩, ⟨bodyLeMetaEvent, [(0, 10)]⟩, ⟨bodyLeEnhancedConnectionCompleteV1, []⟩]⟩,
  ⟨"LeEnhancedConnectionCompleteV2", [⟨bodyEvent, [(0, 62)]⟩, ⟨bodyLeMetaEvent, [(0, 41)]⟩, ⟨bodyLeEnhancedConnectionCompleteV2, []⟩]⟩,
  ⟨"LeDirectedAdvertisingReport", [⟨bodyEvent, [(0, 62)]⟩, ⟨bodyLeMetaEvent, [(0, 11)]⟩, ⟨bodyLeDirectedAdvertisingReport, []⟩]⟩,
  ⟨"LePhyUpdateComplete", [⟨bodyEvent, [(0, 62)]⟩, ⟨bodyLeMetaEvent, [(0, 12)]⟩, ⟨bodyLePhyUpdateComplete, []⟩]⟩,
  ⟨"LeExtendedAdvertisingReport", [⟨bodyEvent, [(0, 62)]⟩, ⟨bodyLeMetaEvent, [(0, 13)]⟩, ⟨bodyLeExtendedAdvertisingReport, []⟩]⟩,
  ⟨"LePeriodicAdvertisingSyncEstablishedV1", [⟨bodyEvent, [(0, 62)]⟩, ⟨bodyLeMetaEvent, [(0, 14)]⟩, ⟨bodyLePeriodicAdvertisingSyncEstablishedV1, []⟩]⟩,
  ⟨"LePeriodicAdvertisingSyncEstablishedV2", [⟨bodyEvent, [(0, 62)]⟩, ⟨bodyLeMetaEvent, [(0, 36)]⟩, ⟨bodyLePeriodicAdvertisingSyncEstablishedV2, []⟩]⟩,
  ⟨"LePeriodicAdvertisingReportV1", [⟨bodyEvent, [(0, 62)]⟩, ⟨bodyLeMetaEvent, [(0, 15)]⟩, ⟨bodyLePeriodicAdvertisingReportV1, []⟩]⟩,
  ⟨"LePeriodicAdvertisingReportV2", [⟨bodyEvent, [(0, 62)]⟩, ⟨bodyLeMetaEvent, [(0, 37)]⟩, ⟨bodyLePeriodicAdvertisingReportV2, []⟩]⟩,
  ⟨"LePeriodicAdvertisingSyncLost", [⟨bodyEvent, [(0, 62)]⟩, ⟨bodyLeMetaEvent, [(0, 16)]⟩, ⟨bodyLePeriodicAdvertisingSyncLost, []⟩]⟩,
  ⟨"LeScanTimeout", [⟨bodyEvent, [(0, 62)]⟩, ⟨bodyLeMetaEvent, [(0, 17)]⟩, ⟨bodyLeScanTimeout, []⟩]⟩,
  ⟨"LeAdvertisingSetTerminated", [⟨bodyEvent, [(0, 62)]⟩, ⟨bodyLeMetaEvent, [(0, 18)]⟩, ⟨bodyLeAdvertisingSetTerminated, []⟩]⟩,
  ⟨"LeScanRequestReceived", [⟨bodyEvent, [(0, 62)]⟩, ⟨bodyLeMetaEvent, [(0, 19)]⟩, ⟨bodyLeScanRequestReceived, []⟩]⟩,
  ⟨"LeChannelSelectionAlgorithm", [⟨bodyEvent, [(0, 62)]⟩, ⟨bodyLeMetaEvent, [(0, 20)]⟩, ⟨bodyLeChannelSelectionAlgorithm, []⟩]⟩,
  ⟨"LeConnectionlessIqReport", [⟨bodyEvent, [(0, 62)]⟩, ⟨bodyLeMetaEvent, [(0, 21)]⟩, ⟨bodyLeConnectionlessIqReport, []⟩]⟩,
  ⟨"LeConnectionIqReport", [⟨bodyEvent, [(0, 62)]⟩, ⟨bodyLeMetaEvent, [(0, 22)]⟩, ⟨bodyLeConnectionIqReport, []⟩]⟩,
  ⟨"LeCteRequestFailed", [⟨bodyEvent, [(0, 62)]⟩, ⟨bodyLeMetaEvent, [(0, 23)]⟩, ⟨bodyLeCteRequestFailed, []⟩]⟩,
  ⟨"LePeriodicAdvertisingSyncTransferReceivedV1", [⟨bodyEvent, [(0, 62)]⟩, ⟨bodyLeMetaEvent, [(0, 24)]⟩, ⟨bodyLePeriodicAdvertisingSyncTransferReceivedV1, []⟩]⟩,
  ⟨"LePeriodicAdvertisingSyncTransferReceivedV2", [⟨bodyEvent, [(0, 62)]⟩, ⟨bodyLeMetaEvent, [(0, 38)]⟩, ⟨bodyLePeriodicAdvertisingSyncTransferReceivedV2, []⟩]⟩,
  ⟨"LeCisEstablishedV1", [⟨bodyEvent, [(0, 62)]⟩, ⟨bodyLeMetaEvent, [(0, 25)]⟩, ⟨bodyLeCisEstablishedV1, []⟩]⟩,
  ⟨"LeCisEstablishedV2", [⟨bodyEvent, [(0, 62)]⟩, ⟨bodyLeMetaEvent, [(0, 42)]⟩, ⟨bodyLeCisEstablishedV2, []⟩]⟩,
  ⟨"LeCisRequest", [⟨bodyEvent, [(0, 62)]⟩, ⟨bodyLeMetaEvent, [(0, 26)]⟩, ⟨bodyLeCisRequest, []⟩]⟩,
  ⟨"LeCreateBigComplete", [⟨bodyEvent, [(0, 62)]⟩, ⟨bodyLeMetaEvent, [(0, 27)]⟩, ⟨bodyLeCreateBigComplete, []⟩]⟩,
  ⟨"LeTerminateBigComplete", [⟨bodyEvent, [(0, 62)]⟩, ⟨bodyLeMetaEvent, [(0, 28)]⟩, ⟨bodyLeTerminateBigComplete, []⟩]⟩,
  ⟨"LeBigSyncEstablished", [⟨bodyEvent, [(0, 62)]⟩, ⟨bodyLeMetaEvent, [(0, 29)]⟩, ⟨bodyLeBigSyncEstablished, []⟩]⟩,
  ⟨"LeBigSyncLost", [⟨bodyEvent, [(0, 62)]⟩, ⟨bodyLeMetaEvent, [(0, 30)]⟩, ⟨bodyLeBigSyncLost, []⟩]⟩,
  ⟨"LeRequestPeerScaComplete", [⟨bodyEvent, [(0, 62)]⟩, ⟨bodyLeMetaEvent, [(0, 31)]⟩, ⟨bodyLeRequestPeerScaComplete, []⟩]⟩,
  ⟨"LePathLossThreshold", [⟨bodyEvent, [(0, 62)]⟩, ⟨bodyLeMetaEvent, [(0, 32)]⟩, ⟨bodyLePathLossThreshold, []⟩]⟩,
  ⟨"LeTransmitPowerReporting", [⟨bodyEvent, [(0, 62)]⟩, ⟨bodyLeMetaEvent, [(0, 33)]⟩, ⟨bodyLeTransmitPowerReporting, []⟩]⟩,
  ⟨"LeBigInfoAdvertisingReport", [⟨bodyEvent, [(0, 62)]⟩, ⟨bodyLeMetaEvent, [(0, 34)]⟩, ⟨bodyLeBigInfoAdvertisingReport, []⟩]⟩,
  ⟨"LeSubrateChange", [⟨bodyEvent, [(0, 62)]⟩, ⟨bodyLeMetaEvent, [(0, 35)]⟩, ⟨bodyLeSubrateChange, []⟩]⟩,
  ⟨"RootcanalCommandComplete", [⟨bodyEvent, [(0, 14)]⟩, ⟨bodyCommandComplete, [(1, 64513)]⟩, ⟨bodyRootcanalCommandComplete, []⟩]⟩,
  ⟨"LeGetVendorCapabilitiesComplete", [⟨bodyEvent, [(0, 14)]⟩, ⟨bodyCommandComplete, [(1, 64851)]⟩, ⟨bodyLeGetVendorCapabilitiesComplete, []⟩]⟩,
  ⟨"LeBatchScanComplete", [⟨bodyEvent, [(0, 14)]⟩, ⟨bodyCommandComplete, [(1, 64854)]⟩, ⟨bodyLeBatchScanComplete, []⟩]⟩,
  ⟨"LeBatchScanEnableComplete", [⟨bodyEvent, [(0, 14)]⟩, ⟨bodyCommandComplete, [(1, 64854)]⟩, ⟨bodyLeBatchScanComplete, [(1, 1)]⟩, ⟨bodyLeBatchScanEnableComplete, []⟩]⟩,
  ⟨"LeBatchScanSetStorageParametersComplete", [⟨bodyEvent, [(0, 14)]⟩, ⟨bodyCommandComplete, [(1, 64854)]⟩, ⟨bodyLeBatchScanComplete, [(1, 2)]⟩, ⟨bodyLeBatchScanSetStorageParametersComplete, []⟩]⟩,
  ⟨"LeBatchScanSetScanParametersComplete", [⟨bodyEvent, [(0, 14)]⟩, ⟨bodyCommandComplete, [(1, 64854)]⟩, ⟨bodyLeBatchScanComplete, [(1, 3)]⟩, ⟨bodyLeBatchScanSetScanParametersComplete, []⟩]⟩,
  ⟨"LeBatchScanReadResultParametersComplete", [⟨bodyEvent, [(0, 14)]⟩, ⟨bodyCommandComplete, [(1, 64854)]⟩, ⟨bodyLeBatchScanComplete, [(1, 4)]⟩, ⟨bodyLeBatchScanReadResultParametersComplete, []⟩]⟩,
  ⟨"LeBatchScanReadTruncatedResultParametersComplete", [⟨bodyEvent, [(0, 14)]⟩, ⟨bodyCommandComplete, [(1, 64854)]⟩, ⟨bodyLeBatchScanComplete, [(1, 4)]⟩, ⟨bodyLeBatchScanReadResultParametersComplete, [(0, 1)]⟩, ⟨bodyLeBatchScanReadTruncatedResultParametersComplete, []⟩]⟩,
  ⟨"LeBatchScanReadFullResultParametersComplete", [⟨bodyEvent, [(0, 14)]⟩, ⟨bodyCommandComplete, [(1, 64854)]⟩, ⟨bodyLeBatchScanComplete, [(1, 4)]⟩, ⟨bodyLeBatchScanReadResultParametersComplete, [(0, 2)]⟩, ⟨bodyLeBatchScanReadFullResultParametersComplete, []⟩]⟩,
  ⟨"StorageThresholdBreachEvent", [⟨bodyEvent, [(0, 255)]⟩, ⟨bodyVendorSpecificEvent, [(0, 84)]⟩, ⟨bodyStorageThresholdBreachEvent, []⟩]⟩,
  ⟨"LeApcfComplete", [⟨bodyEvent, [(0, 14)]⟩, ⟨bodyCommandComplete, [(1, 64855)]⟩, ⟨bodyLeApcfComplete, []⟩]⟩,
  ⟨"LeApcfEnableComplete", [⟨bodyEvent, [(0, 14)]⟩, ⟨bodyCommandComplete, [(1, 64855)]⟩, ⟨bodyLeApcfComplete, [(1, 0)]⟩, ⟨bodyLeApcfEnableComplete, []⟩]⟩,
  ⟨"LeApcfSetFilteringParametersComplete", [⟨bodyEvent, [(0, 14)]⟩, ⟨bodyCommandComplete, [(1, 64855)]⟩, ⟨bodyLeApcfComplete, [(1, 1)]⟩, ⟨bodyLeApcfSetFilteringParametersComplete, []⟩]⟩,
  ⟨"LeApcfBroadcasterAddressComplete", [⟨bodyEvent, [(0, 14)]⟩, ⟨bodyCommandComplete, [(1, 64855)]⟩, ⟨bodyLeApcfComplete, [(1, 2)]⟩, ⟨bodyLeApcfBroadcasterAddressComplete, []⟩]⟩,
  ⟨"LeApcfServiceUuidComplete", [⟨bodyEvent, [(0, 14)]⟩, ⟨bodyCommandComplete, [(1, 64855)]⟩, ⟨bodyLeApcfComplete, [(1, 3)]⟩, ⟨bodyLeApcfServiceUuidComplete, []⟩]⟩,
  ⟨"LeApcfServiceSolicitationUuidComplete", [⟨bodyEvent, [(0, 14)]⟩, ⟨bodyCommandComplete, [(1, 64855)]⟩, ⟨bodyLeApcfComplete, [(1, 4)]⟩, ⟨bodyLeApcfServiceSolicitationUuidComplete, []⟩]⟩,
  ⟨"LeApcfLocalNameComplete", [⟨bodyEvent, [(0, 14)]⟩, ⟨bodyCommandComplete, [(1, 64855)]⟩, ⟨bodyLeApcfComplete, [(1, 5)]⟩, ⟨bodyLeApcfLocalNameComplete, []⟩]⟩,
  ⟨"LeApcfManufacturerDataComplete", [⟨bodyEvent, [(0, 14)]⟩, ⟨bodyCommandComplete, [(1, 64855)]⟩, ⟨bodyLeApcfComplete, [(1, 6)]⟩, ⟨bodyLeApcfManufacturerDataComplete, []⟩]⟩]

/-- Event and the packets derived from it, in the order of packets/hci_packets.pdl (part 5). -/
def packetsEvent4 : List Packet := [
  ⟨"LeApcfServiceDataComplete", [⟨bodyEvent, [(0, 14)]⟩, ⟨bodyCommandComplete, [(1, 64855)]⟩, ⟨bodyLeApcfComplete, [(1, 7)]⟩, ⟨bodyLeApcfServiceDataComplete, []⟩]⟩,
  ⟨"LeApcfAdTypeFilterComplete", [⟨bodyEvent, [(0, 14)]⟩, ⟨bodyCommandComplete, [(1, 64855)]⟩, ⟨bodyLeApcfComplete, [(1, 9)]⟩, ⟨bodyLeApcfAdTypeFilterComplete, []⟩]⟩,
  ⟨"LeApcfTransportDiscoveryServiceComplete", [⟨bodyEvent, [(0, 14)]⟩, ⟨bodyCommandComplete, [(1, 64855)]⟩, ⟨bodyLeApcfComplete, [(1, 8)]⟩, ⟨bodyLeApcfTransportDiscoveryServiceComplete, []⟩]⟩,
  ⟨"LeApcfReadExtendedFeaturesComplete", [⟨bodyEvent, [(0, 14)]⟩, ⟨bodyCommandComplete, [(1, 64855)]⟩, ⟨bodyLeApcfComplete, [(1, 255)]⟩, ⟨bodyLeApcfReadExtendedFeaturesComplete, []⟩]⟩,
  ⟨"LeAdvertisementTrackingEvent", [⟨bodyEvent, [(0, 255)]⟩, ⟨bodyVendorSpecificEvent, [(0, 86)]⟩, ⟨bodyLeAdvertisementTrackingEvent, []⟩]⟩,
  ⟨"LeGetControllerActivityEnergyInfoComplete", [⟨bodyEvent, [(0, 14)]⟩, ⟨bodyCommandComplete, [(1, 64857)]⟩, ⟨bodyLeGetControllerActivityEnergyInfoComplete, []⟩]⟩,
  ⟨"LeExSetScanParametersComplete", [⟨bodyEvent, [(0, 14)]⟩, ⟨bodyCommandComplete, [(1, 64858)]⟩, ⟨bodyLeExSetScanParametersComplete, []⟩]⟩,
  ⟨"GetControllerDebugInfoComplete", [⟨bodyEvent, [(0, 14)]⟩, ⟨bodyCommandComplete, [(1, 64859)]⟩, ⟨bodyGetControllerDebugInfoComplete, []⟩]⟩,
  ⟨"ControllerDebugInfoEvent", [⟨bodyEvent, [(0, 255)]⟩, ⟨bodyVendorSpecificEvent, [(0, 87)]⟩, ⟨bodyControllerDebugInfoEvent, []⟩]⟩]

/-- Event and the packets derived from it, in the order of packets/hci_packets.pdl. -/
def packetsEvent : List Packet := packetsEvent0 ++ packetsEvent1 ++ packetsEvent2 ++ packetsEvent3 ++ packetsEvent4

/-- Iso and the packets derived from it, in the order of packets/hci_packets.pdl (part 1). -/
def packetsIso0 : List Packet := [
  ⟨"Iso", [⟨bodyIso, []⟩]⟩,
  ⟨"IsoWithTimestamp", [⟨bodyIso, [(2, 1)]⟩, ⟨bodyIsoWithTimestamp, []⟩]⟩,
  ⟨"IsoWithoutTimestamp", [⟨bodyIso, [(2, 0)]⟩, ⟨bodyIsoWithoutTimestamp, []⟩]⟩]

/-- Iso and the packets derived from it, in the order of packets/hci_packets.pdl. -/
def packetsIso : List Packet := packetsIso0

end Verif.Pdl.Hci
