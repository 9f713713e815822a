import Verif.Cfg.Basic
/-! # The requirements C1 to C221

Generated by tools/gen_cfg.py from controller_properties.cc 823-1320. -/
namespace Verif.Cfg

/-- The names of the requirements in `CheckSupportedCommands`. -/
inductive Cond
  | mandatory
  | optional
  | excluded
  | c1
  | c2
  | c3
  | c4
  | c6
  | c7
  | c8
  | c9
  | c10
  | c11
  | c12
  | c13
  | c15
  | c16
  | c17
  | c18
  | c19
  | c20
  | c21
  | c22
  | c25
  | c26
  | c27
  | c28
  | c29
  | c30
  | c31
  | c32
  | c33
  | c34
  | c35
  | c36
  | c37
  | c39
  | c40
  | c41
  | c42
  | c44
  | c45
  | c46
  | c47
  | c49
  | c50
  | c51
  | c52
  | c53
  | c55
  | c57
  | c58
  | c59
  | c60
  | c61
  | c62
  | c64
  | c75
  | c76
  | c94
  | c96
  | c97
  | c98
  | c99
  | c103
  | c106
  | c107
  | c108
  | c109
  | c111
  | c112
  | c113
  | c114
  | c115
  | c116
  | c117
  | c118
  | c119
  | c120
  | c121
  | c122
  | c123
  | c124
  | c125
  | c127
  | c128
  | c129
  | c133
  | c134
  | c135
  | c136
  | c138
  | c139
  | c140
  | c141
  | c142
  | c143
  | c145
  | c146
  | c148
  | c151
  | c152
  | c153
  | c154
  | c155
  | c156
  | c157
  | c201
  | c202
  | c203
  | c204
  | c205
  | c212
  | c213
  | c214
  | c215
  | c217
  | c218
  | c220
  | c221
  deriving DecidableEq, Repr

/-- The local variables `c1` to `c221`, controller_properties.cc 823-1320; the lines are given at each. -/
def Props.need (p : Props) : Cond → Requirement
  | .mandatory => .mandatory
  | .optional => .optional
  | .excluded => .excluded
  -- 825-825
  | .c1 => .mandatory
  -- 828-828
  | .c2 => .mandatory
  -- 831-831
  | .c3 => .mandatory
  -- 834-834
  | .c4 => mandatoryOrExcluded (p.ll Ll.leEncryption)
  -- 837-838
  | .c6 => mandatoryOrExcluded (p.ll Ll.connectionParametersRequestProcedure)
  -- 841-842
  | .c7 => mandatoryOrExcluded (p.ll Ll.leEncryption && p.ll Ll.lePing)
  -- 845-846
  | .c8 => mandatoryOrOptional (p.ll Ll.leDataPacketLengthExtension)
  -- 848-848
  | .c9 => mandatoryOrExcluded (p.ll Ll.llPrivacy)
  -- 850-850
  | .c10 => optionalOrExcluded (p.ll Ll.llPrivacy)
  -- 853-854
  | .c11 => mandatoryOrOptional (p.ll Ll.le2mPhy || p.ll Ll.leCodedPhy)
  -- 859-862
  | .c12 => mandatoryOrExcluded (p.ll Ll.le2mPhy || p.ll Ll.leCodedPhy || p.ll Ll.stableModulationIndexTransmitter)
  -- 867-870
  | .c13 => mandatoryOrExcluded (p.ll Ll.le2mPhy || p.ll Ll.leCodedPhy || p.ll Ll.stableModulationIndexReceiver)
  -- 873-873
  | .c15 => .mandatory
  -- 877-877
  | .c16 => mandatoryOrExcluded (p.ll Ll.lePeriodicAdvertising)
  -- 880-880
  | .c17 => mandatoryOrExcluded (p.ll Ll.leExtendedAdvertising)
  -- 883-883
  | .c18 => mandatoryOrExcluded (p.ll Ll.lePeriodicAdvertising)
  -- 886-886
  | .c19 => mandatoryOrExcluded (p.ll Ll.leExtendedAdvertising)
  -- 889-889
  | .c20 => mandatoryOrExcluded (p.ll Ll.leExtendedAdvertising)
  -- 892-892
  | .c21 => mandatoryOrExcluded (p.ll Ll.lePeriodicAdvertising)
  -- 896-896
  | .c22 => .mandatory
  -- 907-907
  | .c25 => mandatoryOrExcluded (p.ll Ll.connectionCteRequest)
  -- 910-910
  | .c26 => mandatoryOrExcluded (p.ll Ll.connectionCteResponse)
  -- 913-914
  | .c27 => mandatoryOrExcluded (p.ll Ll.connectionlessCteTransmitter)
  -- 917-917
  | .c28 => mandatoryOrExcluded (p.ll Ll.connectionlessCteReceiver)
  -- 921-923
  | .c29 => mandatoryOrOptional (p.ll Ll.connectionCteResponse || p.ll Ll.connectionlessCteTransmitter)
  -- 927-928
  | .c30 => mandatoryOrOptional (p.ll Ll.connectionCteRequest || p.ll Ll.connectionlessCteReceiver)
  -- 932-936
  | .c31 => mandatoryOrExcluded (p.ll Ll.connectionCteRequest || p.ll Ll.connectionCteResponse || p.ll Ll.connectionlessCteTransmitter || p.ll Ll.connectionlessCteReceiver)
  -- 941-943
  | .c32 => mandatoryOrOptionalOrExcluded (p.ll Ll.periodicAdvertisingSyncTransferRecipient) (p.ll Ll.lePeriodicAdvertising)
  -- 947-948
  | .c33 => mandatoryOrExcluded (p.ll Ll.periodicAdvertisingSyncTransferSender)
  -- 952-953
  | .c34 => mandatoryOrExcluded (p.ll Ll.periodicAdvertisingSyncTransferSender)
  -- 956-957
  | .c35 => mandatoryOrExcluded (p.ll Ll.periodicAdvertisingSyncTransferRecipient)
  -- 963-963
  | .c36 => .mandatory
  -- 966-966
  | .c37 => mandatoryOrExcluded (p.ll Ll.sleepClockAccuracyUpdates)
  -- 973-974
  | .c39 => mandatoryOrExcluded (p.ll Ll.connectedIsochronousStreamCentral)
  -- 977-978
  | .c40 => mandatoryOrExcluded (p.ll Ll.connectedIsochronousStreamPeripheral)
  -- 981-981
  | .c41 => mandatoryOrExcluded (p.ll Ll.isochronousBroadcaster)
  -- 984-984
  | .c42 => mandatoryOrExcluded (p.ll Ll.synchronizedReceiver)
  -- 989-993
  | .c44 => mandatoryOrOptionalOrExcluded (p.ll Ll.sleepClockAccuracyUpdates && (p.ll Ll.connectedIsochronousStreamCentral || p.ll Ll.connectedIsochronousStreamPeripheral)) (p.ll Ll.sleepClockAccuracyUpdates)
  -- 997-1000
  | .c45 => mandatoryOrExcluded (p.ll Ll.connectedIsochronousStreamCentral || p.ll Ll.connectedIsochronousStreamPeripheral || p.ll Ll.isochronousBroadcaster)
  -- 1004-1007
  | .c46 => mandatoryOrExcluded (p.ll Ll.connectedIsochronousStreamCentral || p.ll Ll.connectedIsochronousStreamPeripheral || p.ll Ll.synchronizedReceiver)
  -- 1012-1016
  | .c47 => mandatoryOrExcluded (p.ll Ll.connectedIsochronousStreamCentral || p.ll Ll.connectedIsochronousStreamPeripheral || p.ll Ll.isochronousBroadcaster || p.ll Ll.synchronizedReceiver)
  -- 1020-1023
  | .c49 => mandatoryOrOptional (p.ll Ll.connectedIsochronousStreamCentral || p.ll Ll.connectedIsochronousStreamPeripheral || p.ll Ll.connectionSubrating)
  -- 1027-1030
  | .c50 => optionalOrExcluded (p.ll Ll.connectedIsochronousStreamCentral || p.ll Ll.connectedIsochronousStreamPeripheral || p.ll Ll.synchronizedReceiver)
  -- 1033-1033
  | .c51 => mandatoryOrExcluded (p.ll Ll.lePowerControlRequest)
  -- 1036-1036
  | .c52 => mandatoryOrExcluded (p.ll Ll.lePathLossMonitoring)
  -- 1040-1040
  | .c53 => mandatoryOrOptional (p.ll Ll.lePowerControlRequest)
  -- 1049-1052
  | .c55 => mandatoryOrOptional (p.ll Ll.connectedIsochronousStreamCentral || p.ll Ll.connectedIsochronousStreamPeripheral || p.ll Ll.isochronousBroadcaster)
  -- 1058-1058
  | .c57 => mandatoryOrExcluded (p.ll Ll.connectionSubrating)
  -- 1061-1061
  | .c58 => mandatoryOrExcluded (p.ll Ll.channelClassification)
  -- 1064-1064
  | .c59 => .mandatory
  -- 1067-1067
  | .c60 => mandatoryOrExcluded (p.ll Ll.leEncryption)
  -- 1070-1070
  | .c61 => mandatoryOrExcluded (p.ll Ll.leEncryption)
  -- 1074-1074
  | .c62 => .mandatory
  -- 1080-1080
  | .c64 => .optional
  -- 1083-1083
  | .c75 => mandatoryOrExcluded (p.ll Ll.channelSounding)
  -- 1086-1089
  | .c76 => mandatoryOrExcluded (p.ll Ll.channelSounding && (p.roles &&& 1 != 0))
  -- 1092-1093
  | .c94 => mandatoryOrExcluded (p.command 264 || p.command 377)
  -- 1099-1099
  | .c96 => .optional
  -- 1101-1101
  | .c97 => .mandatory
  -- 1103-1103
  | .c98 => .mandatory
  -- 1106-1106
  | .c99 => mandatoryOrOptional (p.command 412)
  -- 1115-1115
  | .c103 => mandatoryOrExcluded (p.command 2)
  -- 1124-1124
  | .c106 => mandatoryOrExcluded (p.command 23)
  -- 1127-1128
  | .c107 => mandatoryOrExcluded (p.command 105)
  -- 1131-1131
  | .c108 => mandatoryOrOptional (p.command 304)
  -- 1134-1134
  | .c109 => mandatoryOrExcluded (p.command 300)
  -- 1140-1140
  | .c111 => mandatoryOrExcluded (p.command 85)
  -- 1143-1144
  | .c112 => mandatoryOrExcluded (p.command 183)
  -- 1147-1147
  | .c113 => mandatoryOrExcluded (p.command 333)
  -- 1150-1150
  | .c114 => mandatoryOrExcluded (p.command 331)
  -- 1153-1153
  | .c115 => mandatoryOrExcluded (p.command 127)
  -- 1156-1156
  | .c116 => mandatoryOrExcluded (p.command 246)
  -- 1159-1159
  | .c117 => mandatoryOrExcluded (p.command 111)
  -- 1162-1162
  | .c118 => mandatoryOrExcluded (p.command 97)
  -- 1165-1165
  | .c119 => mandatoryOrExcluded (p.command 131)
  -- 1168-1168
  | .c120 => mandatoryOrExcluded (p.command 63)
  -- 1171-1171
  | .c121 => mandatoryOrExcluded (p.command 66)
  -- 1174-1175
  | .c122 => mandatoryOrExcluded (p.command 104)
  -- 1177-1177
  | .c123 => .mandatory
  -- 1180-1180
  | .c124 => .excluded
  -- 1182-1182
  | .c125 => .mandatory
  -- 1186-1186
  | .c127 => .mandatory
  -- 1188-1188
  | .c128 => .optional
  -- 1190-1190
  | .c129 => .excluded
  -- 1196-1201
  | .c133 => mandatoryOrExcluded (p.lmp0 Lmp0.hv2Packets || p.lmp0 Lmp0.hv3Packets || p.lmp0 Lmp0.enhancedDataRateAcl2MbSMode || p.lmp0 Lmp0.enhancedDataRateAcl3MbSMode || p.lmp0 Lmp0.lmp3SlotEnhancedDataRateAclPackets)
  -- 1203-1204
  | .c134 => mandatoryOrExcluded (p.lmp0 Lmp0.scoLink || p.lmp0 Lmp0.extendedScoLink)
  -- 1206-1207
  | .c135 => optionalOrExcluded (p.lmp0 Lmp0.scoLink || p.lmp0 Lmp0.extendedScoLink)
  -- 1209-1210
  | .c136 => optionalOrExcluded (p.lmp2 Lmp2.slotAvailabilityMask)
  -- 1213-1215
  | .c138 => mandatoryOrOptionalOrExcluded (p.lmp2 Lmp2.secureConnectionsControllerSupport) (p.lmp0 Lmp0.extendedScoLink)
  -- 1218-1220
  | .c139 => mandatoryOrExcluded (p.lmp0 Lmp0.afhCapableCentral || p.lmp0 Lmp0.afhCapablePeripheral)
  -- 1223-1226
  | .c140 => mandatoryOrExcluded (p.lmp0 Lmp0.afhClassificationCentral || p.lmp0 Lmp0.afhClassificationPeripheral || p.lmp0 Lmp0.afhCapableCentral)
  -- 1229-1231
  | .c141 => mandatoryOrExcluded (p.lmp0 Lmp0.roleSwitch || p.lmp0 Lmp0.holdMode || p.lmp0 Lmp0.sniffMode)
  -- 1234-1234
  | .c142 => .mandatory
  -- 1237-1238
  | .c143 => mandatoryOrExcluded (p.lmp2 Lmp2.secureConnectionsControllerSupport)
  -- 1244-1244
  | .c145 => .mandatory
  -- 1248-1248
  | .c146 => .mandatory
  -- 1256-1256
  | .c148 => .mandatory
  -- 1259-1261
  | .c151 => mandatoryOrExcluded (p.lmp2 Lmp2.secureConnectionsControllerSupport && p.lmp2 Lmp2.ping)
  -- 1263-1263
  | .c152 => mandatoryOrExcluded (p.lmp0 Lmp0.powerControl)
  -- 1265-1266
  | .c153 => mandatoryOrExcluded (p.lmp0 Lmp0.leSupportedController)
  -- 1268-1268
  | .c154 => mandatoryOrExcluded (p.lmp0 Lmp0.interlacedPageScan)
  -- 1271-1272
  | .c155 => mandatoryOrExcluded (p.command 325)
  -- 1275-1275
  | .c156 => mandatoryOrExcluded (p.command 452)
  -- 1278-1278
  | .c157 => mandatoryOrOptional (p.command 452)
  -- 1284-1285
  | .c201 => mandatoryOrExcluded (p.lmp2 Lmp2.connectionlessPeripheralBroadcastTransmitterOperation)
  -- 1288-1289
  | .c202 => mandatoryOrExcluded (p.lmp2 Lmp2.connectionlessPeripheralBroadcastReceiverOperation)
  -- 1291-1292
  | .c203 => mandatoryOrExcluded (p.lmp2 Lmp2.synchronizationTrain)
  -- 1294-1294
  | .c204 => mandatoryOrExcluded (p.lmp2 Lmp2.synchronizationScan)
  -- 1297-1298
  | .c205 => mandatoryOrExcluded (p.lmp0 Lmp0.extendedInquiryResponse)
  -- 1300-1300
  | .c212 => mandatoryOrExcluded (p.lmp0 Lmp0.roleSwitch)
  -- 1302-1302
  | .c213 => mandatoryOrExcluded (p.lmp0 Lmp0.holdMode)
  -- 1304-1304
  | .c214 => mandatoryOrExcluded (p.lmp0 Lmp0.sniffMode)
  -- 1306-1306
  | .c215 => mandatoryOrExcluded (p.lmp0 Lmp0.broadcastEncryption)
  -- 1309-1310
  | .c217 => mandatoryOrExcluded (p.lmp0 Lmp0.enhancedPowerControl)
  -- 1313-1314
  | .c218 => mandatoryOrExcluded (p.lmp2 Lmp2.secureConnectionsControllerSupport)
  -- 1318-1318
  | .c220 => mandatoryOrExcluded (p.lmp0 Lmp0.extendedFeatures)
  -- 1320-1320
  | .c221 => mandatoryOrExcluded (p.lmp0 Lmp0.sniffSubrating)

end Verif.Cfg
