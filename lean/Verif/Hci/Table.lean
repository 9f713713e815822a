/-!
# The command tables of the controller

Written by `tools/gen_hci.py` from the sources; do not edit.
-/
namespace Verif.Hci

/-- A statement of a command handler (model/controller/dual_mode_controller.cc 319-3562). The conditions are
not kept; calls of the BR/EDR and LE controllers that do not answer the host are left out.
* `check op`: `XView::Create(command)` and `CHECK_PACKET_VIEW`; `op` is the opcode of `X`, or of the command
  `X` is a part of (packets/hci_packets.pdl);
* `complete op`, `status op`: a Command Complete or Command Status event with this opcode;
* `event code`: another event;
* `later`: an event or packet sent by a task;
* `toLm`, `toLl`: the command goes to the link manager or the link layer in rust/src;
* `invalid`: `invalid_packet_handler_`;
* `fatal`: `FATAL`, or a failed `ASSERT`;
* `csr`: `CsrVendorCommand` (3126-3223), see `Verif.Hci.csr`. -/
inductive Stmt
  | check (op : Nat)
  | complete (op : Nat)
  | status (op : Nat)
  | event (code : Nat)
  | later
  | toLm
  | toLl
  | invalid
  | fatal
  | csr
  | ite (a b : List Stmt)
  | loop (a : List Stmt)
  | ret

/-- `GetHciCommandHandlers`, dual_mode_controller.cc 4016-4545, with the bodies of the handlers. -/
def handlers : List (Nat × List Stmt) := [
  -- INQUIRY: Inquiry, 1436-1450
  (0x0401, [.check 0x0401, .status 0x0401]),
  -- INQUIRY_CANCEL: InquiryCancel, 1452-1460
  (0x0402, [.check 0x0402, .complete 0x0402]),
  -- CREATE_CONNECTION: CreateConnection, 2077-2099
  (0x0405, [.check 0x0405, .status 0x0405]),
  -- DISCONNECT: Disconnect, 2115-2135
  (0x0406, [.check 0x0406, .ite [.toLl, .ret] [], .status 0x0406]),
  -- ADD_SCO_CONNECTION: AddScoConnection, 567-579
  (0x0407, [.check 0x0407, .status 0x0407]),
  -- CREATE_CONNECTION_CANCEL: CreateConnectionCancel, 2101-2113
  (0x0408, [.check 0x0408, .complete 0x0408]),
  -- ACCEPT_CONNECTION_REQUEST: AcceptConnectionRequest, 1462-1476
  (0x0409, [.check 0x0409, .status 0x0409]),
  -- REJECT_CONNECTION_REQUEST: RejectConnectionRequest, 1478-1491
  (0x040a, [.check 0x040a, .status 0x040a]),
  -- LINK_KEY_REQUEST_REPLY: ForwardToLm, 125-128
  (0x040b, [.toLm]),
  -- LINK_KEY_REQUEST_NEGATIVE_REPLY: ForwardToLm, 125-128
  (0x040c, [.toLm]),
  -- PIN_CODE_REQUEST_REPLY: ForwardToLm, 125-128
  (0x040d, [.toLm]),
  -- PIN_CODE_REQUEST_NEGATIVE_REPLY: ForwardToLm, 125-128
  (0x040e, [.toLm]),
  -- CHANGE_CONNECTION_PACKET_TYPE: ChangeConnectionPacketType, 779-793
  (0x040f, [.check 0x040f, .status 0x040f]),
  -- AUTHENTICATION_REQUESTED: ForwardToLm, 125-128
  (0x0411, [.toLm]),
  -- SET_CONNECTION_ENCRYPTION: ForwardToLm, 125-128
  (0x0413, [.toLm]),
  -- CHANGE_CONNECTION_LINK_KEY: ChangeConnectionLinkKey, 905-917
  (0x0415, [.check 0x0415, .status 0x0415]),
  -- CENTRAL_LINK_KEY: CentralLinkKey, 919-930
  (0x0417, [.check 0x0417, .status 0x0417]),
  -- REMOTE_NAME_REQUEST: RemoteNameRequest, 1503-1516
  (0x0419, [.check 0x0419, .status 0x0419]),
  -- READ_REMOTE_SUPPORTED_FEATURES: ReadRemoteSupportedFeatures, 540-551
  (0x041b, [.check 0x041b, .status 0x041b]),
  -- READ_REMOTE_EXTENDED_FEATURES: ReadRemoteExtendedFeatures, 512-525
  (0x041c, [.check 0x041c, .status 0x041c]),
  -- READ_REMOTE_VERSION_INFORMATION: ReadRemoteVersionInformation, 438-455
  (0x041d, [.check 0x041d, .status 0x041d]),
  -- READ_CLOCK_OFFSET: ReadClockOffset, 553-563
  (0x041f, [.check 0x041f, .status 0x041f]),
  -- SETUP_SYNCHRONOUS_CONNECTION: SetupSynchronousConnection, 581-598
  (0x0428, [.check 0x0428, .status 0x0428]),
  -- ACCEPT_SYNCHRONOUS_CONNECTION: AcceptSynchronousConnection, 600-617
  (0x0429, [.check 0x0429, .status 0x0429]),
  -- REJECT_SYNCHRONOUS_CONNECTION: RejectSynchronousConnection, 669-682
  (0x042a, [.check 0x042a, .status 0x042a]),
  -- IO_CAPABILITY_REQUEST_REPLY: ForwardToLm, 125-128
  (0x042b, [.toLm]),
  -- USER_CONFIRMATION_REQUEST_REPLY: ForwardToLm, 125-128
  (0x042c, [.toLm]),
  -- USER_CONFIRMATION_REQUEST_NEGATIVE_REPLY: ForwardToLm, 125-128
  (0x042d, [.toLm]),
  -- USER_PASSKEY_REQUEST_REPLY: ForwardToLm, 125-128
  (0x042e, [.toLm]),
  -- USER_PASSKEY_REQUEST_NEGATIVE_REPLY: ForwardToLm, 125-128
  (0x042f, [.toLm]),
  -- REMOTE_OOB_DATA_REQUEST_REPLY: ForwardToLm, 125-128
  (0x0430, [.toLm]),
  -- REMOTE_OOB_DATA_REQUEST_NEGATIVE_REPLY: ForwardToLm, 125-128
  (0x0433, [.toLm]),
  -- IO_CAPABILITY_REQUEST_NEGATIVE_REPLY: ForwardToLm, 125-128
  (0x0434, [.toLm]),
  -- ENHANCED_SETUP_SYNCHRONOUS_CONNECTION: EnhancedSetupSynchronousConnection, 619-642
  (0x043d, [.check 0x043d, .status 0x043d]),
  -- ENHANCED_ACCEPT_SYNCHRONOUS_CONNECTION: EnhancedAcceptSynchronousConnection, 644-667
  (0x043e, [.check 0x043e, .status 0x043e]),
  -- REMOTE_OOB_EXTENDED_DATA_REQUEST_REPLY: ForwardToLm, 125-128
  (0x0445, [.toLm]),
  -- HOLD_MODE: HoldMode, 1002-1015
  (0x0801, [.check 0x0801, .status 0x0801]),
  -- SNIFF_MODE: SniffMode, 1017-1033
  (0x0803, [.check 0x0803, .status 0x0803]),
  -- EXIT_SNIFF_MODE: ExitSniffMode, 1035-1045
  (0x0804, [.check 0x0804, .status 0x0804]),
  -- QOS_SETUP: QosSetup, 1047-1064
  (0x0807, [.check 0x0807, .status 0x0807]),
  -- ROLE_DISCOVERY: RoleDiscovery, 1066-1079
  (0x0809, [.check 0x0809, .complete 0x0809]),
  -- SWITCH_ROLE: SwitchRole, 527-538
  (0x080b, [.check 0x080b, .status 0x080b]),
  -- READ_LINK_POLICY_SETTINGS: ReadLinkPolicySettings, 1142-1155
  (0x080c, [.check 0x080c, .complete 0x080c]),
  -- WRITE_LINK_POLICY_SETTINGS: WriteLinkPolicySettings, 1157-1171
  (0x080d, [.check 0x080d, .complete 0x080d]),
  -- READ_DEFAULT_LINK_POLICY_SETTINGS: ReadDefaultLinkPolicySettings, 1081-1091
  (0x080e, [.check 0x080e, .complete 0x080e]),
  -- WRITE_DEFAULT_LINK_POLICY_SETTINGS: WriteDefaultLinkPolicySettings, 1093-1104
  (0x080f, [.check 0x080f, .complete 0x080f]),
  -- FLOW_SPECIFICATION: FlowSpecification, 1121-1140
  (0x0810, [.check 0x0810, .status 0x0810]),
  -- SNIFF_SUBRATING: SniffSubrating, 1106-1119
  (0x0811, [.check 0x0811, .complete 0x0811]),
  -- SET_EVENT_MASK: SetEventMask, 823-834
  (0x0c01, [.check 0x0c01, .complete 0x0c01]),
  -- RESET: Reset, 319-331
  (0x0c03, [.check 0x0c03, .complete 0x0c03]),
  -- SET_EVENT_FILTER: SetEventFilter, 1421-1434
  (0x0c05, [.check 0x0c05, .ite [.fatal] [], .complete 0x0c05]),
  -- DELETE_STORED_LINK_KEY: DeleteStoredLinkKey, 1493-1501
  (0x0c12, [.check 0x0c12, .complete 0x0c12]),
  -- WRITE_LOCAL_NAME: WriteLocalName, 1198-1207
  (0x0c13, [.check 0x0c13, .complete 0x0c13]),
  -- READ_LOCAL_NAME: ReadLocalName, 1188-1196
  (0x0c14, [.check 0x0c14, .complete 0x0c14]),
  -- READ_CONNECTION_ACCEPT_TIMEOUT: ReadConnectionAcceptTimeout, 3455-3463
  (0x0c15, [.check 0x0c15, .complete 0x0c15]),
  -- WRITE_CONNECTION_ACCEPT_TIMEOUT: WriteConnectionAcceptTimeout, 3465-3475
  (0x0c16, [.check 0x0c16, .complete 0x0c16]),
  -- READ_PAGE_TIMEOUT: ReadPageTimeout, 979-988
  (0x0c17, [.check 0x0c17, .complete 0x0c17]),
  -- WRITE_PAGE_TIMEOUT: WritePageTimeout, 990-1000
  (0x0c18, [.check 0x0c18, .complete 0x0c18]),
  -- READ_SCAN_ENABLE: ReadScanEnable, 1335-1346
  (0x0c19, [.check 0x0c19, .complete 0x0c19]),
  -- WRITE_SCAN_ENABLE: WriteScanEnable, 1348-1359
  (0x0c1a, [.check 0x0c1a, .complete 0x0c1a]),
  -- READ_PAGE_SCAN_ACTIVITY: ReadPageScanActivity, 1291-1301
  (0x0c1b, [.check 0x0c1b, .complete 0x0c1b]),
  -- WRITE_PAGE_SCAN_ACTIVITY: WritePageScanActivity, 1303-1311
  (0x0c1c, [.check 0x0c1c, .complete 0x0c1c]),
  -- READ_INQUIRY_SCAN_ACTIVITY: ReadInquiryScanActivity, 1313-1323
  (0x0c1d, [.check 0x0c1d, .complete 0x0c1d]),
  -- WRITE_INQUIRY_SCAN_ACTIVITY: WriteInquiryScanActivity, 1325-1333
  (0x0c1e, [.check 0x0c1e, .complete 0x0c1e]),
  -- READ_AUTHENTICATION_ENABLE: ReadAuthenticationEnable, 945-955
  (0x0c1f, [.check 0x0c1f, .complete 0x0c1f]),
  -- WRITE_AUTHENTICATION_ENABLE: WriteAuthenticationEnable, 932-943
  (0x0c20, [.check 0x0c20, .complete 0x0c20]),
  -- READ_CLASS_OF_DEVICE: ReadClassOfDevice, 957-965
  (0x0c23, [.check 0x0c23, .complete 0x0c23]),
  -- WRITE_CLASS_OF_DEVICE: WriteClassOfDevice, 967-977
  (0x0c24, [.check 0x0c24, .complete 0x0c24]),
  -- READ_VOICE_SETTING: ReadVoiceSetting, 1237-1245
  (0x0c25, [.check 0x0c25, .complete 0x0c25]),
  -- WRITE_VOICE_SETTING: WriteVoiceSetting, 1247-1258
  (0x0c26, [.check 0x0c26, .complete 0x0c26]),
  -- READ_TRANSMIT_POWER_LEVEL: ReadTransmitPowerLevel, 1361-1375
  (0x0c2d, [.check 0x0c2d, .complete 0x0c2d]),
  -- READ_SYNCHRONOUS_FLOW_CONTROL_ENABLE: ReadSynchronousFlowControlEnable, 1394-1406
  (0x0c2e, [.check 0x0c2e, .complete 0x0c2e]),
  -- WRITE_SYNCHRONOUS_FLOW_CONTROL_ENABLE: WriteSynchronousFlowControlEnable, 1408-1419
  (0x0c2f, [.check 0x0c2f, .complete 0x0c2f]),
  -- HOST_BUFFER_SIZE: HostBufferSize, 411-419
  (0x0c33, [.check 0x0c33, .complete 0x0c33]),
  -- WRITE_LINK_SUPERVISION_TIMEOUT: WriteLinkSupervisionTimeout, 1173-1186
  (0x0c37, [.check 0x0c37, .complete 0x0c37]),
  -- READ_NUMBER_OF_SUPPORTED_IAC: ReadNumberOfSupportedIac, 1260-1268
  (0x0c38, [.check 0x0c38, .complete 0x0c38]),
  -- READ_CURRENT_IAC_LAP: ReadCurrentIacLap, 1270-1278
  (0x0c39, [.check 0x0c39, .complete 0x0c39]),
  -- WRITE_CURRENT_IAC_LAP: WriteCurrentIacLap, 1280-1289
  (0x0c3a, [.check 0x0c3a, .complete 0x0c3a]),
  -- READ_INQUIRY_SCAN_TYPE: ReadInquiryScanType, 882-891
  (0x0c42, [.check 0x0c42, .complete 0x0c42]),
  -- WRITE_INQUIRY_SCAN_TYPE: WriteInquiryScanType, 893-903
  (0x0c43, [.check 0x0c43, .complete 0x0c43]),
  -- READ_INQUIRY_MODE: ReadInquiryMode, 836-845
  (0x0c44, [.check 0x0c44, .complete 0x0c44]),
  -- WRITE_INQUIRY_MODE: WriteInquiryMode, 847-857
  (0x0c45, [.check 0x0c45, .complete 0x0c45]),
  -- READ_PAGE_SCAN_TYPE: ReadPageScanType, 859-868
  (0x0c46, [.check 0x0c46, .complete 0x0c46]),
  -- WRITE_PAGE_SCAN_TYPE: WritePageScanType, 870-880
  (0x0c47, [.check 0x0c47, .complete 0x0c47]),
  -- WRITE_EXTENDED_INQUIRY_RESPONSE: WriteExtendedInquiryResponse, 1209-1220
  (0x0c52, [.check 0x0c52, .complete 0x0c52]),
  -- REFRESH_ENCRYPTION_KEY: RefreshEncryptionKey, 1222-1235
  (0x0c53, [.check 0x0c53, .status 0x0c53, .event 0x30]),
  -- WRITE_SIMPLE_PAIRING_MODE: WriteSimplePairingMode, 765-777
  (0x0c56, [.check 0x0c56, .complete 0x0c56]),
  -- READ_LOCAL_OOB_DATA: ReadLocalOobData, 727-737
  (0x0c57, [.complete 0x0c57]),
  -- READ_INQUIRY_RESPONSE_TRANSMIT_POWER_LEVEL: ReadInquiryResponseTransmitPowerLevel, 684-693
  (0x0c58, [.check 0x0c58, .complete 0x0c58]),
  -- ENHANCED_FLUSH: EnhancedFlush, 695-712
  (0x0c5f, [.check 0x0c5f, .status 0x0c5f, .ite [.event 0x39] []]),
  -- SEND_KEYPRESS_NOTIFICATION: ForwardToLm, 125-128
  (0x0c60, [.toLm]),
  -- SET_EVENT_MASK_PAGE_2: SetEventMaskPage2, 714-725
  (0x0c63, [.check 0x0c63, .complete 0x0c63]),
  -- READ_ENHANCED_TRANSMIT_POWER_LEVEL: ReadEnhancedTransmitPowerLevel, 1377-1392
  (0x0c68, [.check 0x0c68, .complete 0x0c68]),
  -- WRITE_LE_HOST_SUPPORT: WriteLeHostSupport, 795-807
  (0x0c6d, [.check 0x0c6d, .complete 0x0c6d]),
  -- WRITE_SECURE_CONNECTIONS_HOST_SUPPORT: WriteSecureConnectionsHostSupport, 809-821
  (0x0c7a, [.check 0x0c7a, .complete 0x0c7a]),
  -- READ_LOCAL_OOB_EXTENDED_DATA: ReadLocalOobExtendedData, 739-751
  (0x0c7d, [.complete 0x0c7d]),
  -- SET_MIN_ENCRYPTION_KEY_SIZE: SetMinEncryptionKeySize, 753-763
  (0x0c84, [.check 0x0c84, .complete 0x0c84]),
  -- READ_LOCAL_VERSION_INFORMATION: ReadLocalVersionInformation, 421-436
  (0x1001, [.check 0x1001, .complete 0x1001]),
  -- READ_LOCAL_SUPPORTED_COMMANDS: ReadLocalSupportedCommands, 467-475
  (0x1002, [.check 0x1002, .complete 0x1002]),
  -- READ_LOCAL_SUPPORTED_FEATURES: ReadLocalSupportedFeatures, 477-485
  (0x1003, [.check 0x1003, .complete 0x1003]),
  -- READ_LOCAL_EXTENDED_FEATURES: ReadLocalExtendedFeatures, 498-510
  (0x1004, [.check 0x1004, .complete 0x1004]),
  -- READ_BUFFER_SIZE: ReadBufferSize, 333-343
  (0x1005, [.check 0x1005, .complete 0x1005]),
  -- READ_BD_ADDR: ReadBdAddr, 457-465
  (0x1009, [.check 0x1009, .complete 0x1009]),
  -- READ_LOCAL_SUPPORTED_CODECS_V1: ReadLocalSupportedCodecsV1, 487-496
  (0x100b, [.check 0x100b, .complete 0x100b]),
  -- READ_FAILED_CONTACT_COUNTER: ReadFailedContactCounter, 345-360
  (0x1401, [.check 0x1401, .complete 0x1401]),
  -- RESET_FAILED_CONTACT_COUNTER: ResetFailedContactCounter, 362-376
  (0x1402, [.check 0x1401, .complete 0x1402]),
  -- READ_RSSI: ReadRssi, 378-395
  (0x1405, [.check 0x1405, .complete 0x1405]),
  -- READ_ENCRYPTION_KEY_SIZE: ReadEncryptionKeySize, 397-409
  (0x1408, [.check 0x1408, .complete 0x1408]),
  -- READ_LOOPBACK_MODE: ReadLoopbackMode, 3477-3485
  (0x1801, [.check 0x1801, .complete 0x1801]),
  -- WRITE_LOOPBACK_MODE: WriteLoopbackMode, 3487-3508
  (0x1802, [.check 0x1802, .event 0x03, .event 0x03, .complete 0x1802]),
  -- LE_SET_EVENT_MASK: LeSetEventMask, 1518-1528
  (0x2001, [.check 0x2001, .complete 0x2001]),
  -- LE_READ_BUFFER_SIZE_V1: LeReadBufferSizeV1, 1576-1588
  (0x2002, [.check 0x2002, .complete 0x2002]),
  -- LE_READ_LOCAL_SUPPORTED_FEATURES_PAGE_0: LeReadLocalSupportedFeaturesPage0, 1911-1920
  (0x2003, [.check 0x2003, .complete 0x2003]),
  -- LE_SET_RANDOM_ADDRESS: LeSetRandomAddress, 1922-1932
  (0x2005, [.check 0x2005, .complete 0x2005]),
  -- LE_SET_ADVERTISING_PARAMETERS: LeSetAdvertisingParameters, 1934-1947
  (0x2006, [.check 0x2006, .complete 0x2006]),
  -- LE_READ_ADVERTISING_PHYSICAL_CHANNEL_TX_POWER: LeReadAdvertisingPhysicalChannelTxPower, 1949-1958
  (0x2007, [.check 0x2007, .complete 0x2007]),
  -- LE_SET_ADVERTISING_DATA: LeSetAdvertisingData, 1960-1969
  (0x2008, [.check 0x2008, .complete 0x2008]),
  -- LE_SET_SCAN_RESPONSE_DATA: LeSetScanResponseData, 1971-1980
  (0x2009, [.check 0x2009, .complete 0x2009]),
  -- LE_SET_ADVERTISING_ENABLE: LeSetAdvertisingEnable, 1982-1994
  (0x200a, [.check 0x200a, .complete 0x200a]),
  -- LE_SET_SCAN_PARAMETERS: LeSetScanParameters, 1996-2008
  (0x200b, [.check 0x200b, .complete 0x200b]),
  -- LE_SET_SCAN_ENABLE: LeSetScanEnable, 2010-2022
  (0x200c, [.check 0x200c, .complete 0x200c]),
  -- LE_CREATE_CONNECTION: LeCreateConnection, 2024-2049
  (0x200d, [.check 0x200d, .status 0x200d]),
  -- LE_CREATE_CONNECTION_CANCEL: LeCreateConnectionCancel, 2051-2060
  (0x200e, [.check 0x200e, .complete 0x200e]),
  -- LE_READ_FILTER_ACCEPT_LIST_SIZE: LeReadFilterAcceptListSize, 2137-2145
  (0x200f, [.check 0x200f, .complete 0x200f]),
  -- LE_CLEAR_FILTER_ACCEPT_LIST: LeClearFilterAcceptList, 2147-2156
  (0x2010, [.check 0x2010, .complete 0x2010]),
  -- LE_ADD_DEVICE_TO_FILTER_ACCEPT_LIST: LeAddDeviceToFilterAcceptList, 2158-2171
  (0x2011, [.check 0x2011, .complete 0x2011]),
  -- LE_REMOVE_DEVICE_FROM_FILTER_ACCEPT_LIST: LeRemoveDeviceFromFilterAcceptList, 2173-2186
  (0x2012, [.check 0x2012, .complete 0x2012]),
  -- LE_CONNECTION_UPDATE: LeConnectionUpdate, 2062-2075
  (0x2013, [.check 0x2013, .status 0x2013]),
  -- LE_READ_REMOTE_FEATURES_PAGE_0: LeReadRemoteFeaturesPage0, 2679-2691
  (0x2016, [.check 0x2016, .status 0x2016]),
  -- LE_ENCRYPT: LeEncrypt, 2693-2704
  (0x2017, [.check 0x2017, .complete 0x2017]),
  -- LE_RAND: LeRand, 2706-2714
  (0x2018, [.check 0x2018, .complete 0x2018]),
  -- LE_START_ENCRYPTION: LeStartEncryption, 3412-3424
  (0x2019, [.check 0x2019, .status 0x2019]),
  -- LE_LONG_TERM_KEY_REQUEST_REPLY: LeLongTermKeyRequestReply, 3426-3439
  (0x201a, [.check 0x201a, .complete 0x201a]),
  -- LE_LONG_TERM_KEY_REQUEST_NEGATIVE_REPLY: LeLongTermKeyRequestNegativeReply, 3441-3453
  (0x201b, [.check 0x201b, .complete 0x201b]),
  -- LE_READ_SUPPORTED_STATES: LeReadSupportedStates, 2716-2724
  (0x201c, [.check 0x201c, .complete 0x201c]),
  -- LE_REMOTE_CONNECTION_PARAMETER_REQUEST_REPLY: LeRemoteConnectionParameterRequestReply, 2726-2739
  (0x2020, [.check 0x2020, .complete 0x2020]),
  -- LE_REMOTE_CONNECTION_PARAMETER_REQUEST_NEGATIVE_REPLY: LeRemoteConnectionParameterRequestNegativeReply, 2741-2754
  (0x2021, [.check 0x2021, .complete 0x2021]),
  -- LE_SET_DATA_LENGTH: LeSetDataLength, 2300-2311
  (0x2022, [.check 0x2022, .complete 0x2022]),
  -- LE_READ_SUGGESTED_DEFAULT_DATA_LENGTH: LeReadSuggestedDefaultDataLength, 2313-2322
  (0x2023, [.check 0x2023, .complete 0x2023]),
  -- LE_WRITE_SUGGESTED_DEFAULT_DATA_LENGTH: LeWriteSuggestedDefaultDataLength, 2324-2342
  (0x2024, [.check 0x2024, .complete 0x2024]),
  -- LE_READ_LOCAL_P_256_PUBLIC_KEY: LeReadLocalP256PublicKey, 2408-2423
  (0x2025, [.check 0x2025, .status 0x2025, .event 0x3e]),
  -- LE_ADD_DEVICE_TO_RESOLVING_LIST: LeAddDeviceToResolvingList, 2425-2439
  (0x2027, [.check 0x2027, .complete 0x2027]),
  -- LE_REMOVE_DEVICE_FROM_RESOLVING_LIST: LeRemoveDeviceFromResolvingList, 2441-2454
  (0x2028, [.check 0x2028, .complete 0x2028]),
  -- LE_CLEAR_RESOLVING_LIST: LeClearResolvingList, 2188-2197
  (0x2029, [.check 0x2029, .complete 0x2029]),
  -- LE_READ_RESOLVING_LIST_SIZE: LeReadResolvingListSize, 2199-2207
  (0x202a, [.check 0x202a, .complete 0x202a]),
  -- LE_READ_PEER_RESOLVABLE_ADDRESS: LeReadPeerResolvableAddress, 2209-2224
  (0x202b, [.check 0x202b, .complete 0x202b]),
  -- LE_READ_LOCAL_RESOLVABLE_ADDRESS: LeReadLocalResolvableAddress, 2226-2241
  (0x202c, [.check 0x202c, .complete 0x202c]),
  -- LE_SET_ADDRESS_RESOLUTION_ENABLE: LeSetAddressResolutionEnable, 1885-1897
  (0x202d, [.check 0x202d, .complete 0x202d]),
  -- LE_SET_RESOLVABLE_PRIVATE_ADDRESS_TIMEOUT: LeSetResolvablePrivateAddressTimeout, 1899-1909
  (0x202e, [.check 0x202e, .complete 0x202e]),
  -- LE_READ_MAXIMUM_DATA_LENGTH: LeReadMaximumDataLength, 2243-2256
  (0x202f, [.check 0x202f, .complete 0x202f]),
  -- LE_READ_PHY: LeReadPhy, 2258-2271
  (0x2030, [.check 0x2030, .complete 0x2030]),
  -- LE_SET_DEFAULT_PHY: LeSetDefaultPhy, 2273-2284
  (0x2031, [.check 0x2031, .complete 0x2031]),
  -- LE_SET_PHY: LeSetPhy, 2286-2298
  (0x2032, [.check 0x2032, .status 0x2032]),
  -- LE_SET_ADVERTISING_SET_RANDOM_ADDRESS: LeSetAdvertisingSetRandomAddress, 3287-3299
  (0x2035, [.check 0x2035, .complete 0x2035]),
  -- LE_SET_EXTENDED_ADVERTISING_PARAMETERS_V1: LeSetExtendedAdvertisingParametersV1, 3301-3322
  (0x2036, [.check 0x2036, .complete 0x2036]),
  -- LE_SET_EXTENDED_ADVERTISING_DATA: LeSetExtendedAdvertisingData, 3324-3336
  (0x2037, [.check 0x2037, .complete 0x2037]),
  -- LE_SET_EXTENDED_SCAN_RESPONSE_DATA: LeSetExtendedScanResponseData, 3338-3350
  (0x2038, [.check 0x2038, .complete 0x2038]),
  -- LE_SET_EXTENDED_ADVERTISING_ENABLE: LeSetExtendedAdvertisingEnable, 3352-3367
  (0x2039, [.check 0x2039, .complete 0x2039]),
  -- LE_READ_MAXIMUM_ADVERTISING_DATA_LENGTH: LeReadMaximumAdvertisingDataLength, 3369-3377
  (0x203a, [.check 0x203a, .complete 0x203a]),
  -- LE_READ_NUMBER_OF_SUPPORTED_ADVERTISING_SETS: LeReadNumberOfSupportedAdvertisingSets, 3379-3387
  (0x203b, [.check 0x203b, .complete 0x203b]),
  -- LE_REMOVE_ADVERTISING_SET: LeRemoveAdvertisingSet, 3389-3399
  (0x203c, [.check 0x203c, .complete 0x203c]),
  -- LE_CLEAR_ADVERTISING_SETS: LeClearAdvertisingSets, 3401-3410
  (0x203d, [.check 0x203d, .complete 0x203d]),
  -- LE_SET_PERIODIC_ADVERTISING_PARAMETERS_V1: LeSetPeriodicAdvertisingParametersV1, 2456-2468
  (0x203e, [.check 0x203e, .complete 0x203e]),
  -- LE_SET_PERIODIC_ADVERTISING_DATA: LeSetPeriodicAdvertisingData, 2470-2482
  (0x203f, [.check 0x203f, .complete 0x203f]),
  -- LE_SET_PERIODIC_ADVERTISING_ENABLE: LeSetPeriodicAdvertisingEnable, 2484-2497
  (0x2040, [.check 0x2040, .complete 0x2040]),
  -- LE_SET_EXTENDED_SCAN_PARAMETERS: LeSetExtendedScanParameters, 2593-2604
  (0x2041, [.check 0x2041, .complete 0x2041]),
  -- LE_SET_EXTENDED_SCAN_ENABLE: LeSetExtendedScanEnable, 2606-2618
  (0x2042, [.check 0x2042, .complete 0x2042]),
  -- LE_EXTENDED_CREATE_CONNECTION_V1: LeExtendedCreateConnectionV1, 2620-2651
  (0x2043, [.check 0x2043, .status 0x2043]),
  -- LE_PERIODIC_ADVERTISING_CREATE_SYNC: LePeriodicAdvertisingCreateSync, 2499-2514
  (0x2044, [.check 0x2044, .status 0x2044]),
  -- LE_PERIODIC_ADVERTISING_CREATE_SYNC_CANCEL: LePeriodicAdvertisingCreateSyncCancel, 2516-2525
  (0x2045, [.check 0x2045, .complete 0x2045]),
  -- LE_PERIODIC_ADVERTISING_TERMINATE_SYNC: LePeriodicAdvertisingTerminateSync, 2527-2538
  (0x2046, [.check 0x2046, .complete 0x2046]),
  -- LE_ADD_DEVICE_TO_PERIODIC_ADVERTISER_LIST: LeAddDeviceToPeriodicAdvertiserList, 2540-2554
  (0x2047, [.check 0x2047, .complete 0x2047]),
  -- LE_REMOVE_DEVICE_FROM_PERIODIC_ADVERTISER_LIST: LeRemoveDeviceFromPeriodicAdvertiserList, 2556-2570
  (0x2048, [.check 0x2048, .complete 0x2048]),
  -- LE_CLEAR_PERIODIC_ADVERTISER_LIST: LeClearPeriodicAdvertiserList, 2572-2581
  (0x2049, [.check 0x2049, .complete 0x2049]),
  -- LE_READ_PERIODIC_ADVERTISER_LIST_SIZE: LeReadPeriodicAdvertiserListSize, 2583-2591
  (0x204a, [.check 0x204a, .complete 0x204a]),
  -- LE_READ_TRANSMIT_POWER: LeReadTransmitPower, 2653-2661
  (0x204b, [.check 0x204b, .complete 0x204b]),
  -- LE_SET_PRIVACY_MODE: LeSetPrivacyMode, 2663-2677
  (0x204e, [.check 0x204e, .complete 0x204e]),
  -- LE_READ_BUFFER_SIZE_V2: LeReadBufferSizeV2, 1590-1605
  (0x2060, [.check 0x2060, .complete 0x2060]),
  -- LE_SET_CIG_PARAMETERS: ForwardToLl, 130-133
  (0x2062, [.toLl]),
  -- LE_SET_CIG_PARAMETERS_TEST: ForwardToLl, 130-133
  (0x2063, [.toLl]),
  -- LE_CREATE_CIS: ForwardToLl, 130-133
  (0x2064, [.toLl]),
  -- LE_REMOVE_CIG: ForwardToLl, 130-133
  (0x2065, [.toLl]),
  -- LE_ACCEPT_CIS_REQUEST: ForwardToLl, 130-133
  (0x2066, [.toLl]),
  -- LE_REJECT_CIS_REQUEST: ForwardToLl, 130-133
  (0x2067, [.toLl]),
  -- LE_CREATE_BIG: ForwardToLl, 130-133
  (0x2068, [.toLl]),
  -- LE_TERMINATE_BIG: ForwardToLl, 130-133
  (0x206a, [.toLl]),
  -- LE_REQUEST_PEER_SCA: LeRequestPeerSca, 1530-1559
  (0x206d, [.check 0x206d, .ite [.status 0x206d, .event 0x3e] [.status 0x206d]]),
  -- LE_SETUP_ISO_DATA_PATH: ForwardToLl, 130-133
  (0x206e, [.toLl]),
  -- LE_REMOVE_ISO_DATA_PATH: ForwardToLl, 130-133
  (0x206f, [.toLl]),
  -- LE_SET_HOST_FEATURE_V1: LeSetHostFeatureV1, 1561-1574
  (0x2074, [.check 0x2074, .complete 0x2074]),
  -- LE_ENHANCED_READ_TRANSMIT_POWER_LEVEL: LeEnhancedReadTransmitPowerLevel, 1607-1624
  (0x2076, [.check 0x2076, .complete 0x2076]),
  -- LE_READ_REMOTE_TRANSMIT_POWER_LEVEL: LeReadRemoteTransmitPowerLevel, 1626-1639
  (0x2077, [.check 0x2077, .status 0x2077]),
  -- LE_SET_TRANSMIT_POWER_REPORTING_ENABLE: LeSetTransmitPowerReportingEnable, 1641-1655
  (0x207a, [.check 0x207a, .complete 0x207a]),
  -- LE_SET_DEFAULT_SUBRATE: LeSetDefaultSubrate, 1657-1668
  (0x207d, [.check 0x207d, .complete 0x207d]),
  -- LE_SUBRATE_REQUEST: LeSubrateRequest, 1670-1682
  (0x207e, [.check 0x207e, .status 0x207e]),
  -- LE_CS_READ_LOCAL_SUPPORTED_CAPABILITIES: LeCsReadLocalSupportedCapabilities, 1684-1712
  (0x2089, [.check 0x2089, .complete 0x2089]),
  -- LE_CS_READ_REMOTE_SUPPORTED_CAPABILITIES: LeCsReadRemoteSupportedCapabilities, 1714-1725
  (0x208a, [.check 0x208a, .status 0x208a]),
  -- LE_CS_WRITE_CACHED_REMOTE_SUPPORTED_CAPABILITIES: LeCsWriteCachedRemoteSupportedCapabilities, 1727-1751
  (0x208b, [.check 0x208b, .complete 0x208b]),
  -- LE_CS_SECURITY_ENABLE: LeCsSecurityEnable, 1840-1850
  (0x208c, [.check 0x208c, .status 0x208c]),
  -- LE_CS_SET_DEFAULT_SETTINGS: LeCsSetDefaultSettings, 1753-1767
  (0x208d, [.check 0x208d, .complete 0x208d]),
  -- LE_CS_READ_REMOTE_FAE_TABLE: LeCsReadRemoteFaeTable, 1769-1780
  (0x208e, [.check 0x208e, .status 0x208e]),
  -- LE_CS_WRITE_CACHED_REMOTE_FAE_TABLE: LeCsWriteCachedRemoteFaeTable, 1782-1794
  (0x208f, [.check 0x208f, .complete 0x208f]),
  -- LE_CS_CREATE_CONFIG: LeCsCreateConfig, 1796-1814
  (0x2090, [.check 0x2090, .status 0x2090]),
  -- LE_CS_REMOVE_CONFIG: LeCsRemoveConfig, 1816-1826
  (0x2091, [.check 0x2091, .status 0x2091]),
  -- LE_CS_SET_CHANNEL_CLASSIFICATION: LeCsSetChannelClassification, 1828-1838
  (0x2092, [.check 0x2092, .complete 0x2092]),
  -- LE_CS_SET_PROCEDURE_PARAMETERS: LeCsSetProcedureParameters, 1852-1870
  (0x2093, [.check 0x2093, .complete 0x2093]),
  -- LE_CS_PROCEDURE_ENABLE: LeCsProcedureEnable, 1872-1883
  (0x2094, [.check 0x2094, .status 0x2094]),
  -- CSR_OPCODE: CsrVendorCommand, 3126-3223
  (0xfc00, [.csr]),
  -- ROOTCANAL_OPCODE: RootcanalCommand, 2756-2801
  (0xfc01, [.check 0xfc01, .ite [.check 0xfc01, .later] [.ite [.check 0xfc01, .later] []], .complete 0xfc01]),
  -- LE_GET_VENDOR_CAPABILITIES: LeGetVendorCapabilities, 2803-2838
  (0xfd53, [.check 0xfd53, .ite [.complete 0xfd53, .ret] [], .complete 0xfd53]),
  -- LE_BATCH_SCAN: LeBatchScan, 2840-2844
  (0xfd56, [.check 0xfd56, .complete 0xfd56]),
  -- LE_APCF: LeApcf, 2846-3099
  (0xfd57, [.check 0xfd57, .ite [.complete 0xfd57, .ret] [], .ite [.check 0xfd57, .complete 0xfd57] [.ite [.check 0xfd57, .ite [.check 0xfd57] [.ite [.check 0xfd57] [.ite [.check 0xfd57] []]], .complete 0xfd57] [.ite [.check 0xfd57, .ite [.check 0xfd57] [.ite [.check 0xfd57] [.ite [.check 0xfd57] []]], .complete 0xfd57] [.ite [.check 0xfd57, .complete 0xfd57] [.ite [.check 0xfd57, .complete 0xfd57] [.ite [.check 0xfd57, .complete 0xfd57] [.ite [.check 0xfd57, .complete 0xfd57] [.ite [.check 0xfd57, .complete 0xfd57] [.ite [.check 0xfd57, .complete 0xfd57] [.ite [.check 0xfd57, .complete 0xfd57] [.ite [.check 0xfd57, .complete 0xfd57] [.complete 0xfd57, .invalid]]]]]]]]]]]]),
  -- LE_GET_CONTROLLER_ACTIVITY_ENERGY_INFO: LeGetControllerActivityEnergyInfo, 3101-3105
  (0xfd59, [.check 0xfd59, .complete 0xfd59]),
  -- LE_EX_SET_SCAN_PARAMETERS: LeExSetScanParameters, 3107-3111
  (0xfd5a, [.check 0xfd5a, .complete 0xfd5a]),
  -- GET_CONTROLLER_DEBUG_INFO: GetControllerDebugInfo, 3113-3121
  (0xfd5b, [.check 0xfd5b, .complete 0xfd5b]),
  -- INTEL_DDC_CONFIG_READ: IntelDdcConfigRead, 3510-3532
  (0xfc8c, [.ite [.fatal] [], .ite [.complete 0xfc8c] [.complete 0xfc8c]]),
  -- INTEL_DDC_CONFIG_WRITE: IntelDdcConfigWrite, 3534-3562
  (0xfc8b, [.loop [.ite [.fatal] []], .complete 0xfc8b])]

/-- `GetOpCodeToIndex`, dual_mode_controller.cc 3568-4014, with the values of packets/hci_packets.pdl 50-429
and 432-765. -/
def indices : List (Nat × Nat) := [
  (0x0401, 0), (0x0402, 1), (0x0403, 2), (0x0404, 3), (0x0405, 4), (0x0406, 5), (0x0407, 6), (0x0408, 7),
  (0x0409, 10), (0x040a, 11), (0x040b, 12), (0x040c, 13), (0x040d, 14), (0x040e, 15), (0x040f, 16), (0x0411, 17),
  (0x0413, 20), (0x0415, 21), (0x0417, 22), (0x0419, 23), (0x041a, 24), (0x041b, 25), (0x041c, 26), (0x041d, 27),
  (0x041f, 30), (0x0420, 31), (0x0428, 163), (0x0429, 164), (0x042a, 165), (0x042b, 187), (0x042c, 190), (0x042d, 191),
  (0x042e, 192), (0x042f, 193), (0x0430, 194), (0x0433, 197), (0x0434, 203), (0x043d, 293), (0x043e, 294), (0x043f, 306),
  (0x0440, 307), (0x0441, 310), (0x0442, 311), (0x0443, 312), (0x0444, 313), (0x0445, 321), (0x0801, 41), (0x0803, 42),
  (0x0804, 43), (0x0807, 46), (0x0809, 47), (0x080b, 50), (0x080c, 51), (0x080d, 52), (0x080e, 53), (0x080f, 54),
  (0x0810, 55), (0x0811, 174), (0x0c01, 56), (0x0c03, 57), (0x0c05, 60), (0x0c08, 61), (0x0c09, 62), (0x0c0a, 63),
  (0x0c0d, 65), (0x0c11, 66), (0x0c12, 67), (0x0c13, 70), (0x0c14, 71), (0x0c15, 72), (0x0c16, 73), (0x0c17, 74),
  (0x0c18, 75), (0x0c19, 76), (0x0c1a, 77), (0x0c1b, 80), (0x0c1c, 81), (0x0c1d, 82), (0x0c1e, 83), (0x0c1f, 84),
  (0x0c20, 85), (0x0c23, 90), (0x0c24, 91), (0x0c25, 92), (0x0c26, 93), (0x0c27, 94), (0x0c28, 95), (0x0c29, 96),
  (0x0c2a, 97), (0x0c2b, 100), (0x0c2c, 101), (0x0c2d, 102), (0x0c2e, 103), (0x0c2f, 104), (0x0c31, 105), (0x0c33, 106),
  (0x0c35, 107), (0x0c36, 110), (0x0c37, 111), (0x0c38, 112), (0x0c39, 113), (0x0c3a, 114), (0x0c3f, 121), (0x0c42, 124),
  (0x0c43, 125), (0x0c44, 126), (0x0c45, 127), (0x0c46, 130), (0x0c47, 131), (0x0c48, 132), (0x0c49, 133), (0x0c51, 170),
  (0x0c52, 171), (0x0c53, 172), (0x0c55, 175), (0x0c56, 176), (0x0c57, 177), (0x0c58, 180), (0x0c59, 181), (0x0c5a, 182),
  (0x0c5b, 183), (0x0c5f, 196), (0x0c60, 202), (0x0c63, 222), (0x0c66, 230), (0x0c67, 231), (0x0c68, 240), (0x0c6c, 245),
  (0x0c6d, 246), (0x0c6e, 296), (0x0c6f, 297), (0x0c70, 300), (0x0c71, 301), (0x0c72, 302), (0x0c73, 304), (0x0c74, 314),
  (0x0c75, 315), (0x0c76, 316), (0x0c77, 317), (0x0c78, 320), (0x0c79, 322), (0x0c7a, 323), (0x0c7b, 324), (0x0c7c, 325),
  (0x0c7d, 326), (0x0c7e, 330), (0x0c7f, 331), (0x0c80, 332), (0x0c81, 333), (0x0c82, 451), (0x0c83, 455), (0x0c84, 457),
  (0x1001, 143), (0x1003, 145), (0x1004, 146), (0x1005, 147), (0x1009, 151), (0x100a, 232), (0x100b, 295), (0x100c, 413),
  (0x100d, 452), (0x100e, 453), (0x100f, 454), (0x1401, 152), (0x1402, 153), (0x1403, 154), (0x1405, 155), (0x1406, 156),
  (0x1407, 157), (0x1408, 204), (0x140c, 303), (0x140d, 305), (0x1801, 160), (0x1802, 161), (0x1803, 162), (0x1804, 195),
  (0x180a, 327), (0x2001, 250), (0x2002, 251), (0x2003, 252), (0x2005, 254), (0x2006, 255), (0x2007, 256), (0x2008, 257),
  (0x2009, 260), (0x200a, 261), (0x200b, 262), (0x200c, 263), (0x200d, 264), (0x200e, 265), (0x200f, 266), (0x2010, 267),
  (0x2011, 270), (0x2012, 271), (0x2013, 272), (0x2014, 273), (0x2015, 274), (0x2016, 275), (0x2017, 276), (0x2018, 277),
  (0x2019, 280), (0x201a, 281), (0x201b, 282), (0x201c, 283), (0x201d, 284), (0x201e, 285), (0x201f, 286), (0x2020, 334),
  (0x2021, 335), (0x2022, 336), (0x2023, 337), (0x2024, 340), (0x2025, 341), (0x2026, 342), (0x2027, 343), (0x2028, 344),
  (0x2029, 345), (0x202a, 346), (0x202b, 347), (0x202c, 350), (0x202d, 351), (0x202e, 352), (0x202f, 353), (0x2030, 354),
  (0x2031, 355), (0x2032, 356), (0x2033, 357), (0x2034, 360), (0x2035, 361), (0x2036, 362), (0x2037, 363), (0x2038, 364),
  (0x2039, 365), (0x203a, 366), (0x203b, 367), (0x203c, 370), (0x203d, 371), (0x203e, 372), (0x203f, 373), (0x2040, 374),
  (0x2041, 375), (0x2042, 376), (0x2043, 377), (0x2044, 380), (0x2045, 381), (0x2046, 382), (0x2047, 383), (0x2048, 384),
  (0x2049, 385), (0x204a, 386), (0x204b, 387), (0x204c, 390), (0x204d, 391), (0x204e, 392), (0x204f, 393), (0x2050, 394),
  (0x2051, 395), (0x2052, 396), (0x2053, 397), (0x2054, 400), (0x2055, 401), (0x2056, 402), (0x2057, 403), (0x2058, 404),
  (0x2059, 405), (0x205a, 406), (0x205b, 407), (0x205c, 410), (0x205d, 411), (0x205e, 412), (0x205f, 414), (0x2060, 415),
  (0x2061, 416), (0x2062, 417), (0x2063, 420), (0x2064, 421), (0x2065, 422), (0x2066, 423), (0x2067, 424), (0x2068, 425),
  (0x2069, 426), (0x206a, 427), (0x206b, 430), (0x206c, 431), (0x206d, 432), (0x206e, 433), (0x206f, 434), (0x2070, 435),
  (0x2071, 436), (0x2072, 437), (0x2073, 440), (0x2074, 441), (0x2075, 442), (0x2076, 443), (0x2077, 444), (0x2078, 445),
  (0x2079, 446), (0x207a, 447), (0x207b, 450), (0x207c, 456), (0x207d, 460), (0x207e, 461), (0x207f, 462), (0x2080, 463),
  (0x2081, 464), (0x2082, 465), (0x2083, 466), (0x2084, 467), (0x2085, 470), (0x2086, 471), (0x2087, 472), (0x2088, 473),
  (0x2089, 205), (0x208a, 206), (0x208b, 207), (0x208c, 241), (0x208d, 247), (0x208e, 122), (0x208f, 123), (0x2090, 166),
  (0x2091, 167), (0x2092, 290), (0x2093, 291), (0x2094, 292), (0x2095, 233), (0x2096, 234), (0x2098, 475), (0x2099, 476),
  (0x209a, 477), (0x209b, 480), (0x209c, 287), (0x209d, 481)]

/-- The list in `SupportedCommands`, controller_properties.cc 132-473. -/
def defaultCommands : List Nat := [
  0, 1, 4, 5, 6, 7, 10, 11, 12, 13, 14, 15, 16, 17, 20, 21,
  22, 23, 25, 26, 27, 30, 31, 163, 164, 165, 187, 190, 191, 192, 193, 194,
  197, 203, 293, 294, 321, 41, 42, 43, 46, 47, 50, 51, 52, 53, 54, 55,
  174, 56, 57, 60, 61, 67, 70, 71, 72, 73, 74, 75, 76, 77, 80, 81,
  82, 83, 84, 85, 90, 91, 92, 93, 94, 95, 100, 101, 102, 103, 104, 105,
  106, 107, 110, 111, 112, 113, 114, 121, 124, 125, 126, 127, 130, 131, 132, 133,
  170, 171, 172, 175, 176, 177, 180, 181, 196, 202, 222, 240, 245, 246, 322, 323,
  324, 325, 326, 143, 145, 146, 147, 151, 295, 152, 153, 155, 156, 204, 160, 161,
  162, 195, 327, 250, 251, 252, 254, 255, 256, 257, 260, 261, 262, 263, 264, 265,
  266, 267, 270, 271, 272, 273, 274, 275, 276, 277, 280, 281, 282, 283, 284, 285,
  286, 334, 335, 336, 337, 340, 341, 343, 344, 345, 346, 347, 350, 351, 352, 353,
  354, 355, 356, 361, 362, 363, 364, 365, 366, 367, 370, 371, 372, 373, 374, 375,
  376, 377, 380, 381, 382, 383, 384, 385, 386, 387, 390, 391, 392, 415, 417, 420,
  421, 422, 423, 424, 432, 433, 434, 441, 443, 444, 447, 450, 460, 461, 205, 206,
  207, 241, 247, 122, 123, 166, 167, 290, 291, 292, 233, 234]

/-- `le_extended_advertising_commands_`, controller_properties.cc 1714-1729. -/
def extendedAdvertisingCommands : List Nat := [371, 377, 366, 367, 357, 370, 361, 456, 363, 365, 362, 376, 375, 364]

/-- `le_periodic_advertising_commands_`, controller_properties.cc 1732-1745. -/
def periodicAdvertisingCommands : List Nat := [383, 385, 381, 380, 382, 386, 357, 384, 456, 373, 374, 372]

/-- `ll_privacy_commands_`, controller_properties.cc 1748-1759. -/
def privacyCommands : List Nat := [343, 345, 350, 347, 346, 357, 344, 351, 392, 352]

/-- `connected_isochronous_stream_commands_`, controller_properties.cc 1763-1769. -/
def isochronousCommands : List Nat := [417, 420, 421, 422, 423, 424, 433, 434, 432]

/-- `connection_subrating_commands_`, controller_properties.cc 1773-1776. -/
def subratingCommands : List Nat := [460, 461]

/-- `channel_sounding_commands_`, controller_properties.cc 1779-1794. -/
def soundingCommands : List Nat := [205, 206, 207, 241, 247, 122, 123, 166, 167, 290, 291, 292, 233, 234]

/-- `le_power_control_request_commands_`, controller_properties.cc 1797-1801. -/
def powerControlCommands : List Nat := [443, 444, 447]

/-- `supported_commands` of `ControllerPreset::LAIRD_BL654`, controller_properties.cc 1845-1851. -/
def lairdBytes : List Nat := [
  0x20, 0x00, 0x80, 0x00, 0x00, 0xc0, 0x00, 0x0c, 0x00, 0x00, 0x04, 0x00, 0x00, 0x00, 0x28, 0x22,
  0x00, 0x00, 0x00, 0x00, 0x00, 0x00, 0x04, 0x00, 0x00, 0xf7, 0xff, 0xff, 0x7f, 0x00, 0x00, 0x00,
  0x30, 0xf0, 0xff, 0xff, 0xff, 0xff, 0xff, 0x1f, 0xe0, 0xf7, 0xff, 0xff, 0xff, 0xc1, 0xe3, 0x03,
  0x00, 0x00, 0x00, 0x00, 0x00, 0x00, 0x00, 0x00, 0x00, 0x00, 0x00, 0x00, 0x00, 0x00, 0x00, 0x00]

/-- `supported_commands` of `ControllerPreset::CSR_RCK_PTS_DONGLE`, controller_properties.cc 1876-1882. -/
def csrDongleBytes : List Nat := [
  0xff, 0xff, 0xff, 0x03, 0xfe, 0xff, 0xff, 0xff, 0xff, 0xff, 0xff, 0xff, 0xf3, 0x0f, 0xe8, 0xfe,
  0x3f, 0xf7, 0x83, 0xff, 0x1c, 0x00, 0x04, 0x00, 0x61, 0xf7, 0xff, 0xff, 0x7f, 0x00, 0xc0, 0xff,
  0xff, 0x30, 0x00, 0x00, 0x00, 0x00, 0x00, 0x00, 0x00, 0x00, 0x00, 0x00, 0x00, 0x00, 0x00, 0x00,
  0x00, 0x00, 0x00, 0x00, 0x00, 0x00, 0x00, 0x00, 0x00, 0x00, 0x00, 0x00, 0x00, 0x00, 0x00, 0x00]

/-- `supported_commands` of `ControllerPreset::INTEL_BE200`, controller_properties.cc 1906-1912. -/
def intelBytes : List Nat := [
  0xbf, 0xff, 0xfb, 0x03, 0xcc, 0xff, 0x0f, 0xff, 0xbf, 0xff, 0xfc, 0x1f, 0xf2, 0x0f, 0xe8, 0xfe,
  0x3f, 0xf7, 0x8f, 0xff, 0x1c, 0x00, 0x04, 0x00, 0x61, 0xf7, 0xff, 0xff, 0x7f, 0x38, 0x00, 0x00,
  0xfe, 0xf0, 0xff, 0xff, 0xff, 0xe3, 0x80, 0x07, 0x00, 0xe8, 0x1f, 0xfc, 0xff, 0xff, 0x03, 0x00,
  0x00, 0x00, 0x00, 0x00, 0x00, 0x00, 0x00, 0x00, 0x00, 0x00, 0x00, 0x00, 0x00, 0x00, 0x00, 0x00]

/-- The commands the link layer takes, rust/src/llcp/manager.rs 88-108; any other makes `ingest_hci` fail. -/
def llCommands : List Nat := [0x0406, 0x2062, 0x2063, 0x2064, 0x2065, 0x2066, 0x2067, 0x206e, 0x206f, 0x2068, 0x206a]

/-- The commands the link manager can answer, rust/src/lmp/manager.rs 132-238; any other makes it fail. -/
def lmCommands : List Nat := [0x040b, 0x040c, 0x040d, 0x040e, 0x042b, 0x0434, 0x042c, 0x042d, 0x042e, 0x042f, 0x0430, 0x0433, 0x0c60, 0x0411, 0x0413]

/-- The commands for which the link manager can find a link, rust/src/packets.rs 61-91. -/
def lmLinkCommands : List Nat := [0x040b, 0x040c, 0x040d, 0x040e, 0x042b, 0x0434, 0x042c, 0x042d, 0x042e, 0x042f, 0x0430, 0x0433, 0x0c60, 0x0411, 0x0413]

end Verif.Hci
