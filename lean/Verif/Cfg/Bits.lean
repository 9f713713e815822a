/-! # The bits of the feature masks

Generated by tools/gen_cfg.py from packets/hci_packets.pdl 2770-2866 and 3182-3242. -/
namespace Verif.Cfg

/-! ## `LLFeaturesBits`, packets/hci_packets.pdl 3182-3242 -/

/-- `LLFeaturesBits::LE_ENCRYPTION`, packets/hci_packets.pdl 3182-3242. -/
def Ll.leEncryption : Nat := 0x1
/-- `LLFeaturesBits::CONNECTION_PARAMETERS_REQUEST_PROCEDURE`, packets/hci_packets.pdl 3182-3242. -/
def Ll.connectionParametersRequestProcedure : Nat := 0x2
/-- `LLFeaturesBits::EXTENDED_REJECT_INDICATION`, packets/hci_packets.pdl 3182-3242. -/
def Ll.extendedRejectIndication : Nat := 0x4
/-- `LLFeaturesBits::PERIPHERAL_INITIATED_FEATURES_EXCHANGE`, packets/hci_packets.pdl 3182-3242. -/
def Ll.peripheralInitiatedFeaturesExchange : Nat := 0x8
/-- `LLFeaturesBits::LE_PING`, packets/hci_packets.pdl 3182-3242. -/
def Ll.lePing : Nat := 0x10
/-- `LLFeaturesBits::LE_DATA_PACKET_LENGTH_EXTENSION`, packets/hci_packets.pdl 3182-3242. -/
def Ll.leDataPacketLengthExtension : Nat := 0x20
/-- `LLFeaturesBits::LL_PRIVACY`, packets/hci_packets.pdl 3182-3242. -/
def Ll.llPrivacy : Nat := 0x40
/-- `LLFeaturesBits::EXTENDED_SCANNER_FILTER_POLICIES`, packets/hci_packets.pdl 3182-3242. -/
def Ll.extendedScannerFilterPolicies : Nat := 0x80
/-- `LLFeaturesBits::LE_2M_PHY`, packets/hci_packets.pdl 3182-3242. -/
def Ll.le2mPhy : Nat := 0x100
/-- `LLFeaturesBits::STABLE_MODULATION_INDEX_TRANSMITTER`, packets/hci_packets.pdl 3182-3242. -/
def Ll.stableModulationIndexTransmitter : Nat := 0x200
/-- `LLFeaturesBits::STABLE_MODULATION_INDEX_RECEIVER`, packets/hci_packets.pdl 3182-3242. -/
def Ll.stableModulationIndexReceiver : Nat := 0x400
/-- `LLFeaturesBits::LE_CODED_PHY`, packets/hci_packets.pdl 3182-3242. -/
def Ll.leCodedPhy : Nat := 0x800
/-- `LLFeaturesBits::LE_EXTENDED_ADVERTISING`, packets/hci_packets.pdl 3182-3242. -/
def Ll.leExtendedAdvertising : Nat := 0x1000
/-- `LLFeaturesBits::LE_PERIODIC_ADVERTISING`, packets/hci_packets.pdl 3182-3242. -/
def Ll.lePeriodicAdvertising : Nat := 0x2000
/-- `LLFeaturesBits::CHANNEL_SELECTION_ALGORITHM_2`, packets/hci_packets.pdl 3182-3242. -/
def Ll.channelSelectionAlgorithm2 : Nat := 0x4000
/-- `LLFeaturesBits::LE_POWER_CLASS_1`, packets/hci_packets.pdl 3182-3242. -/
def Ll.lePowerClass1 : Nat := 0x8000
/-- `LLFeaturesBits::MINIMUM_NUMBER_OF_USED_CHANNELS_PROCEDURE`, packets/hci_packets.pdl 3182-3242. -/
def Ll.minimumNumberOfUsedChannelsProcedure : Nat := 0x10000
/-- `LLFeaturesBits::CONNECTION_CTE_REQUEST`, packets/hci_packets.pdl 3182-3242. -/
def Ll.connectionCteRequest : Nat := 0x20000
/-- `LLFeaturesBits::CONNECTION_CTE_RESPONSE`, packets/hci_packets.pdl 3182-3242. -/
def Ll.connectionCteResponse : Nat := 0x40000
/-- `LLFeaturesBits::CONNECTIONLESS_CTE_TRANSMITTER`, packets/hci_packets.pdl 3182-3242. -/
def Ll.connectionlessCteTransmitter : Nat := 0x80000
/-- `LLFeaturesBits::CONNECTIONLESS_CTE_RECEIVER`, packets/hci_packets.pdl 3182-3242. -/
def Ll.connectionlessCteReceiver : Nat := 0x100000
/-- `LLFeaturesBits::ANTENNA_SWITCHING_DURING_CTE_TRANSMISSION`, packets/hci_packets.pdl 3182-3242. -/
def Ll.antennaSwitchingDuringCteTransmission : Nat := 0x200000
/-- `LLFeaturesBits::ANTENNA_SWITCHING_DURING_CTE_RECEPTION`, packets/hci_packets.pdl 3182-3242. -/
def Ll.antennaSwitchingDuringCteReception : Nat := 0x400000
/-- `LLFeaturesBits::RECEIVING_CONSTANT_TONE_EXTENSIONS`, packets/hci_packets.pdl 3182-3242. -/
def Ll.receivingConstantToneExtensions : Nat := 0x800000
/-- `LLFeaturesBits::PERIODIC_ADVERTISING_SYNC_TRANSFER_SENDER`, packets/hci_packets.pdl 3182-3242. -/
def Ll.periodicAdvertisingSyncTransferSender : Nat := 0x1000000
/-- `LLFeaturesBits::PERIODIC_ADVERTISING_SYNC_TRANSFER_RECIPIENT`, packets/hci_packets.pdl 3182-3242. -/
def Ll.periodicAdvertisingSyncTransferRecipient : Nat := 0x2000000
/-- `LLFeaturesBits::SLEEP_CLOCK_ACCURACY_UPDATES`, packets/hci_packets.pdl 3182-3242. -/
def Ll.sleepClockAccuracyUpdates : Nat := 0x4000000
/-- `LLFeaturesBits::REMOTE_PUBLIC_KEY_VALIDATION`, packets/hci_packets.pdl 3182-3242. -/
def Ll.remotePublicKeyValidation : Nat := 0x8000000
/-- `LLFeaturesBits::CONNECTED_ISOCHRONOUS_STREAM_CENTRAL`, packets/hci_packets.pdl 3182-3242. -/
def Ll.connectedIsochronousStreamCentral : Nat := 0x10000000
/-- `LLFeaturesBits::CONNECTED_ISOCHRONOUS_STREAM_PERIPHERAL`, packets/hci_packets.pdl 3182-3242. -/
def Ll.connectedIsochronousStreamPeripheral : Nat := 0x20000000
/-- `LLFeaturesBits::ISOCHRONOUS_BROADCASTER`, packets/hci_packets.pdl 3182-3242. -/
def Ll.isochronousBroadcaster : Nat := 0x40000000
/-- `LLFeaturesBits::SYNCHRONIZED_RECEIVER`, packets/hci_packets.pdl 3182-3242. -/
def Ll.synchronizedReceiver : Nat := 0x80000000
/-- `LLFeaturesBits::CONNECTED_ISOCHRONOUS_STREAM_HOST_SUPPORT`, packets/hci_packets.pdl 3182-3242. -/
def Ll.connectedIsochronousStreamHostSupport : Nat := 0x100000000
/-- `LLFeaturesBits::LE_POWER_CONTROL_REQUEST`, packets/hci_packets.pdl 3182-3242. -/
def Ll.lePowerControlRequest : Nat := 0x200000000
/-- `LLFeaturesBits::LE_POWER_CONTROL_REQUEST_BIS`, packets/hci_packets.pdl 3182-3242. -/
def Ll.lePowerControlRequestBis : Nat := 0x400000000
/-- `LLFeaturesBits::LE_PATH_LOSS_MONITORING`, packets/hci_packets.pdl 3182-3242. -/
def Ll.lePathLossMonitoring : Nat := 0x800000000
/-- `LLFeaturesBits::PERIODIC_ADVERTISING_ADI_SUPPORT`, packets/hci_packets.pdl 3182-3242. -/
def Ll.periodicAdvertisingAdiSupport : Nat := 0x1000000000
/-- `LLFeaturesBits::CONNECTION_SUBRATING`, packets/hci_packets.pdl 3182-3242. -/
def Ll.connectionSubrating : Nat := 0x2000000000
/-- `LLFeaturesBits::CONNECTION_SUBRATING_HOST_SUPPORT`, packets/hci_packets.pdl 3182-3242. -/
def Ll.connectionSubratingHostSupport : Nat := 0x4000000000
/-- `LLFeaturesBits::CHANNEL_CLASSIFICATION`, packets/hci_packets.pdl 3182-3242. -/
def Ll.channelClassification : Nat := 0x8000000000
/-- `LLFeaturesBits::ADVERTISING_CODING_SELECTION`, packets/hci_packets.pdl 3182-3242. -/
def Ll.advertisingCodingSelection : Nat := 0x10000000000
/-- `LLFeaturesBits::ADVERTISING_CODING_SELECTION_HOST_SUPPORT`, packets/hci_packets.pdl 3182-3242. -/
def Ll.advertisingCodingSelectionHostSupport : Nat := 0x20000000000
/-- `LLFeaturesBits::DECISION_BASED_ADVERTISING_FILTERING`, packets/hci_packets.pdl 3182-3242. -/
def Ll.decisionBasedAdvertisingFiltering : Nat := 0x40000000000
/-- `LLFeaturesBits::PERIODIC_ADVERTISING_WITH_RESPONSES_ADVERTISER`, packets/hci_packets.pdl 3182-3242. -/
def Ll.periodicAdvertisingWithResponsesAdvertiser : Nat := 0x80000000000
/-- `LLFeaturesBits::PERIODIC_ADVERTISING_WITH_RESPONSES_SCANNER`, packets/hci_packets.pdl 3182-3242. -/
def Ll.periodicAdvertisingWithResponsesScanner : Nat := 0x100000000000
/-- `LLFeaturesBits::UNSEGMENTED_FRAMED_MODE`, packets/hci_packets.pdl 3182-3242. -/
def Ll.unsegmentedFramedMode : Nat := 0x200000000000
/-- `LLFeaturesBits::CHANNEL_SOUNDING`, packets/hci_packets.pdl 3182-3242. -/
def Ll.channelSounding : Nat := 0x400000000000
/-- `LLFeaturesBits::CHANNEL_SOUNDING_HOST_SUPPORT`, packets/hci_packets.pdl 3182-3242. -/
def Ll.channelSoundingHostSupport : Nat := 0x800000000000

/-! ## `LMPFeaturesPage0Bits`, packets/hci_packets.pdl 2770-2841 -/

/-- `LMPFeaturesPage0Bits::LMP_3_SLOT_PACKETS`, packets/hci_packets.pdl 2770-2841. -/
def Lmp0.lmp3SlotPackets : Nat := 0x1
/-- `LMPFeaturesPage0Bits::LMP_5_SLOT_PACKETS`, packets/hci_packets.pdl 2770-2841. -/
def Lmp0.lmp5SlotPackets : Nat := 0x2
/-- `LMPFeaturesPage0Bits::ENCRYPTION`, packets/hci_packets.pdl 2770-2841. -/
def Lmp0.encryption : Nat := 0x4
/-- `LMPFeaturesPage0Bits::SLOT_OFFSET`, packets/hci_packets.pdl 2770-2841. -/
def Lmp0.slotOffset : Nat := 0x8
/-- `LMPFeaturesPage0Bits::TIMING_ACCURACY`, packets/hci_packets.pdl 2770-2841. -/
def Lmp0.timingAccuracy : Nat := 0x10
/-- `LMPFeaturesPage0Bits::ROLE_SWITCH`, packets/hci_packets.pdl 2770-2841. -/
def Lmp0.roleSwitch : Nat := 0x20
/-- `LMPFeaturesPage0Bits::HOLD_MODE`, packets/hci_packets.pdl 2770-2841. -/
def Lmp0.holdMode : Nat := 0x40
/-- `LMPFeaturesPage0Bits::SNIFF_MODE`, packets/hci_packets.pdl 2770-2841. -/
def Lmp0.sniffMode : Nat := 0x80
/-- `LMPFeaturesPage0Bits::POWER_CONTROL_REQUESTS`, packets/hci_packets.pdl 2770-2841. -/
def Lmp0.powerControlRequests : Nat := 0x200
/-- `LMPFeaturesPage0Bits::CHANNEL_QUALITY_DRIVEN_DATA_RATE`, packets/hci_packets.pdl 2770-2841. -/
def Lmp0.channelQualityDrivenDataRate : Nat := 0x400
/-- `LMPFeaturesPage0Bits::SCO_LINK`, packets/hci_packets.pdl 2770-2841. -/
def Lmp0.scoLink : Nat := 0x800
/-- `LMPFeaturesPage0Bits::HV2_PACKETS`, packets/hci_packets.pdl 2770-2841. -/
def Lmp0.hv2Packets : Nat := 0x1000
/-- `LMPFeaturesPage0Bits::HV3_PACKETS`, packets/hci_packets.pdl 2770-2841. -/
def Lmp0.hv3Packets : Nat := 0x2000
/-- `LMPFeaturesPage0Bits::M_LAW_LOG_SYNCHRONOUS_DATA`, packets/hci_packets.pdl 2770-2841. -/
def Lmp0.mLawLogSynchronousData : Nat := 0x4000
/-- `LMPFeaturesPage0Bits::A_LAW_LOG_SYNCHRONOUS_DATA`, packets/hci_packets.pdl 2770-2841. -/
def Lmp0.aLawLogSynchronousData : Nat := 0x8000
/-- `LMPFeaturesPage0Bits::CVSD_SYNCHRONOUS_DATA`, packets/hci_packets.pdl 2770-2841. -/
def Lmp0.cvsdSynchronousData : Nat := 0x10000
/-- `LMPFeaturesPage0Bits::PAGING_PARAMETER_NEGOTIATION`, packets/hci_packets.pdl 2770-2841. -/
def Lmp0.pagingParameterNegotiation : Nat := 0x20000
/-- `LMPFeaturesPage0Bits::POWER_CONTROL`, packets/hci_packets.pdl 2770-2841. -/
def Lmp0.powerControl : Nat := 0x40000
/-- `LMPFeaturesPage0Bits::TRANSPARENT_SYNCHRONOUS_DATA`, packets/hci_packets.pdl 2770-2841. -/
def Lmp0.transparentSynchronousData : Nat := 0x80000
/-- `LMPFeaturesPage0Bits::FLOW_CONTROL_LAG_LEAST_SIGNIFICANT_BIT`, packets/hci_packets.pdl 2770-2841. -/
def Lmp0.flowControlLagLeastSignificantBit : Nat := 0x100000
/-- `LMPFeaturesPage0Bits::FLOW_CONTROL_LAG_MIDDLE_BIT`, packets/hci_packets.pdl 2770-2841. -/
def Lmp0.flowControlLagMiddleBit : Nat := 0x200000
/-- `LMPFeaturesPage0Bits::FLOW_CONTROL_LAG_MOST_SIGNIFICANT_BIT`, packets/hci_packets.pdl 2770-2841. -/
def Lmp0.flowControlLagMostSignificantBit : Nat := 0x400000
/-- `LMPFeaturesPage0Bits::BROADCAST_ENCRYPTION`, packets/hci_packets.pdl 2770-2841. -/
def Lmp0.broadcastEncryption : Nat := 0x800000
/-- `LMPFeaturesPage0Bits::ENHANCED_DATA_RATE_ACL_2_MB_S_MODE`, packets/hci_packets.pdl 2770-2841. -/
def Lmp0.enhancedDataRateAcl2MbSMode : Nat := 0x2000000
/-- `LMPFeaturesPage0Bits::ENHANCED_DATA_RATE_ACL_3_MB_S_MODE`, packets/hci_packets.pdl 2770-2841. -/
def Lmp0.enhancedDataRateAcl3MbSMode : Nat := 0x4000000
/-- `LMPFeaturesPage0Bits::ENHANCED_INQUIRY_SCAN`, packets/hci_packets.pdl 2770-2841. -/
def Lmp0.enhancedInquiryScan : Nat := 0x8000000
/-- `LMPFeaturesPage0Bits::INTERLACED_INQUIRY_SCAN`, packets/hci_packets.pdl 2770-2841. -/
def Lmp0.interlacedInquiryScan : Nat := 0x10000000
/-- `LMPFeaturesPage0Bits::INTERLACED_PAGE_SCAN`, packets/hci_packets.pdl 2770-2841. -/
def Lmp0.interlacedPageScan : Nat := 0x20000000
/-- `LMPFeaturesPage0Bits::RSSI_WITH_INQUIRY_RESULTS`, packets/hci_packets.pdl 2770-2841. -/
def Lmp0.rssiWithInquiryResults : Nat := 0x40000000
/-- `LMPFeaturesPage0Bits::EXTENDED_SCO_LINK`, packets/hci_packets.pdl 2770-2841. -/
def Lmp0.extendedScoLink : Nat := 0x80000000
/-- `LMPFeaturesPage0Bits::EV4_PACKETS`, packets/hci_packets.pdl 2770-2841. -/
def Lmp0.ev4Packets : Nat := 0x100000000
/-- `LMPFeaturesPage0Bits::EV5_PACKETS`, packets/hci_packets.pdl 2770-2841. -/
def Lmp0.ev5Packets : Nat := 0x200000000
/-- `LMPFeaturesPage0Bits::AFH_CAPABLE_PERIPHERAL`, packets/hci_packets.pdl 2770-2841. -/
def Lmp0.afhCapablePeripheral : Nat := 0x800000000
/-- `LMPFeaturesPage0Bits::AFH_CLASSIFICATION_PERIPHERAL`, packets/hci_packets.pdl 2770-2841. -/
def Lmp0.afhClassificationPeripheral : Nat := 0x1000000000
/-- `LMPFeaturesPage0Bits::BR_EDR_NOT_SUPPORTED`, packets/hci_packets.pdl 2770-2841. -/
def Lmp0.brEdrNotSupported : Nat := 0x2000000000
/-- `LMPFeaturesPage0Bits::LE_SUPPORTED_CONTROLLER`, packets/hci_packets.pdl 2770-2841. -/
def Lmp0.leSupportedController : Nat := 0x4000000000
/-- `LMPFeaturesPage0Bits::LMP_3_SLOT_ENHANCED_DATA_RATE_ACL_PACKETS`, packets/hci_packets.pdl 2770-2841. -/
def Lmp0.lmp3SlotEnhancedDataRateAclPackets : Nat := 0x8000000000
/-- `LMPFeaturesPage0Bits::LMP_5_SLOT_ENHANCED_DATA_RATE_ACL_PACKETS`, packets/hci_packets.pdl 2770-2841. -/
def Lmp0.lmp5SlotEnhancedDataRateAclPackets : Nat := 0x10000000000
/-- `LMPFeaturesPage0Bits::SNIFF_SUBRATING`, packets/hci_packets.pdl 2770-2841. -/
def Lmp0.sniffSubrating : Nat := 0x20000000000
/-- `LMPFeaturesPage0Bits::PAUSE_ENCRYPTION`, packets/hci_packets.pdl 2770-2841. -/
def Lmp0.pauseEncryption : Nat := 0x40000000000
/-- `LMPFeaturesPage0Bits::AFH_CAPABLE_CENTRAL`, packets/hci_packets.pdl 2770-2841. -/
def Lmp0.afhCapableCentral : Nat := 0x80000000000
/-- `LMPFeaturesPage0Bits::AFH_CLASSIFICATION_CENTRAL`, packets/hci_packets.pdl 2770-2841. -/
def Lmp0.afhClassificationCentral : Nat := 0x100000000000
/-- `LMPFeaturesPage0Bits::ENHANCED_DATA_RATE_ESCO_2_MB_S_MODE`, packets/hci_packets.pdl 2770-2841. -/
def Lmp0.enhancedDataRateEsco2MbSMode : Nat := 0x200000000000
/-- `LMPFeaturesPage0Bits::ENHANCED_DATA_RATE_ESCO_3_MB_S_MODE`, packets/hci_packets.pdl 2770-2841. -/
def Lmp0.enhancedDataRateEsco3MbSMode : Nat := 0x400000000000
/-- `LMPFeaturesPage0Bits::LMP_3_SLOT_ENHANCED_DATA_RATE_ESCO_PACKETS`, packets/hci_packets.pdl 2770-2841. -/
def Lmp0.lmp3SlotEnhancedDataRateEscoPackets : Nat := 0x800000000000
/-- `LMPFeaturesPage0Bits::EXTENDED_INQUIRY_RESPONSE`, packets/hci_packets.pdl 2770-2841. -/
def Lmp0.extendedInquiryResponse : Nat := 0x1000000000000
/-- `LMPFeaturesPage0Bits::SIMULTANEOUS_LE_AND_BR_CONTROLLER`, packets/hci_packets.pdl 2770-2841. -/
def Lmp0.simultaneousLeAndBrController : Nat := 0x2000000000000
/-- `LMPFeaturesPage0Bits::SECURE_SIMPLE_PAIRING_CONTROLLER`, packets/hci_packets.pdl 2770-2841. -/
def Lmp0.secureSimplePairingController : Nat := 0x8000000000000
/-- `LMPFeaturesPage0Bits::ENCAPSULATED_PDU`, packets/hci_packets.pdl 2770-2841. -/
def Lmp0.encapsulatedPdu : Nat := 0x10000000000000
/-- `LMPFeaturesPage0Bits::ERRONEOUS_DATA_REPORTING`, packets/hci_packets.pdl 2770-2841. -/
def Lmp0.erroneousDataReporting : Nat := 0x20000000000000
/-- `LMPFeaturesPage0Bits::NON_FLUSHABLE_PACKET_BOUNDARY_FLAG`, packets/hci_packets.pdl 2770-2841. -/
def Lmp0.nonFlushablePacketBoundaryFlag : Nat := 0x40000000000000
/-- `LMPFeaturesPage0Bits::HCI_LINK_SUPERVISION_TIMEOUT_CHANGED_EVENT`, packets/hci_packets.pdl 2770-2841. -/
def Lmp0.hciLinkSupervisionTimeoutChangedEvent : Nat := 0x100000000000000
/-- `LMPFeaturesPage0Bits::VARIABLE_INQUIRY_TX_POWER_LEVEL`, packets/hci_packets.pdl 2770-2841. -/
def Lmp0.variableInquiryTxPowerLevel : Nat := 0x200000000000000
/-- `LMPFeaturesPage0Bits::ENHANCED_POWER_CONTROL`, packets/hci_packets.pdl 2770-2841. -/
def Lmp0.enhancedPowerControl : Nat := 0x400000000000000
/-- `LMPFeaturesPage0Bits::EXTENDED_FEATURES`, packets/hci_packets.pdl 2770-2841. -/
def Lmp0.extendedFeatures : Nat := 0x8000000000000000

/-! ## `LMPFeaturesPage2Bits`, packets/hci_packets.pdl 2851-2866 -/

/-- `LMPFeaturesPage2Bits::CONNECTIONLESS_PERIPHERAL_BROADCAST_TRANSMITTER_OPERATION`, packets/hci_packets.pdl 2851-2866. -/
def Lmp2.connectionlessPeripheralBroadcastTransmitterOperation : Nat := 0x1
/-- `LMPFeaturesPage2Bits::CONNECTIONLESS_PERIPHERAL_BROADCAST_RECEIVER_OPERATION`, packets/hci_packets.pdl 2851-2866. -/
def Lmp2.connectionlessPeripheralBroadcastReceiverOperation : Nat := 0x2
/-- `LMPFeaturesPage2Bits::SYNCHRONIZATION_TRAIN`, packets/hci_packets.pdl 2851-2866. -/
def Lmp2.synchronizationTrain : Nat := 0x4
/-- `LMPFeaturesPage2Bits::SYNCHRONIZATION_SCAN`, packets/hci_packets.pdl 2851-2866. -/
def Lmp2.synchronizationScan : Nat := 0x8
/-- `LMPFeaturesPage2Bits::HCI_INQUIRY_RESPONSE_NOTIFICATION_EVENT`, packets/hci_packets.pdl 2851-2866. -/
def Lmp2.hciInquiryResponseNotificationEvent : Nat := 0x10
/-- `LMPFeaturesPage2Bits::GENERALIZED_INTERLACED_SCAN`, packets/hci_packets.pdl 2851-2866. -/
def Lmp2.generalizedInterlacedScan : Nat := 0x20
/-- `LMPFeaturesPage2Bits::COARSE_CLOCK_ADJUSTMENT`, packets/hci_packets.pdl 2851-2866. -/
def Lmp2.coarseClockAdjustment : Nat := 0x40
/-- `LMPFeaturesPage2Bits::SECURE_CONNECTIONS_CONTROLLER_SUPPORT`, packets/hci_packets.pdl 2851-2866. -/
def Lmp2.secureConnectionsControllerSupport : Nat := 0x100
/-- `LMPFeaturesPage2Bits::PING`, packets/hci_packets.pdl 2851-2866. -/
def Lmp2.ping : Nat := 0x200
/-- `LMPFeaturesPage2Bits::SLOT_AVAILABILITY_MASK`, packets/hci_packets.pdl 2851-2866. -/
def Lmp2.slotAvailabilityMask : Nat := 0x400
/-- `LMPFeaturesPage2Bits::TRAIN_NUDGING`, packets/hci_packets.pdl 2851-2866. -/
def Lmp2.trainNudging : Nat := 0x800

end Verif.Cfg
