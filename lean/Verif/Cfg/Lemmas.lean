import Verif.Cfg.Report
import Verif.Hci.BitLemmas
/-! # Lemmas about the checks -/
namespace Verif.Cfg
open Verif.Hci (Preset)

theorem mask_bit {m k i : Nat} (h : k = 2 ^ i) : (m &&& k != 0) = m.testBit i := by
  subst h
  have h : m &&& 2 ^ i = (m.testBit i).toNat * 2 ^ i := by
    apply Nat.eq_of_testBit_eq
    intro j
    rw [Nat.testBit_and, Nat.testBit_two_pow]
    by_cases hj : i = j
    · subst hj; cases m.testBit i <;> simp
    · cases m.testBit i <;> simp [hj, Nat.testBit_two_pow]
  rw [h]
  cases m.testBit i <;> simp

@[simp] theorem ll_leEncryption (p : Props) : p.ll Ll.leEncryption = p.view.ll 0 := mask_bit (i := 0) rfl
@[simp] theorem ll_connectionParametersRequestProcedure (p : Props) : p.ll Ll.connectionParametersRequestProcedure = p.view.ll 1 := mask_bit (i := 1) rfl
@[simp] theorem ll_extendedRejectIndication (p : Props) : p.ll Ll.extendedRejectIndication = p.view.ll 2 := mask_bit (i := 2) rfl
@[simp] theorem ll_peripheralInitiatedFeaturesExchange (p : Props) : p.ll Ll.peripheralInitiatedFeaturesExchange = p.view.ll 3 := mask_bit (i := 3) rfl
@[simp] theorem ll_lePing (p : Props) : p.ll Ll.lePing = p.view.ll 4 := mask_bit (i := 4) rfl
@[simp] theorem ll_leDataPacketLengthExtension (p : Props) : p.ll Ll.leDataPacketLengthExtension = p.view.ll 5 := mask_bit (i := 5) rfl
@[simp] theorem ll_llPrivacy (p : Props) : p.ll Ll.llPrivacy = p.view.ll 6 := mask_bit (i := 6) rfl
@[simp] theorem ll_extendedScannerFilterPolicies (p : Props) : p.ll Ll.extendedScannerFilterPolicies = p.view.ll 7 := mask_bit (i := 7) rfl
@[simp] theorem ll_le2mPhy (p : Props) : p.ll Ll.le2mPhy = p.view.ll 8 := mask_bit (i := 8) rfl
@[simp] theorem ll_stableModulationIndexTransmitter (p : Props) : p.ll Ll.stableModulationIndexTransmitter = p.view.ll 9 := mask_bit (i := 9) rfl
@[simp] theorem ll_stableModulationIndexReceiver (p : Props) : p.ll Ll.stableModulationIndexReceiver = p.view.ll 10 := mask_bit (i := 10) rfl
@[simp] theorem ll_leCodedPhy (p : Props) : p.ll Ll.leCodedPhy = p.view.ll 11 := mask_bit (i := 11) rfl
@[simp] theorem ll_leExtendedAdvertising (p : Props) : p.ll Ll.leExtendedAdvertising = p.view.ll 12 := mask_bit (i := 12) rfl
@[simp] theorem ll_lePeriodicAdvertising (p : Props) : p.ll Ll.lePeriodicAdvertising = p.view.ll 13 := mask_bit (i := 13) rfl
@[simp] theorem ll_channelSelectionAlgorithm2 (p : Props) : p.ll Ll.channelSelectionAlgorithm2 = p.view.ll 14 := mask_bit (i := 14) rfl
@[simp] theorem ll_lePowerClass1 (p : Props) : p.ll Ll.lePowerClass1 = p.view.ll 15 := mask_bit (i := 15) rfl
@[simp] theorem ll_minimumNumberOfUsedChannelsProcedure (p : Props) : p.ll Ll.minimumNumberOfUsedChannelsProcedure = p.view.ll 16 := mask_bit (i := 16) rfl
@[simp] theorem ll_connectionCteRequest (p : Props) : p.ll Ll.connectionCteRequest = p.view.ll 17 := mask_bit (i := 17) rfl
@[simp] theorem ll_connectionCteResponse (p : Props) : p.ll Ll.connectionCteResponse = p.view.ll 18 := mask_bit (i := 18) rfl
@[simp] theorem ll_connectionlessCteTransmitter (p : Props) : p.ll Ll.connectionlessCteTransmitter = p.view.ll 19 := mask_bit (i := 19) rfl
@[simp] theorem ll_connectionlessCteReceiver (p : Props) : p.ll Ll.connectionlessCteReceiver = p.view.ll 20 := mask_bit (i := 20) rfl
@[simp] theorem ll_antennaSwitchingDuringCteTransmission (p : Props) : p.ll Ll.antennaSwitchingDuringCteTransmission = p.view.ll 21 := mask_bit (i := 21) rfl
@[simp] theorem ll_antennaSwitchingDuringCteReception (p : Props) : p.ll Ll.antennaSwitchingDuringCteReception = p.view.ll 22 := mask_bit (i := 22) rfl
@[simp] theorem ll_receivingConstantToneExtensions (p : Props) : p.ll Ll.receivingConstantToneExtensions = p.view.ll 23 := mask_bit (i := 23) rfl
@[simp] theorem ll_periodicAdvertisingSyncTransferSender (p : Props) : p.ll Ll.periodicAdvertisingSyncTransferSender = p.view.ll 24 := mask_bit (i := 24) rfl
@[simp] theorem ll_periodicAdvertisingSyncTransferRecipient (p : Props) : p.ll Ll.periodicAdvertisingSyncTransferRecipient = p.view.ll 25 := mask_bit (i := 25) rfl
@[simp] theorem ll_sleepClockAccuracyUpdates (p : Props) : p.ll Ll.sleepClockAccuracyUpdates = p.view.ll 26 := mask_bit (i := 26) rfl
@[simp] theorem ll_remotePublicKeyValidation (p : Props) : p.ll Ll.remotePublicKeyValidation = p.view.ll 27 := mask_bit (i := 27) rfl
@[simp] theorem ll_connectedIsochronousStreamCentral (p : Props) : p.ll Ll.connectedIsochronousStreamCentral = p.view.ll 28 := mask_bit (i := 28) rfl
@[simp] theorem ll_connectedIsochronousStreamPeripheral (p : Props) : p.ll Ll.connectedIsochronousStreamPeripheral = p.view.ll 29 := mask_bit (i := 29) rfl
@[simp] theorem ll_isochronousBroadcaster (p : Props) : p.ll Ll.isochronousBroadcaster = p.view.ll 30 := mask_bit (i := 30) rfl
@[simp] theorem ll_synchronizedReceiver (p : Props) : p.ll Ll.synchronizedReceiver = p.view.ll 31 := mask_bit (i := 31) rfl
@[simp] theorem ll_connectedIsochronousStreamHostSupport (p : Props) : p.ll Ll.connectedIsochronousStreamHostSupport = p.view.ll 32 := mask_bit (i := 32) rfl
@[simp] theorem ll_lePowerControlRequest (p : Props) : p.ll Ll.lePowerControlRequest = p.view.ll 33 := mask_bit (i := 33) rfl
@[simp] theorem ll_lePowerControlRequestBis (p : Props) : p.ll Ll.lePowerControlRequestBis = p.view.ll 34 := mask_bit (i := 34) rfl
@[simp] theorem ll_lePathLossMonitoring (p : Props) : p.ll Ll.lePathLossMonitoring = p.view.ll 35 := mask_bit (i := 35) rfl
@[simp] theorem ll_periodicAdvertisingAdiSupport (p : Props) : p.ll Ll.periodicAdvertisingAdiSupport = p.view.ll 36 := mask_bit (i := 36) rfl
@[simp] theorem ll_connectionSubrating (p : Props) : p.ll Ll.connectionSubrating = p.view.ll 37 := mask_bit (i := 37) rfl
@[simp] theorem ll_connectionSubratingHostSupport (p : Props) : p.ll Ll.connectionSubratingHostSupport = p.view.ll 38 := mask_bit (i := 38) rfl
@[simp] theorem ll_channelClassification (p : Props) : p.ll Ll.channelClassification = p.view.ll 39 := mask_bit (i := 39) rfl
@[simp] theorem ll_advertisingCodingSelection (p : Props) : p.ll Ll.advertisingCodingSelection = p.view.ll 40 := mask_bit (i := 40) rfl
@[simp] theorem ll_advertisingCodingSelectionHostSupport (p : Props) : p.ll Ll.advertisingCodingSelectionHostSupport = p.view.ll 41 := mask_bit (i := 41) rfl
@[simp] theorem ll_decisionBasedAdvertisingFiltering (p : Props) : p.ll Ll.decisionBasedAdvertisingFiltering = p.view.ll 42 := mask_bit (i := 42) rfl
@[simp] theorem ll_periodicAdvertisingWithResponsesAdvertiser (p : Props) : p.ll Ll.periodicAdvertisingWithResponsesAdvertiser = p.view.ll 43 := mask_bit (i := 43) rfl
@[simp] theorem ll_periodicAdvertisingWithResponsesScanner (p : Props) : p.ll Ll.periodicAdvertisingWithResponsesScanner = p.view.ll 44 := mask_bit (i := 44) rfl
@[simp] theorem ll_unsegmentedFramedMode (p : Props) : p.ll Ll.unsegmentedFramedMode = p.view.ll 45 := mask_bit (i := 45) rfl
@[simp] theorem ll_channelSounding (p : Props) : p.ll Ll.channelSounding = p.view.ll 46 := mask_bit (i := 46) rfl
@[simp] theorem ll_channelSoundingHostSupport (p : Props) : p.ll Ll.channelSoundingHostSupport = p.view.ll 47 := mask_bit (i := 47) rfl
@[simp] theorem lmp0_lmp3SlotPackets (p : Props) : p.lmp0 Lmp0.lmp3SlotPackets = p.view.lmp 0 0 := mask_bit (i := 0) rfl
@[simp] theorem lmp0_lmp5SlotPackets (p : Props) : p.lmp0 Lmp0.lmp5SlotPackets = p.view.lmp 0 1 := mask_bit (i := 1) rfl
@[simp] theorem lmp0_encryption (p : Props) : p.lmp0 Lmp0.encryption = p.view.lmp 0 2 := mask_bit (i := 2) rfl
@[simp] theorem lmp0_slotOffset (p : Props) : p.lmp0 Lmp0.slotOffset = p.view.lmp 0 3 := mask_bit (i := 3) rfl
@[simp] theorem lmp0_timingAccuracy (p : Props) : p.lmp0 Lmp0.timingAccuracy = p.view.lmp 0 4 := mask_bit (i := 4) rfl
@[simp] theorem lmp0_roleSwitch (p : Props) : p.lmp0 Lmp0.roleSwitch = p.view.lmp 0 5 := mask_bit (i := 5) rfl
@[simp] theorem lmp0_holdMode (p : Props) : p.lmp0 Lmp0.holdMode = p.view.lmp 0 6 := mask_bit (i := 6) rfl
@[simp] theorem lmp0_sniffMode (p : Props) : p.lmp0 Lmp0.sniffMode = p.view.lmp 0 7 := mask_bit (i := 7) rfl
@[simp] theorem lmp0_powerControlRequests (p : Props) : p.lmp0 Lmp0.powerControlRequests = p.view.lmp 0 9 := mask_bit (i := 9) rfl
@[simp] theorem lmp0_channelQualityDrivenDataRate (p : Props) : p.lmp0 Lmp0.channelQualityDrivenDataRate = p.view.lmp 0 10 := mask_bit (i := 10) rfl
@[simp] theorem lmp0_scoLink (p : Props) : p.lmp0 Lmp0.scoLink = p.view.lmp 0 11 := mask_bit (i := 11) rfl
@[simp] theorem lmp0_hv2Packets (p : Props) : p.lmp0 Lmp0.hv2Packets = p.view.lmp 0 12 := mask_bit (i := 12) rfl
@[simp] theorem lmp0_hv3Packets (p : Props) : p.lmp0 Lmp0.hv3Packets = p.view.lmp 0 13 := mask_bit (i := 13) rfl
@[simp] theorem lmp0_mLawLogSynchronousData (p : Props) : p.lmp0 Lmp0.mLawLogSynchronousData = p.view.lmp 0 14 := mask_bit (i := 14) rfl
@[simp] theorem lmp0_aLawLogSynchronousData (p : Props) : p.lmp0 Lmp0.aLawLogSynchronousData = p.view.lmp 0 15 := mask_bit (i := 15) rfl
@[simp] theorem lmp0_cvsdSynchronousData (p : Props) : p.lmp0 Lmp0.cvsdSynchronousData = p.view.lmp 0 16 := mask_bit (i := 16) rfl
@[simp] theorem lmp0_pagingParameterNegotiation (p : Props) : p.lmp0 Lmp0.pagingParameterNegotiation = p.view.lmp 0 17 := mask_bit (i := 17) rfl
@[simp] theorem lmp0_powerControl (p : Props) : p.lmp0 Lmp0.powerControl = p.view.lmp 0 18 := mask_bit (i := 18) rfl
@[simp] theorem lmp0_transparentSynchronousData (p : Props) : p.lmp0 Lmp0.transparentSynchronousData = p.view.lmp 0 19 := mask_bit (i := 19) rfl
@[simp] theorem lmp0_flowControlLagLeastSignificantBit (p : Props) : p.lmp0 Lmp0.flowControlLagLeastSignificantBit = p.view.lmp 0 20 := mask_bit (i := 20) rfl
@[simp] theorem lmp0_flowControlLagMiddleBit (p : Props) : p.lmp0 Lmp0.flowControlLagMiddleBit = p.view.lmp 0 21 := mask_bit (i := 21) rfl
@[simp] theorem lmp0_flowControlLagMostSignificantBit (p : Props) : p.lmp0 Lmp0.flowControlLagMostSignificantBit = p.view.lmp 0 22 := mask_bit (i := 22) rfl
@[simp] theorem lmp0_broadcastEncryption (p : Props) : p.lmp0 Lmp0.broadcastEncryption = p.view.lmp 0 23 := mask_bit (i := 23) rfl
@[simp] theorem lmp0_enhancedDataRateAcl2MbSMode (p : Props) : p.lmp0 Lmp0.enhancedDataRateAcl2MbSMode = p.view.lmp 0 25 := mask_bit (i := 25) rfl
@[simp] theorem lmp0_enhancedDataRateAcl3MbSMode (p : Props) : p.lmp0 Lmp0.enhancedDataRateAcl3MbSMode = p.view.lmp 0 26 := mask_bit (i := 26) rfl
@[simp] theorem lmp0_enhancedInquiryScan (p : Props) : p.lmp0 Lmp0.enhancedInquiryScan = p.view.lmp 0 27 := mask_bit (i := 27) rfl
@[simp] theorem lmp0_interlacedInquiryScan (p : Props) : p.lmp0 Lmp0.interlacedInquiryScan = p.view.lmp 0 28 := mask_bit (i := 28) rfl
@[simp] theorem lmp0_interlacedPageScan (p : Props) : p.lmp0 Lmp0.interlacedPageScan = p.view.lmp 0 29 := mask_bit (i := 29) rfl
@[simp] theorem lmp0_rssiWithInquiryResults (p : Props) : p.lmp0 Lmp0.rssiWithInquiryResults = p.view.lmp 0 30 := mask_bit (i := 30) rfl
@[simp] theorem lmp0_extendedScoLink (p : Props) : p.lmp0 Lmp0.extendedScoLink = p.view.lmp 0 31 := mask_bit (i := 31) rfl
@[simp] theorem lmp0_ev4Packets (p : Props) : p.lmp0 Lmp0.ev4Packets = p.view.lmp 0 32 := mask_bit (i := 32) rfl
@[simp] theorem lmp0_ev5Packets (p : Props) : p.lmp0 Lmp0.ev5Packets = p.view.lmp 0 33 := mask_bit (i := 33) rfl
@[simp] theorem lmp0_afhCapablePeripheral (p : Props) : p.lmp0 Lmp0.afhCapablePeripheral = p.view.lmp 0 35 := mask_bit (i := 35) rfl
@[simp] theorem lmp0_afhClassificationPeripheral (p : Props) : p.lmp0 Lmp0.afhClassificationPeripheral = p.view.lmp 0 36 := mask_bit (i := 36) rfl
@[simp] theorem lmp0_brEdrNotSupported (p : Props) : p.lmp0 Lmp0.brEdrNotSupported = p.view.lmp 0 37 := mask_bit (i := 37) rfl
@[simp] theorem lmp0_leSupportedController (p : Props) : p.lmp0 Lmp0.leSupportedController = p.view.lmp 0 38 := mask_bit (i := 38) rfl
@[simp] theorem lmp0_lmp3SlotEnhancedDataRateAclPackets (p : Props) : p.lmp0 Lmp0.lmp3SlotEnhancedDataRateAclPackets = p.view.lmp 0 39 := mask_bit (i := 39) rfl
@[simp] theorem lmp0_lmp5SlotEnhancedDataRateAclPackets (p : Props) : p.lmp0 Lmp0.lmp5SlotEnhancedDataRateAclPackets = p.view.lmp 0 40 := mask_bit (i := 40) rfl
@[simp] theorem lmp0_sniffSubrating (p : Props) : p.lmp0 Lmp0.sniffSubrating = p.view.lmp 0 41 := mask_bit (i := 41) rfl
@[simp] theorem lmp0_pauseEncryption (p : Props) : p.lmp0 Lmp0.pauseEncryption = p.view.lmp 0 42 := mask_bit (i := 42) rfl
@[simp] theorem lmp0_afhCapableCentral (p : Props) : p.lmp0 Lmp0.afhCapableCentral = p.view.lmp 0 43 := mask_bit (i := 43) rfl
@[simp] theorem lmp0_afhClassificationCentral (p : Props) : p.lmp0 Lmp0.afhClassificationCentral = p.view.lmp 0 44 := mask_bit (i := 44) rfl
@[simp] theorem lmp0_enhancedDataRateEsco2MbSMode (p : Props) : p.lmp0 Lmp0.enhancedDataRateEsco2MbSMode = p.view.lmp 0 45 := mask_bit (i := 45) rfl
@[simp] theorem lmp0_enhancedDataRateEsco3MbSMode (p : Props) : p.lmp0 Lmp0.enhancedDataRateEsco3MbSMode = p.view.lmp 0 46 := mask_bit (i := 46) rfl
@[simp] theorem lmp0_lmp3SlotEnhancedDataRateEscoPackets (p : Props) : p.lmp0 Lmp0.lmp3SlotEnhancedDataRateEscoPackets = p.view.lmp 0 47 := mask_bit (i := 47) rfl
@[simp] theorem lmp0_extendedInquiryResponse (p : Props) : p.lmp0 Lmp0.extendedInquiryResponse = p.view.lmp 0 48 := mask_bit (i := 48) rfl
@[simp] theorem lmp0_simultaneousLeAndBrController (p : Props) : p.lmp0 Lmp0.simultaneousLeAndBrController = p.view.lmp 0 49 := mask_bit (i := 49) rfl
@[simp] theorem lmp0_secureSimplePairingController (p : Props) : p.lmp0 Lmp0.secureSimplePairingController = p.view.lmp 0 51 := mask_bit (i := 51) rfl
@[simp] theorem lmp0_encapsulatedPdu (p : Props) : p.lmp0 Lmp0.encapsulatedPdu = p.view.lmp 0 52 := mask_bit (i := 52) rfl
@[simp] theorem lmp0_erroneousDataReporting (p : Props) : p.lmp0 Lmp0.erroneousDataReporting = p.view.lmp 0 53 := mask_bit (i := 53) rfl
@[simp] theorem lmp0_nonFlushablePacketBoundaryFlag (p : Props) : p.lmp0 Lmp0.nonFlushablePacketBoundaryFlag = p.view.lmp 0 54 := mask_bit (i := 54) rfl
@[simp] theorem lmp0_hciLinkSupervisionTimeoutChangedEvent (p : Props) : p.lmp0 Lmp0.hciLinkSupervisionTimeoutChangedEvent = p.view.lmp 0 56 := mask_bit (i := 56) rfl
@[simp] theorem lmp0_variableInquiryTxPowerLevel (p : Props) : p.lmp0 Lmp0.variableInquiryTxPowerLevel = p.view.lmp 0 57 := mask_bit (i := 57) rfl
@[simp] theorem lmp0_enhancedPowerControl (p : Props) : p.lmp0 Lmp0.enhancedPowerControl = p.view.lmp 0 58 := mask_bit (i := 58) rfl
@[simp] theorem lmp0_extendedFeatures (p : Props) : p.lmp0 Lmp0.extendedFeatures = p.view.lmp 0 63 := mask_bit (i := 63) rfl
@[simp] theorem lmp2_connectionlessPeripheralBroadcastTransmitterOperation (p : Props) : p.lmp2 Lmp2.connectionlessPeripheralBroadcastTransmitterOperation = p.view.lmp 2 0 := mask_bit (i := 0) rfl
@[simp] theorem lmp2_connectionlessPeripheralBroadcastReceiverOperation (p : Props) : p.lmp2 Lmp2.connectionlessPeripheralBroadcastReceiverOperation = p.view.lmp 2 1 := mask_bit (i := 1) rfl
@[simp] theorem lmp2_synchronizationTrain (p : Props) : p.lmp2 Lmp2.synchronizationTrain = p.view.lmp 2 2 := mask_bit (i := 2) rfl
@[simp] theorem lmp2_synchronizationScan (p : Props) : p.lmp2 Lmp2.synchronizationScan = p.view.lmp 2 3 := mask_bit (i := 3) rfl
@[simp] theorem lmp2_hciInquiryResponseNotificationEvent (p : Props) : p.lmp2 Lmp2.hciInquiryResponseNotificationEvent = p.view.lmp 2 4 := mask_bit (i := 4) rfl
@[simp] theorem lmp2_generalizedInterlacedScan (p : Props) : p.lmp2 Lmp2.generalizedInterlacedScan = p.view.lmp 2 5 := mask_bit (i := 5) rfl
@[simp] theorem lmp2_coarseClockAdjustment (p : Props) : p.lmp2 Lmp2.coarseClockAdjustment = p.view.lmp 2 6 := mask_bit (i := 6) rfl
@[simp] theorem lmp2_secureConnectionsControllerSupport (p : Props) : p.lmp2 Lmp2.secureConnectionsControllerSupport = p.view.lmp 2 8 := mask_bit (i := 8) rfl
@[simp] theorem lmp2_ping (p : Props) : p.lmp2 Lmp2.ping = p.view.lmp 2 9 := mask_bit (i := 9) rfl
@[simp] theorem lmp2_slotAvailabilityMask (p : Props) : p.lmp2 Lmp2.slotAvailabilityMask = p.view.lmp 2 10 := mask_bit (i := 10) rfl
@[simp] theorem lmp2_trainNudging (p : Props) : p.lmp2 Lmp2.trainNudging = p.view.lmp 2 11 := mask_bit (i := 11) rfl

@[simp] theorem roles_initiator (p : Props) : (p.roles &&& 1 != 0) = p.view.initiator := mask_bit (i := 0) rfl

@[simp] theorem command_view (p : Props) (i : Nat) : p.command i = p.view.command i :=
  mask_bit (by rw [Nat.one_shiftLeft])

/-- The name of a requirement in the table. -/
def Cond.name : Cond → Name
  | .mandatory => .m
  | .optional => .o
  | .excluded => .x
  | .c1 => .c 1
  | .c2 => .c 2
  | .c3 => .c 3
  | .c4 => .c 4
  | .c6 => .c 6
  | .c7 => .c 7
  | .c8 => .c 8
  | .c9 => .c 9
  | .c10 => .c 10
  | .c11 => .c 11
  | .c12 => .c 12
  | .c13 => .c 13
  | .c15 => .c 15
  | .c16 => .c 16
  | .c17 => .c 17
  | .c18 => .c 18
  | .c19 => .c 19
  | .c20 => .c 20
  | .c21 => .c 21
  | .c22 => .c 22
  | .c25 => .c 25
  | .c26 => .c 26
  | .c27 => .c 27
  | .c28 => .c 28
  | .c29 => .c 29
  | .c30 => .c 30
  | .c31 => .c 31
  | .c32 => .c 32
  | .c33 => .c 33
  | .c34 => .c 34
  | .c35 => .c 35
  | .c36 => .c 36
  | .c37 => .c 37
  | .c39 => .c 39
  | .c40 => .c 40
  | .c41 => .c 41
  | .c42 => .c 42
  | .c44 => .c 44
  | .c45 => .c 45
  | .c46 => .c 46
  | .c47 => .c 47
  | .c49 => .c 49
  | .c50 => .c 50
  | .c51 => .c 51
  | .c52 => .c 52
  | .c53 => .c 53
  | .c55 => .c 55
  | .c57 => .c 57
  | .c58 => .c 58
  | .c59 => .c 59
  | .c60 => .c 60
  | .c61 => .c 61
  | .c62 => .c 62
  | .c64 => .c 64
  | .c75 => .c 75
  | .c76 => .c 76
  | .c94 => .c 94
  | .c96 => .c 96
  | .c97 => .c 97
  | .c98 => .c 98
  | .c99 => .c 99
  | .c103 => .c 103
  | .c106 => .c 106
  | .c107 => .c 107
  | .c108 => .c 108
  | .c109 => .c 109
  | .c111 => .c 111
  | .c112 => .c 112
  | .c113 => .c 113
  | .c114 => .c 114
  | .c115 => .c 115
  | .c116 => .c 116
  | .c117 => .c 117
  | .c118 => .c 118
  | .c119 => .c 119
  | .c120 => .c 120
  | .c121 => .c 121
  | .c122 => .c 122
  | .c123 => .c 123
  | .c124 => .c 124
  | .c125 => .c 125
  | .c127 => .c 127
  | .c128 => .c 128
  | .c129 => .c 129
  | .c133 => .c 133
  | .c134 => .c 134
  | .c135 => .c 135
  | .c136 => .c 136
  | .c138 => .c 138
  | .c139 => .c 139
  | .c140 => .c 140
  | .c141 => .c 141
  | .c142 => .c 142
  | .c143 => .c 143
  | .c145 => .c 145
  | .c146 => .c 146
  | .c148 => .c 148
  | .c151 => .c 151
  | .c152 => .c 152
  | .c153 => .c 153
  | .c154 => .c 154
  | .c155 => .c 155
  | .c156 => .c 156
  | .c157 => .c 157
  | .c201 => .c 201
  | .c202 => .c 202
  | .c203 => .c 203
  | .c204 => .c 204
  | .c205 => .c 205
  | .c212 => .c 212
  | .c213 => .c 213
  | .c214 => .c 214
  | .c215 => .c 215
  | .c217 => .c 217
  | .c218 => .c 218
  | .c220 => .c 220
  | .c221 => .c 221

/-- What a rule asks. -/
def Rule.asks (r : Rule) (v : View) : Requirement :=
  if r.must.holds v then .mandatory else if r.may.holds v then .optional else .excluded

theorem rule_1 : rule (.c 1) = mustIf .yes := rfl
theorem rule_2 : rule (.c 2) = mustIf .yes := rfl
theorem rule_3 : rule (.c 3) = mustIf .yes := rfl
theorem rule_4 : rule (.c 4) = mustIf (.ll 0) := rfl
theorem rule_6 : rule (.c 6) = mustIf (.ll 1) := rfl
theorem rule_7 : rule (.c 7) = mustIf (.ll 0 ⊓ .ll 4) := rfl
theorem rule_8 : rule (.c 8) = mustOrMay (.ll 5) := rfl
theorem rule_9 : rule (.c 9) = mustIf (.ll 6) := rfl
theorem rule_10 : rule (.c 10) = mayIf (.ll 6) := rfl
theorem rule_11 : rule (.c 11) = mustOrMay (.ll 8 ⊔ .ll 11) := rfl
theorem rule_12 : rule (.c 12) = mustOrMay (.ll 8 ⊔ .ll 11 ⊔ .ll 9) := rfl
theorem rule_13 : rule (.c 13) = mustOrMay (.ll 8 ⊔ .ll 11 ⊔ .ll 10) := rfl
theorem rule_15 : rule (.c 15) = mustIf .yes := rfl
theorem rule_16 : rule (.c 16) = mustIf (.ll 13) := rfl
theorem rule_17 : rule (.c 17) = mustIf (.ll 12) := rfl
theorem rule_18 : rule (.c 18) = mustIf (.ll 13) := rfl
theorem rule_19 : rule (.c 19) = mustIf (.ll 12) := rfl
theorem rule_20 : rule (.c 20) = mustIf (.ll 12) := rfl
theorem rule_21 : rule (.c 21) = mustIf (.ll 13) := rfl
theorem rule_22 : rule (.c 22) = mustOrMay .yes := rfl
theorem rule_25 : rule (.c 25) = mustIf (.ll 17) := rfl
theorem rule_26 : rule (.c 26) = mustIf (.ll 18) := rfl
theorem rule_27 : rule (.c 27) = mustIf (.ll 19) := rfl
theorem rule_28 : rule (.c 28) = mustIf (.ll 20) := rfl
theorem rule_29 : rule (.c 29) = mustOrMay (.ll 18 ⊔ .ll 19) := rfl
theorem rule_30 : rule (.c 30) = mustOrMay (.ll 17 ⊔ .ll 20) := rfl
theorem rule_31 : rule (.c 31) = mustIf (.ll 17 ⊔ .ll 18 ⊔ .ll 19 ⊔ .ll 20) := rfl
theorem rule_32 : rule (.c 32) = (⟨.ll 25, .ll 13⟩ : Rule) := rfl
theorem rule_33 : rule (.c 33) = mustIf (.ll 24) := rfl
theorem rule_34 : rule (.c 34) = mustIf (.ll 24) := rfl
theorem rule_35 : rule (.c 35) = mustIf (.ll 25) := rfl
theorem rule_36 : rule (.c 36) = mustIf .yes := rfl
theorem rule_37 : rule (.c 37) = mustIf .no := rfl
theorem rule_39 : rule (.c 39) = mustIf (.ll 28) := rfl
theorem rule_40 : rule (.c 40) = mustIf (.ll 29) := rfl
theorem rule_41 : rule (.c 41) = mustIf (.ll 30) := rfl
theorem rule_42 : rule (.c 42) = mustIf (.ll 31) := rfl
theorem rule_44 : rule (.c 44) = (⟨.ll 26 ⊓ (.ll 28 ⊔ .ll 29), .ll 26⟩ : Rule) := rfl
theorem rule_45 : rule (.c 45) = mustIf (.ll 28 ⊔ .ll 29 ⊔ .ll 30) := rfl
theorem rule_46 : rule (.c 46) = mustIf (.ll 28 ⊔ .ll 29 ⊔ .ll 31) := rfl
theorem rule_47 : rule (.c 47) = mustIf (.ll 28 ⊔ .ll 29 ⊔ .ll 30 ⊔ .ll 31) := rfl
theorem rule_49 : rule (.c 49) = mustOrMay (.ll 28 ⊔ .ll 29 ⊔ .ll 37) := rfl
theorem rule_50 : rule (.c 50) = mayIf (.ll 28 ⊔ .ll 29 ⊔ .ll 31) := rfl
theorem rule_51 : rule (.c 51) = mustIf (.ll 33) := rfl
theorem rule_52 : rule (.c 52) = mustIf (.ll 35) := rfl
theorem rule_53 : rule (.c 53) = mustOrMay (.ll 33) := rfl
theorem rule_55 : rule (.c 55) = mustOrMay (.ll 28 ⊔ .ll 29 ⊔ .ll 30) := rfl
theorem rule_57 : rule (.c 57) = mustIf (.ll 37) := rfl
theorem rule_58 : rule (.c 58) = mustIf (.ll 39) := rfl
theorem rule_59 : rule (.c 59) = mustIf .yes := rfl
theorem rule_60 : rule (.c 60) = mustIf (.ll 0) := rfl
theorem rule_61 : rule (.c 61) = mustIf (.ll 0) := rfl
theorem rule_62 : rule (.c 62) = mustIf .yes := rfl
theorem rule_64 : rule (.c 64) = mayIf .yes := rfl
theorem rule_75 : rule (.c 75) = mustIf (.ll 46) := rfl
theorem rule_76 : rule (.c 76) = mustIf (.ll 46 ⊓ .initiator) := rfl
theorem rule_94 : rule (.c 94) = mustIf (.command 264 ⊔ .command 377) := rfl
theorem rule_96 : rule (.c 96) = mayIf .yes := rfl
theorem rule_97 : rule (.c 97) = mustIf .yes := rfl
theorem rule_98 : rule (.c 98) = mustIf .yes := rfl
theorem rule_99 : rule (.c 99) = mustOrMay (.command 412) := rfl
theorem rule_103 : rule (.c 103) = mustIf (.command 2) := rfl
theorem rule_106 : rule (.c 106) = mustIf (.command 23) := rfl
theorem rule_107 : rule (.c 107) = mustIf (.command 105) := rfl
theorem rule_108 : rule (.c 108) = mustOrMay (.command 304) := rfl
theorem rule_109 : rule (.c 109) = mustIf (.command 300) := rfl
theorem rule_111 : rule (.c 111) = mustIf (.command 85) := rfl
theorem rule_112 : rule (.c 112) = mustIf (.command 183) := rfl
theorem rule_113 : rule (.c 113) = mustIf (.command 333) := rfl
theorem rule_114 : rule (.c 114) = mustIf (.command 331) := rfl
theorem rule_115 : rule (.c 115) = mustIf (.command 127) := rfl
theorem rule_116 : rule (.c 116) = mustIf (.command 246) := rfl
theorem rule_117 : rule (.c 117) = mustIf (.command 111) := rfl
theorem rule_118 : rule (.c 118) = mustIf (.command 97) := rfl
theorem rule_119 : rule (.c 119) = mustIf (.command 131) := rfl
theorem rule_120 : rule (.c 120) = mustIf (.command 63) := rfl
theorem rule_121 : rule (.c 121) = mustIf (.command 66) := rfl
theorem rule_122 : rule (.c 122) = mustIf (.command 104) := rfl
theorem rule_123 : rule (.c 123) = mustIf .no := rfl
theorem rule_124 : rule (.c 124) = mustIf .no := rfl
theorem rule_125 : rule (.c 125) = mustIf .yes := rfl
theorem rule_127 : rule (.c 127) = mustIf .yes := rfl
theorem rule_128 : rule (.c 128) = mayIf .yes := rfl
theorem rule_129 : rule (.c 129) = mustIf .no := rfl
theorem rule_133 : rule (.c 133) = mustIf (.lmp 0 12 ⊔ .lmp 0 13 ⊔ .lmp 0 0 ⊔ .lmp 0 1 ⊔ .lmp 0 25 ⊔ .lmp 0 26 ⊔ .lmp 0 39 ⊔ .lmp 0 40) := rfl
theorem rule_134 : rule (.c 134) = mustIf (.lmp 0 11 ⊔ .lmp 0 31) := rfl
theorem rule_135 : rule (.c 135) = mayIf (.lmp 0 11 ⊔ .lmp 0 31) := rfl
theorem rule_136 : rule (.c 136) = mayIf (.lmp 2 10) := rfl
theorem rule_138 : rule (.c 138) = (⟨.lmp 2 8, .lmp 0 31⟩ : Rule) := rfl
theorem rule_139 : rule (.c 139) = mustIf (.lmp 0 43 ⊔ .lmp 0 35) := rfl
theorem rule_140 : rule (.c 140) = mustIf (.lmp 0 44 ⊔ .lmp 0 36 ⊔ .lmp 0 43) := rfl
theorem rule_141 : rule (.c 141) = mustIf (.lmp 0 5 ⊔ .lmp 0 6 ⊔ .lmp 0 7) := rfl
theorem rule_142 : rule (.c 142) = mustIf .yes := rfl
theorem rule_143 : rule (.c 143) = mustIf (.lmp 2 8) := rfl
theorem rule_145 : rule (.c 145) = mustOrMay .yes := rfl
theorem rule_146 : rule (.c 146) = mustIf .yes := rfl
theorem rule_148 : rule (.c 148) = mayIf .yes := rfl
theorem rule_151 : rule (.c 151) = mustIf (.lmp 2 8 ⊓ .lmp 2 9) := rfl
theorem rule_152 : rule (.c 152) = mustOrMay (.lmp 0 18) := rfl
theorem rule_153 : rule (.c 153) = mustOrMay (.lmp 0 38) := rfl
theorem rule_154 : rule (.c 154) = mustOrMay (.lmp 0 29) := rfl
theorem rule_155 : rule (.c 155) = mustIf (.command 325) := rfl
theorem rule_156 : rule (.c 156) = mustIf (.command 452) := rfl
theorem rule_157 : rule (.c 157) = mustOrMay (.command 452) := rfl
theorem rule_201 : rule (.c 201) = mustIf (.lmp 2 0) := rfl
theorem rule_202 : rule (.c 202) = mustIf (.lmp 2 1) := rfl
theorem rule_203 : rule (.c 203) = mustIf (.lmp 2 2) := rfl
theorem rule_204 : rule (.c 204) = mustIf (.lmp 2 3) := rfl
theorem rule_205 : rule (.c 205) = mustIf (.lmp 0 48) := rfl
theorem rule_212 : rule (.c 212) = mustIf (.lmp 0 5) := rfl
theorem rule_213 : rule (.c 213) = mustIf (.lmp 0 6) := rfl
theorem rule_214 : rule (.c 214) = mustIf (.lmp 0 7) := rfl
theorem rule_215 : rule (.c 215) = mustIf (.lmp 0 23) := rfl
theorem rule_217 : rule (.c 217) = mustIf (.lmp 0 58) := rfl
theorem rule_218 : rule (.c 218) = mustIf (.lmp 2 8) := rfl
theorem rule_220 : rule (.c 220) = mustIf (.lmp 0 63) := rfl
theorem rule_221 : rule (.c 221) = mustIf (.lmp 0 41) := rfl
theorem rule_m : rule .m = mustIf .yes := rfl
theorem rule_o : rule .o = mayIf .yes := rfl
theorem rule_x : rule .x = mustIf .no := rfl

/-- Computes a requirement and what a rule asks. -/
macro "need_simp" : tactic => `(tactic|
  first
  | rfl
  | (simp only [Props.need, roles_initiator]
     simp [Rule.asks, mustIf, mustOrMay, mayIf, Formula.holds, mandatoryOrExcluded, mandatoryOrOptional, mandatoryOrOptionalOrExcluded, or_assoc]
     done)
  | (simp only [Props.need]
     simp [Rule.asks, mustIf, mustOrMay, mayIf, Formula.holds, mandatoryOrExcluded, mandatoryOrOptional, mandatoryOrOptionalOrExcluded, or_assoc]
     rfl))

theorem need_rule (p : Props) (c : Cond) (hc : c.name ∉ wrong) : p.need c = (rule c.name).asks p.view := by
  cases c with
  | mandatory => rw [Cond.name, rule_m]; need_simp
  | optional => rw [Cond.name, rule_o]; need_simp
  | excluded => rw [Cond.name, rule_x]; need_simp
  | c1 => rw [Cond.name, rule_1]; need_simp
  | c2 => rw [Cond.name, rule_2]; need_simp
  | c3 => rw [Cond.name, rule_3]; need_simp
  | c4 => rw [Cond.name, rule_4]; need_simp
  | c6 => rw [Cond.name, rule_6]; need_simp
  | c7 => rw [Cond.name, rule_7]; need_simp
  | c8 => rw [Cond.name, rule_8]; need_simp
  | c9 => rw [Cond.name, rule_9]; need_simp
  | c10 => exact absurd (by decide) hc
  | c11 => rw [Cond.name, rule_11]; need_simp
  | c12 => exact absurd (by decide) hc
  | c13 => exact absurd (by decide) hc
  | c15 => rw [Cond.name, rule_15]; need_simp
  | c16 => rw [Cond.name, rule_16]; need_simp
  | c17 => rw [Cond.name, rule_17]; need_simp
  | c18 => rw [Cond.name, rule_18]; need_simp
  | c19 => rw [Cond.name, rule_19]; need_simp
  | c20 => rw [Cond.name, rule_20]; need_simp
  | c21 => rw [Cond.name, rule_21]; need_simp
  | c22 => rw [Cond.name, rule_22]; need_simp
  | c25 => rw [Cond.name, rule_25]; need_simp
  | c26 => rw [Cond.name, rule_26]; need_simp
  | c27 => rw [Cond.name, rule_27]; need_simp
  | c28 => rw [Cond.name, rule_28]; need_simp
  | c29 => rw [Cond.name, rule_29]; need_simp
  | c30 => rw [Cond.name, rule_30]; need_simp
  | c31 => rw [Cond.name, rule_31]; need_simp
  | c32 => rw [Cond.name, rule_32]; need_simp
  | c33 => rw [Cond.name, rule_33]; need_simp
  | c34 => rw [Cond.name, rule_34]; need_simp
  | c35 => rw [Cond.name, rule_35]; need_simp
  | c36 => rw [Cond.name, rule_36]; need_simp
  | c37 => exact absurd (by decide) hc
  | c39 => rw [Cond.name, rule_39]; need_simp
  | c40 => rw [Cond.name, rule_40]; need_simp
  | c41 => rw [Cond.name, rule_41]; need_simp
  | c42 => rw [Cond.name, rule_42]; need_simp
  | c44 => rw [Cond.name, rule_44]; need_simp
  | c45 => rw [Cond.name, rule_45]; need_simp
  | c46 => rw [Cond.name, rule_46]; need_simp
  | c47 => rw [Cond.name, rule_47]; need_simp
  | c49 => rw [Cond.name, rule_49]; need_simp
  | c50 => exact absurd (by decide) hc
  | c51 => rw [Cond.name, rule_51]; need_simp
  | c52 => rw [Cond.name, rule_52]; need_simp
  | c53 => rw [Cond.name, rule_53]; need_simp
  | c55 => rw [Cond.name, rule_55]; need_simp
  | c57 => rw [Cond.name, rule_57]; need_simp
  | c58 => rw [Cond.name, rule_58]; need_simp
  | c59 => rw [Cond.name, rule_59]; need_simp
  | c60 => rw [Cond.name, rule_60]; need_simp
  | c61 => rw [Cond.name, rule_61]; need_simp
  | c62 => rw [Cond.name, rule_62]; need_simp
  | c64 => rw [Cond.name, rule_64]; need_simp
  | c75 => rw [Cond.name, rule_75]; need_simp
  | c76 => rw [Cond.name, rule_76]; need_simp
  | c94 => rw [Cond.name, rule_94]; need_simp
  | c96 => rw [Cond.name, rule_96]; need_simp
  | c97 => rw [Cond.name, rule_97]; need_simp
  | c98 => rw [Cond.name, rule_98]; need_simp
  | c99 => rw [Cond.name, rule_99]; need_simp
  | c103 => rw [Cond.name, rule_103]; need_simp
  | c106 => rw [Cond.name, rule_106]; need_simp
  | c107 => rw [Cond.name, rule_107]; need_simp
  | c108 => rw [Cond.name, rule_108]; need_simp
  | c109 => rw [Cond.name, rule_109]; need_simp
  | c111 => rw [Cond.name, rule_111]; need_simp
  | c112 => rw [Cond.name, rule_112]; need_simp
  | c113 => rw [Cond.name, rule_113]; need_simp
  | c114 => rw [Cond.name, rule_114]; need_simp
  | c115 => rw [Cond.name, rule_115]; need_simp
  | c116 => rw [Cond.name, rule_116]; need_simp
  | c117 => rw [Cond.name, rule_117]; need_simp
  | c118 => rw [Cond.name, rule_118]; need_simp
  | c119 => rw [Cond.name, rule_119]; need_simp
  | c120 => rw [Cond.name, rule_120]; need_simp
  | c121 => rw [Cond.name, rule_121]; need_simp
  | c122 => rw [Cond.name, rule_122]; need_simp
  | c123 => exact absurd (by decide) hc
  | c124 => rw [Cond.name, rule_124]; need_simp
  | c125 => rw [Cond.name, rule_125]; need_simp
  | c127 => rw [Cond.name, rule_127]; need_simp
  | c128 => rw [Cond.name, rule_128]; need_simp
  | c129 => rw [Cond.name, rule_129]; need_simp
  | c133 => exact absurd (by decide) hc
  | c134 => rw [Cond.name, rule_134]; need_simp
  | c135 => exact absurd (by decide) hc
  | c136 => exact absurd (by decide) hc
  | c138 => rw [Cond.name, rule_138]; need_simp
  | c139 => rw [Cond.name, rule_139]; need_simp
  | c140 => rw [Cond.name, rule_140]; need_simp
  | c141 => rw [Cond.name, rule_141]; need_simp
  | c142 => rw [Cond.name, rule_142]; need_simp
  | c143 => rw [Cond.name, rule_143]; need_simp
  | c145 => rw [Cond.name, rule_145]; need_simp
  | c146 => rw [Cond.name, rule_146]; need_simp
  | c148 => exact absurd (by decide) hc
  | c151 => rw [Cond.name, rule_151]; need_simp
  | c152 => exact absurd (by decide) hc
  | c153 => exact absurd (by decide) hc
  | c154 => exact absurd (by decide) hc
  | c155 => rw [Cond.name, rule_155]; need_simp
  | c156 => rw [Cond.name, rule_156]; need_simp
  | c157 => rw [Cond.name, rule_157]; need_simp
  | c201 => rw [Cond.name, rule_201]; need_simp
  | c202 => rw [Cond.name, rule_202]; need_simp
  | c203 => rw [Cond.name, rule_203]; need_simp
  | c204 => rw [Cond.name, rule_204]; need_simp
  | c205 => rw [Cond.name, rule_205]; need_simp
  | c212 => rw [Cond.name, rule_212]; need_simp
  | c213 => rw [Cond.name, rule_213]; need_simp
  | c214 => rw [Cond.name, rule_214]; need_simp
  | c215 => rw [Cond.name, rule_215]; need_simp
  | c217 => rw [Cond.name, rule_217]; need_simp
  | c218 => rw [Cond.name, rule_218]; need_simp
  | c220 => rw [Cond.name, rule_220]; need_simp
  | c221 => rw [Cond.name, rule_221]; need_simp

/-! ## The tables -/

set_option maxRecDepth 100000 in
theorem rows_names : rows.all (fun r => lookup tableBr r.1 == some r.2.1.name && lookup tableLe r.1 == some r.2.2.name) = true := by
  decide +kernel

set_option maxRecDepth 100000 in
theorem rows_complete : tableBr.all (fun g => g.2.all (fun i => rows.any (fun r => r.1 == i))) = true := by
  decide +kernel

theorem lookup_mem {t : List (Name × List Nat)} {i : Nat} {n : Name} (h : lookup t i = some n) :
    ∃ g ∈ t, i ∈ g.2 := by
  simp only [lookup, Option.map_eq_some_iff] at h
  obtain ⟨g, hg, _⟩ := h
  exact ⟨g, List.mem_of_find?_eq_some hg, by simpa using List.find?_some hg⟩

theorem row_of {i : Nat} {b l : Name} (hb : lookup tableBr i = some b) (hl : lookup tableLe i = some l) :
    (∃ r ∈ rows, r.1 = i) ∧ ∀ r ∈ rows, r.1 = i → r.2.1.name = b ∧ r.2.2.name = l := by
  constructor
  · obtain ⟨g, hg, hi⟩ := lookup_mem hb
    have := (List.all_eq_true.mp ((List.all_eq_true.mp rows_complete) g hg)) i hi
    obtain ⟨r, hr, h⟩ := List.any_eq_true.mp this
    exact ⟨r, hr, by simpa using h⟩
  · intro r hr he
    have := (List.all_eq_true.mp rows_names) r hr
    rw [he] at this
    simp only [Bool.and_eq_true, beq_iff_eq, hb, hl, Option.some.injEq] at this
    exact ⟨this.1.symm, this.2.symm⟩

/-- What two truth values ask. -/
def asks2 (must may : Bool) : Requirement := if must then .mandatory else if may then .optional else .excluded

theorem check_bool : ∀ br le a b c d s : Bool, (br || le) = true → checkRequirement br (asks2 a b) le (asks2 c d) s =
    (if s then (br && a || le && c) || (br && b || le && d) else !(br && a || le && c)) := by decide

/-- The check of a row, in terms of what the rules ask. -/
theorem check_asks (v : View) (b l : Rule) (i : Nat) (ht : v.br = true ∨ v.le = true) :
    checkRequirement v.br (b.asks v) v.le (l.asks v) (v.command i) = agrees v b l i :=
  check_bool _ _ _ _ _ _ _ (by simpa using ht)

theorem mem_log (p : Props) (i : Nat) : Message.command i ∈ p.log ↔ ∃ r ∈ rows, r.1 = i ∧
    checkRequirement p.br (p.need r.2.1) p.le (p.need r.2.2) (p.command r.1) = false := by
  have h : Message.command i ∈ p.log ↔ i ∈ rows.flatMap p.checkRow := by
    simp only [Props.log, Props.checkCommands]
    cases p.checkFeatures <;> simp
  rw [h, List.mem_flatMap]
  constructor
  · rintro ⟨r, hr, hi⟩
    simp only [Props.checkRow] at hi
    split at hi
    · cases hi
    · rename_i hc
      exact ⟨r, hr, (List.mem_singleton.mp hi).symm, by simpa using hc⟩
  · rintro ⟨r, hr, hi, hc⟩
    exact ⟨r, hr, by simp only [Props.checkRow, hc]; simp [hi]⟩

end Verif.Cfg
