import Verif.Cfg.Basic
/-! # The conditions of `CheckSupportedFeatures`

Generated by tools/gen_cfg.py from controller_properties.cc 475-748. -/
namespace Verif.Cfg

/-- `lmp_page_0_reserved_bits`, controller_properties.cc 481-537. -/
def reserved0 : Nat → Nat
  | 0 => 0x7fffe7e407000000
  | 1 => 0x7fffe7e407000000
  | 2 => 0x7fffe7e407000000
  | 3 => 0x7fff066401000000
  | 4 => 0x7c86006401000000
  | 5 => 0x7886006401000000
  | 6 => 0x7884000401000000
  | 7 => 0x7884000401000000
  | 8 => 0x7884000401000000
  | 9 => 0x7884000401000100
  | 10 => 0x7884000401000100
  | 11 => 0x7884000401000100
  | _ => 0x7884000401000100

/-- `lmp_page_2_reserved_bits`, controller_properties.cc 481-537. -/
def reserved2 : Nat → Nat
  | 0 => 0xffffffffffffffff
  | 1 => 0xffffffffffffffff
  | 2 => 0xffffffffffffffff
  | 3 => 0xffffffffffffffff
  | 4 => 0xffffffffffffffff
  | 5 => 0xffffffffffffffff
  | 6 => 0xffffffffffffffff
  | 7 => 0xfffffffffffff480
  | 8 => 0xfffffffffffff480
  | 9 => 0xfffffffffffff480
  | 10 => 0xfffffffffffff080
  | 11 => 0xfffffffffffff080
  | _ => 0xfffffffffffff080

/-- The conditions on which `CheckSupportedFeatures` returns `false`, controller_properties.cc 539-745, in their
order. -/
def Props.faults (p : Props) : List Bool := [
  -- 539
  reserved0 p.lmpVersion &&& p.page0 != 0,
  -- 546
  reserved2 p.lmpVersion &&& p.page2 != 0,
  -- 563-565
  !p.lmp0 Lmp0.encryption || !p.lmp0 Lmp0.secureSimplePairingController || !p.lmp0 Lmp0.encapsulatedPdu,
  -- 572-572
  p.lmp0 Lmp0.brEdrNotSupported,
  -- 579-580
  p.lmp0 Lmp0.sniffMode != p.lmp0 Lmp0.sniffSubrating,
  -- 587-588
  p.lmp0 Lmp0.broadcastEncryption && p.lmp2 Lmp2.coarseClockAdjustment,
  -- 595-596
  p.lmp0 Lmp0.roleSwitch && !p.lmp0 Lmp0.slotOffset,
  -- 600-601
  p.lmp0 Lmp0.hv2Packets && !p.lmp0 Lmp0.scoLink,
  -- 605-606
  p.lmp0 Lmp0.hv3Packets && !p.lmp0 Lmp0.scoLink,
  -- 610-612
  p.lmp0 Lmp0.mLawLogSynchronousData && !p.lmp0 Lmp0.scoLink && !p.lmp0 Lmp0.extendedScoLink,
  -- 616-618
  p.lmp0 Lmp0.aLawLogSynchronousData && !p.lmp0 Lmp0.scoLink && !p.lmp0 Lmp0.extendedScoLink,
  -- 622-624
  p.lmp0 Lmp0.cvsdSynchronousData && !p.lmp0 Lmp0.scoLink && !p.lmp0 Lmp0.extendedScoLink,
  -- 628-630
  p.lmp0 Lmp0.transparentSynchronousData && !p.lmp0 Lmp0.scoLink && !p.lmp0 Lmp0.extendedScoLink,
  -- 634-635
  p.lmp0 Lmp0.enhancedDataRateAcl3MbSMode && !p.lmp0 Lmp0.enhancedDataRateAcl2MbSMode,
  -- 640-641
  p.lmp0 Lmp0.ev4Packets && !p.lmp0 Lmp0.extendedScoLink,
  -- 645-646
  p.lmp0 Lmp0.ev5Packets && !p.lmp0 Lmp0.extendedScoLink,
  -- 650-651
  p.lmp0 Lmp0.afhClassificationPeripheral && !p.lmp0 Lmp0.afhCapablePeripheral,
  -- 655-656
  p.lmp0 Lmp0.lmp3SlotEnhancedDataRateAclPackets && !p.lmp0 Lmp0.enhancedDataRateAcl2MbSMode,
  -- 661-662
  p.lmp0 Lmp0.lmp5SlotEnhancedDataRateAclPackets && !p.lmp0 Lmp0.enhancedDataRateAcl2MbSMode,
  -- 667-668
  p.lmp0 Lmp0.afhClassificationCentral && !p.lmp0 Lmp0.afhCapableCentral,
  -- 672-673
  p.lmp0 Lmp0.enhancedDataRateEsco2MbSMode && !p.lmp0 Lmp0.extendedScoLink,
  -- 677-678
  p.lmp0 Lmp0.enhancedDataRateEsco3MbSMode && !p.lmp0 Lmp0.enhancedDataRateEsco2MbSMode,
  -- 683-684
  p.lmp0 Lmp0.lmp3SlotEnhancedDataRateEscoPackets && !p.lmp0 Lmp0.enhancedDataRateEsco2MbSMode,
  -- 689-690
  p.lmp0 Lmp0.extendedInquiryResponse && !p.lmp0 Lmp0.rssiWithInquiryResults,
  -- 694-695
  p.lmp0 Lmp0.simultaneousLeAndBrController && !p.lmp0 Lmp0.leSupportedController,
  -- 699-701
  p.lmp0 Lmp0.erroneousDataReporting && !p.lmp0 Lmp0.scoLink && !p.lmp0 Lmp0.extendedScoLink,
  -- 705-707
  p.lmp0 Lmp0.enhancedPowerControl && (!p.lmp0 Lmp0.powerControlRequests || !p.lmp0 Lmp0.powerControl),
  -- 712-714
  p.lmp2 Lmp2.connectionlessPeripheralBroadcastTransmitterOperation && !p.lmp2 Lmp2.synchronizationTrain,
  -- 718-720
  p.lmp2 Lmp2.connectionlessPeripheralBroadcastReceiverOperation && !p.lmp2 Lmp2.synchronizationScan,
  -- 724-726
  p.lmp2 Lmp2.generalizedInterlacedScan && !p.lmp0 Lmp0.interlacedInquiryScan && !p.lmp0 Lmp0.interlacedPageScan,
  -- 731-735
  p.lmp2 Lmp2.coarseClockAdjustment && (!p.lmp0 Lmp0.afhCapablePeripheral || !p.lmp0 Lmp0.afhCapableCentral || !p.lmp2 Lmp2.synchronizationTrain || !p.lmp2 Lmp2.synchronizationScan),
  -- 740-742
  p.lmp2 Lmp2.secureConnectionsControllerSupport && (!p.lmp0 Lmp0.pauseEncryption || !p.lmp2 Lmp2.ping)]

end Verif.Cfg
