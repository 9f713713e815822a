import Verif.Pdl.Spec
import Verif.Pdl.Declared
/-!
# The examples of packets/hci_packets.pdl

Written by tools/gen_pdl.py.
-/
namespace Verif.Pdl

/-- The `test` declarations of packets/hci_packets.pdl: the packet and its octets. -/
def vectors : List (List Packet × String × List Nat) := [
  (Hci.packetsCommand, "Inquiry", [1, 4, 5, 51, 139, 158, 170, 187]),
  (Hci.packetsEvent, "InquiryStatus", [15, 4, 0, 1, 1, 4]),
  (Hci.packetsCommand, "InquiryCancel", [2, 4, 0]),
  (Hci.packetsEvent, "InquiryCancelComplete", [14, 4, 1, 2, 4, 0]),
  (Hci.packetsCommand, "PeriodicInquiryMode", [3, 4, 9, 18, 52, 86, 120, 17, 139, 158, 154, 188]),
  (Hci.packetsEvent, "PeriodicInquiryModeComplete", [14, 4, 1, 3, 4, 0]),
  (Hci.packetsCommand, "ExitPeriodicInquiryMode", [4, 4, 0]),
  (Hci.packetsEvent, "ExitPeriodicInquiryModeComplete", [14, 4, 1, 4, 4, 0]),
  (Hci.packetsCommand, "EnhancedSetupSynchronousConnection", [61, 4, 59, 2, 0, 64, 31, 0, 0, 64, 31, 0, 0, 5, 0, 0, 0, 0, 5, 0, 0, 0, 0, 60, 0, 60, 0, 0, 125, 0, 0, 0, 125, 0, 0, 4, 0, 0, 0, 0, 4, 0, 0, 0, 0, 16, 0, 16, 0, 2, 2, 0, 0, 1, 1, 0, 0, 13, 0, 136, 3, 2]),
  (Hci.packetsCommand, "Reset", [3, 12, 0]),
  (Hci.packetsEvent, "ResetComplete", [14, 4, 1, 3, 12, 0]),
  (Hci.packetsEvent, "ResetComplete", [14, 4, 1, 3, 12, 1]),
  (Hci.packetsCommand, "ReadPageTimeout", [23, 12, 0]),
  (Hci.packetsEvent, "ReadPageTimeoutComplete", [14, 6, 1, 23, 12, 0, 17, 34]),
  (Hci.packetsCommand, "WritePageTimeout", [24, 12, 2, 0, 32]),
  (Hci.packetsEvent, "WritePageTimeoutComplete", [14, 4, 1, 24, 12, 0]),
  (Hci.packetsCommand, "ReadInquiryScanActivity", [29, 12, 0]),
  (Hci.packetsEvent, "ReadInquiryScanActivityComplete", [14, 8, 1, 29, 12, 0, 170, 187, 204, 221]),
  (Hci.packetsCommand, "WriteInquiryScanActivity", [30, 12, 4, 0, 8, 18, 0]),
  (Hci.packetsEvent, "WriteInquiryScanActivityComplete", [14, 4, 1, 30, 12, 0]),
  (Hci.packetsCommand, "HostBufferSize", [51, 12, 7, 155, 6, 255, 20, 0, 10, 0]),
  (Hci.packetsEvent, "HostBufferSizeComplete", [14, 4, 1, 51, 12, 0]),
  (Hci.packetsCommand, "ReadNumberOfSupportedIac", [56, 12, 0]),
  (Hci.packetsEvent, "ReadNumberOfSupportedIacComplete", [14, 5, 1, 56, 12, 0, 153]),
  (Hci.packetsCommand, "ReadCurrentIacLap", [57, 12, 0]),
  (Hci.packetsEvent, "ReadCurrentIacLapComplete", [14, 11, 1, 57, 12, 0, 2, 17, 139, 158, 34, 139, 158]),
  (Hci.packetsCommand, "WriteCurrentIacLap", [58, 12, 7, 2, 17, 139, 158, 34, 139, 158]),
  (Hci.packetsEvent, "WriteCurrentIacLapComplete", [14, 4, 1, 58, 12, 0]),
  (Hci.packetsCommand, "WriteSimplePairingMode", [86, 12, 1, 1]),
  (Hci.packetsEvent, "WriteSimplePairingModeComplete", [14, 4, 1, 86, 12, 0]),
  (Hci.packetsCommand, "WriteLeHostSupport", [109, 12, 2, 1, 1]),
  (Hci.packetsEvent, "WriteLeHostSupportComplete", [14, 4, 1, 109, 12, 0]),
  (Hci.packetsCommand, "WriteSecureConnectionsHostSupport", [122, 12, 1, 1]),
  (Hci.packetsEvent, "WriteSecureConnectionsHostSupportComplete", [14, 4, 1, 122, 12, 0]),
  (Hci.packetsCommand, "ReadLocalVersionInformation", [1, 16, 0]),
  (Hci.packetsEvent, "ReadLocalVersionInformationComplete", [14, 12, 1, 1, 16, 0, 9, 0, 0, 9, 29, 0, 190, 2]),
  (Hci.packetsCommand, "ReadLocalSupportedCommands", [2, 16, 0]),
  (Hci.packetsEvent, "ReadLocalSupportedCommandsComplete", [14, 68, 1, 2, 16, 0, 255, 255, 255, 3, 206, 255, 239, 255, 255, 255, 255, 127, 242, 15, 232, 254, 63, 247, 131, 255, 28, 0, 0, 0, 97, 255, 255, 255, 127, 190, 32, 245, 255, 240, 255, 255, 255, 255, 255, 7, 0, 0, 0, 0, 0, 0, 0, 0, 0, 0, 0, 0, 0, 0, 0, 0, 0, 0, 0, 0, 0, 0, 0, 0]),
  (Hci.packetsCommand, "ReadLocalExtendedFeatures", [4, 16, 1, 0]),
  (Hci.packetsCommand, "ReadLocalExtendedFeatures", [4, 16, 1, 1]),
  (Hci.packetsCommand, "ReadLocalExtendedFeatures", [4, 16, 1, 2]),
  (Hci.packetsEvent, "ReadLocalExtendedFeaturesComplete", [14, 14, 1, 4, 16, 0, 0, 2, 255, 254, 143, 254, 216, 63, 91, 135]),
  (Hci.packetsEvent, "ReadLocalExtendedFeaturesComplete", [14, 14, 1, 4, 16, 0, 1, 2, 7, 0, 0, 0, 0, 0, 0, 0]),
  (Hci.packetsEvent, "ReadLocalExtendedFeaturesComplete", [14, 14, 1, 4, 16, 0, 2, 2, 69, 3, 0, 0, 0, 0, 0, 0]),
  (Hci.packetsCommand, "ReadBufferSize", [5, 16, 0]),
  (Hci.packetsEvent, "ReadBufferSizeComplete", [14, 11, 1, 5, 16, 0, 0, 4, 60, 7, 0, 8, 0]),
  (Hci.packetsCommand, "ReadBdAddr", [9, 16, 0]),
  (Hci.packetsEvent, "ReadBdAddrComplete", [14, 10, 1, 9, 16, 0, 20, 142, 97, 95, 54, 136]),
  (Hci.packetsCommand, "LeReadBufferSizeV1", [2, 32, 0]),
  (Hci.packetsEvent, "LeReadBufferSizeV1Complete", [14, 7, 1, 2, 32, 0, 251, 0, 16]),
  (Hci.packetsCommand, "LeSetScanParameters", [11, 32, 7, 1, 18, 0, 18, 0, 1, 0]),
  (Hci.packetsCommand, "LeSetScanEnable", [12, 32, 2, 1, 0]),
  (Hci.packetsCommand, "LeReadFilterAcceptListSize", [15, 32, 0]),
  (Hci.packetsEvent, "LeReadFilterAcceptListSizeComplete", [14, 5, 1, 15, 32, 0, 128]),
  (Hci.packetsCommand, "LeSetAdvertisingSetRandomAddress", [53, 32, 7, 0, 119, 88, 235, 211, 28, 110]),
  (Hci.packetsEvent, "LeSetAdvertisingSetRandomAddressComplete", [14, 4, 1, 53, 32, 0]),
  (Hci.packetsCommand, "LeSetExtendedAdvertisingParametersV1", [54, 32, 25, 0, 19, 0, 144, 1, 0, 194, 1, 0, 7, 1, 0, 0, 0, 0, 0, 0, 0, 0, 249, 1, 0, 1, 1, 0]),
  (Hci.packetsCommand, "LeSetExtendedAdvertisingParametersV1", [54, 32, 25, 1, 19, 0, 144, 1, 0, 194, 1, 0, 7, 1, 0, 0, 0, 0, 0, 0, 0, 0, 249, 1, 0, 1, 1, 0]),
  (Hci.packetsCommand, "LeSetExtendedAdvertisingData", [55, 32, 18, 0, 3, 1, 14, 2, 1, 2, 10, 9, 80, 105, 120, 101, 108, 32, 51, 32, 88]),
  (Hci.packetsEvent, "LeSetExtendedAdvertisingDataComplete", [14, 4, 1, 55, 32, 0]),
  (Hci.packetsCommand, "LeSetExtendedAdvertisingEnable", [57, 32, 6, 1, 1, 1, 0, 0, 0]),
  (Hci.packetsCommand, "LeSetExtendedAdvertisingEnable", [57, 32, 6, 0, 1, 1, 0, 0, 0]),
  (Hci.packetsEvent, "LeSetExtendedAdvertisingEnableComplete", [14, 4, 1, 57, 32, 0]),
  (Hci.packetsCommand, "LeRemoveAdvertisingSet", [60, 32, 1, 1]),
  (Hci.packetsEvent, "LeRemoveAdvertisingSetComplete", [14, 4, 1, 60, 32, 0]),
  (Hci.packetsCommand, "LeSetExtendedScanParameters", [65, 32, 8, 1, 0, 1, 1, 18, 0, 18, 0]),
  (Hci.packetsCommand, "LeSetExtendedScanParameters", [65, 32, 8, 1, 0, 1, 1, 153, 25, 153, 25]),
  (Hci.packetsEvent, "LeSetExtendedScanParametersComplete", [14, 4, 1, 65, 32, 0]),
  (Hci.packetsCommand, "LeSetExtendedScanEnable", [66, 32, 6, 1, 0, 0, 0, 0, 0]),
  (Hci.packetsCommand, "LeSetExtendedScanEnable", [66, 32, 6, 0, 1, 0, 0, 0, 0]),
  (Hci.packetsEvent, "LeSetExtendedScanEnableComplete", [14, 4, 1, 66, 32, 0]),
  (Hci.packetsCommand, "LeExtendedCreateConnectionV1", [67, 32, 42, 1, 1, 0, 0, 0, 0, 0, 0, 0, 3, 0, 8, 48, 0, 24, 0, 40, 0, 0, 0, 244, 1, 0, 0, 0, 0, 0, 8, 48, 0, 24, 0, 40, 0, 0, 0, 244, 1, 0, 0, 0, 0]),
  (Hci.packetsEvent, "SynchronousConnectionComplete", [44, 17, 0, 3, 0, 29, 223, 237, 43, 26, 248, 2, 12, 4, 60, 0, 60, 0, 3]),
  (Hci.packetsCommand, "EnhancedFlush", [95, 12, 3, 2, 0, 0]),
  (Hci.packetsEvent, "EnhancedFlushComplete", [57, 2, 2, 0]),
  (Hci.packetsCommand, "LeGetVendorCapabilities", [83, 253, 0]),
  (Hci.packetsCommand, "LeApcfReadExtendedFeatures", [87, 253, 1, 255]),
  (Hci.packetsEvent, "LeApcfReadExtendedFeaturesComplete", [14, 7, 1, 87, 253, 0, 255, 3, 0])]

/-- The octets are accepted, what is read from them fits, and they are what is written with it. -/
def roundTrip (p : Packet) (l : List Nat) : Bool := match parse p l with
  | none => false
  | some (v, pl) => p.legal v pl && serialize p v pl == l

theorem vectors_ok : vectors.all (fun t => roundTrip (named t.1 t.2.1) t.2.2) = true := by decide +kernel

end Verif.Pdl
