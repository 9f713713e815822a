import Verif.Pol.Model
import Verif.Wire.Model

/-!
# From the octets of a BR/EDR command to the call of the controller

Models the handlers of `DualModeController` for the commands of `Verif.Pol` and `Verif.Br`
(/repo/model/controller/dual_mode_controller.cc, the lines at each definition): each creates the view of its packet
(packets/hci_packets.pdl, in `Verif.Pdl`), hands the values of the fields to a function of the controller, and answers with an
event that has the status and the values. The handler is found by the opcode (199-275, 4017-4547).

Simplifications.
* Values that are not among those of an enumeration are not followed (`none`) where the model of the call has none for them.
* `none` is also the outcome for octets that are not a valid packet (CHECK_PACKET_VIEW; `Verif.Hci` has that), for other
  opcodes, and for undefined behaviour of the called function.
* Disconnect and Read Remote Version Information of LE connections and CIS are not followed; `Verif.Both` has the former.
* Reset and Set Event Mask also change the LE controller; `Verif.Link` has that.
* The checks of `HandleCommand` before the handler is called are in `Verif.Hci`.
* Not here: the out of band data, the commands that `Br.Cmd.setInfo` stands for, Read Local Extended Features, and data.
-/
namespace Verif.WireBr

open Verif.Pol Verif.Pdl Verif.Pdl.Hci
open Verif.Br (Role)
open Verif.Sco (ConnParams)
open Verif.Wire (fields opcode)

/-- `CreateConnectionRoleSwitch`, hci_packets.pdl 1080-1083. -/
def flag : Nat → Option Bool
  | 0 => some false
  | 1 => some true
  | _ => none

/-- `Role`, hci_packets.pdl: CENTRAL 0, PERIPHERAL 1. -/
def role : Nat → Option Role
  | 0 => some .central
  | 1 => some .peripheral
  | _ => none

/-- The parameters of a synchronous connection, in the order of the packet, handed over as in 590-594. -/
def syncParams (b d l v e t : Nat) : ConnParams :=
  { txBandwidth := UInt32.ofNat b, rxBandwidth := UInt32.ofNat d, maxLatency := UInt16.ofNat l,
    voiceSetting := UInt16.ofNat v, effort := UInt8.ofNat e, packetType := UInt16.ofNat t }

/-- `Inquiry`, 1436-1450. -/
def hInquiry (l : List Nat) : Option PCmd := (fields 0x0401 bodyInquiry l).bind
  fun (((k, _), t, n, _) : (Nat × Unit) × Nat × Nat × Unit) => some (.base (.inquiry k t n))

/-- `WriteCurrentIacLap`, 1280-1289. -/
def hWriteIac (l : List Nat) : Option PCmd := (fields 0x0c3a bodyWriteCurrentIacLap l).bind
  fun ((ks, _) : List (Nat × Unit) × Unit) => some (.base (.writeIac (ks.map (·.1))))

/-- `InquiryCancel`, 1452-1460. -/
def hInquiryCancel (l : List Nat) : Option PCmd := (fields 0x0402 bodyInquiryCancel l).bind
  fun (_ : Unit) => some (.base .inquiryCancel)

/-- `CreateConnection`, 2077-2099. -/
def hCreate (l : List Nat) : Option PCmd := (fields 0x0405 bodyCreateConnection l).bind
  fun ((a, _, _, _, _, w, _) : Nat × Nat × Nat × Nat × Nat × Nat × Unit) => (flag w).map (fun w => .base (.create a w))

/-- `Disconnect`, 2115-2135. -/
def hDisconnect (l : List Nat) : Option PCmd := (fields 0x0406 bodyDisconnect l).bind
  fun ((h, r, _) : Nat × Nat × Unit) => if h ≤ 0x1ff then some (.base (.disconnect h r)) else none

/-- `AddScoConnection`, 567-579. -/
def hAddSco (l : List Nat) : Option PCmd := (fields 0x0407 bodyAddScoConnection l).bind
  fun ((h, t, _) : Nat × Nat × Unit) => some (.base (.addSco h (UInt16.ofNat t)))

/-- `CreateConnectionCancel`, 2101-2113. -/
def hCancel (l : List Nat) : Option PCmd := (fields 0x0408 bodyCreateConnectionCancel l).bind
  fun ((a, _) : Nat × Unit) => some (.base (.cancel a))

/-- `AcceptConnectionRequest`, 1462-1476. -/
def hAccept (l : List Nat) : Option PCmd := (fields 0x0409 bodyAcceptConnectionRequest l).bind
  fun ((a, r, _) : Nat × Nat × Unit) => some (.base (.accept a (r == 0)))

/-- `RejectConnectionRequest`, 1478-1491. -/
def hReject (l : List Nat) : Option PCmd := (fields 0x040a bodyRejectConnectionRequest l).bind
  fun ((a, r, _) : Nat × Nat × Unit) => some (.base (.reject a r))

/-- `ChangeConnectionPacketType`, 779-793. -/
def hPacketType (l : List Nat) : Option PCmd := (fields 0x040f bodyChangeConnectionPacketType l).bind
  fun ((h, t, _) : Nat × Nat × Unit) => some (.packetType h t)

/-- `ChangeConnectionLinkKey`, 905-917. -/
def hChangeKey (l : List Nat) : Option PCmd := (fields 0x0415 bodyChangeConnectionLinkKey l).bind
  fun ((h, _) : Nat × Unit) => some (.changeKey h)

/-- `CentralLinkKey`, 919-930. -/
def hCentralKey (l : List Nat) : Option PCmd := (fields 0x0417 bodyCentralLinkKey l).bind
  fun ((f, _) : Nat × Unit) => some (.centralKey f)

/-- `RemoteNameRequest`, 1503-1516. -/
def hName (l : List Nat) : Option PCmd := (fields 0x0419 bodyRemoteNameRequest l).bind
  fun ((a, _, _, _, _) : Nat × Nat × Nat × Nat × Unit) => some (.base (.name a))

/-- `ReadRemoteSupportedFeatures`, 540-551. -/
def hFeatures (l : List Nat) : Option PCmd := (fields 0x041b bodyReadRemoteSupportedFeatures l).bind
  fun ((h, _) : Nat × Unit) => some (.base (.features h))

/-- `ReadRemoteExtendedFeatures`, 512-525. -/
def hExt (l : List Nat) : Option PCmd := (fields 0x041c bodyReadRemoteExtendedFeatures l).bind
  fun ((h, p, _) : Nat × Nat × Unit) => some (.base (.ext h p))

/-- `ReadRemoteVersionInformation`, 438-455. -/
def hVersion (l : List Nat) : Option PCmd := (fields 0x041d bodyReadRemoteVersionInformation l).bind
  fun ((h, _) : Nat × Unit) => if h ≤ 0xff then some (.base (.version h)) else none

/-- `SetupSynchronousConnection`, 581-598. -/
def hSetupSync (l : List Nat) : Option PCmd := (fields 0x0428 bodySetupSynchronousConnection l).bind
  fun ((h, b, d, l, v, e, t, _) : Nat × Nat × Nat × Nat × Nat × Nat × Nat × Unit) => some (.base (.setupSync h (syncParams b
    d l v e t) false))

/-- `AcceptSynchronousConnection`, 600-617. -/
def hAcceptSync (l : List Nat) : Option PCmd := (fields 0x0429 bodyAcceptSynchronousConnection l).bind
  fun ((a, b, d, l, v, e, t, _) : Nat × Nat × Nat × Nat × Nat × Nat × Nat × Unit) => some (.base (.acceptSync a (syncParams b
    d l v e t)))

/-- `RejectSynchronousConnection`, 669-682. -/
def hRejectSync (l : List Nat) : Option PCmd := (fields 0x042a bodyRejectSynchronousConnection l).bind
  fun ((a, r, _) : Nat × Nat × Unit) => some (.base (.rejectSync a r))

/-- `HoldMode`, 1002-1015. -/
def hHold (l : List Nat) : Option PCmd := (fields 0x0801 bodyHoldMode l).bind
  fun ((h, x, y, _) : Nat × Nat × Nat × Unit) => some (.hold h x y)

/-- `SniffMode`, 1017-1033. -/
def hSniff (l : List Nat) : Option PCmd := (fields 0x0803 bodySniffMode l).bind
  fun ((h, x, y, n, t, _) : Nat × Nat × Nat × Nat × Nat × Unit) => some (.sniff h x y n t)

/-- `ExitSniffMode`, 1035-1045. -/
def hExitSniff (l : List Nat) : Option PCmd := (fields 0x0804 bodyExitSniffMode l).bind
  fun ((h, _) : Nat × Unit) => some (.exitSniff h)

/-- `QosSetup`, 1047-1064. -/
def hQos (l : List Nat) : Option PCmd := (fields 0x0807 bodyQosSetup l).bind
  fun ((h, s, r, b, l, v, _) : Nat × Nat × Nat × Nat × Nat × Nat × Unit) => some (.qos h s r b l v)

/-- `RoleDiscovery`, 1066-1079. -/
def hRole (l : List Nat) : Option PCmd := (fields 0x0809 bodyRoleDiscovery l).bind
  fun ((h, _) : Nat × Unit) => some (.role h)

/-- `SwitchRole`, 527-538. -/
def hSwitchRole (l : List Nat) : Option PCmd := (fields 0x080b bodySwitchRole l).bind
  fun ((a, r, _) : Nat × Nat × Unit) => (role r).map (fun r => .base (.switchRole a r))

/-- `ReadLinkPolicySettings`, 1142-1155. -/
def hReadPolicy (l : List Nat) : Option PCmd := (fields 0x080c bodyReadLinkPolicySettings l).bind
  fun ((h, _) : Nat × Unit) => some (.readPolicy h)

/-- `WriteLinkPolicySettings`, 1157-1171. -/
def hWritePolicy (l : List Nat) : Option PCmd := (fields 0x080d bodyWriteLinkPolicySettings l).bind
  fun ((h, p, _) : Nat × Nat × Unit) => some (.base (.writePolicy h p))

/-- `ReadDefaultLinkPolicySettings`, 1081-1091. -/
def hReadDefault (l : List Nat) : Option PCmd := (fields 0x080e bodyReadDefaultLinkPolicySettings l).bind
  fun (_ : Unit) => some .readDefault

/-- `WriteDefaultLinkPolicySettings`, 1093-1104. -/
def hWriteDefaultPolicy (l : List Nat) : Option PCmd := (fields 0x080f bodyWriteDefaultLinkPolicySettings l).bind
  fun ((p, _) : Nat × Unit) => some (.base (.writeDefaultPolicy p))

/-- `FlowSpecification`, 1121-1140. -/
def hFlow (l : List Nat) : Option PCmd := (fields 0x0810 bodyFlowSpecification l).bind
  fun ((h, d, s, r, k, b, l, _) : Nat × Nat × Nat × Nat × Nat × Nat × Nat × Unit) => some (.flow h d s r k b l)

/-- `SniffSubrating`, 1106-1119. -/
def hSubrating (l : List Nat) : Option PCmd := (fields 0x0811 bodySniffSubrating l).bind
  fun ((h, x, y, z, _) : Nat × Nat × Nat × Nat × Unit) => some (.subrating h x y z)

/-- `SetEventMask`, 823-834. -/
def hSetMask (l : List Nat) : Option PCmd := (fields 0x0c01 bodySetEventMask l).bind
  fun ((m, _) : Nat × Unit) => some (.base (.setMask m))

/-- `Reset`, 319-331. -/
def hReset (l : List Nat) : Option PCmd := (fields 0x0c03 bodyReset l).bind
  fun (_ : Unit) => some (.base .reset)

/-- `WritePageTimeout`, 990-1000. -/
def hWritePageTimeout (l : List Nat) : Option PCmd := (fields 0x0c18 bodyWritePageTimeout l).bind
  fun ((t, _) : Nat × Unit) => some (.base (.writePageTimeout t))

/-- `WriteScanEnable`, 1348-1359. -/
def hWriteScanEnable (l : List Nat) : Option PCmd := (fields 0x0c1a bodyWriteScanEnable l).bind
  fun ((n, _) : Nat × Unit) => some (.base (.writeScanEnable (n == 3 || n == 1) (n == 3 || n == 2)))

/-- `WriteLinkSupervisionTimeout`, 1173-1186. -/
def hSupervision (l : List Nat) : Option PCmd := (fields 0x0c37 bodyWriteLinkSupervisionTimeout l).bind
  fun ((h, t, _) : Nat × Nat × Unit) => some (.supervision h t)

/-- `WriteInquiryMode`, 847-857. -/
def hWriteInquiryMode (l : List Nat) : Option PCmd := (fields 0x0c45 bodyWriteInquiryMode l).bind
  fun ((m, _) : Nat × Unit) => some (.base (.writeInquiryMode m))

/-- `ReadRssi`, 378-395. -/
def hReadRssi (l : List Nat) : Option PCmd := (fields 0x1405 bodyReadRssi l).bind
  fun ((h, _) : Nat × Unit) => some (.readRssi h)

/-- `ReadEncryptionKeySize`, 397-409. -/
def hKeySize (l : List Nat) : Option PCmd := (fields 0x1408 bodyReadEncryptionKeySize l).bind
  fun ((h, _) : Nat × Unit) => some (.keySize h)

/-- `LeSetDataLength`, 2300-2311. -/
def hLeDataLength (l : List Nat) : Option PCmd := (fields 0x2022 bodyLeSetDataLength l).bind
  fun ((h, o, t, _) : Nat × Nat × Nat × Unit) => some (.leDataLength h o t)

/-- `LeReadPhy`, 2258-2271. -/
def hLePhy (l : List Nat) : Option PCmd := (fields 0x2030 bodyLeReadPhy l).bind
  fun ((h, _) : Nat × Unit) => some (.lePhy h)

/-- `LeReadRemoteTransmitPowerLevel`, 1626-1639. -/
def hLePower (l : List Nat) : Option PCmd := (fields 0x2077 bodyLeReadRemoteTransmitPowerLevel l).bind
  fun ((h, p, _) : Nat × Nat × Unit) => some (.lePower h p)

/-- `LeSetTransmitPowerReportingEnable`, 1641-1655. -/
def hLeReporting (l : List Nat) : Option PCmd := (fields 0x207a bodyLeSetTransmitPowerReportingEnable l).bind
  fun ((h, x, y, _) : Nat × Nat × Nat × Unit) => some (.leReporting h x y)

/-- The handler of the opcode, 4017-4547, up to the call. -/
def command (l : List Nat) : Option PCmd := match opcode l with
  | 0x0401 => hInquiry l
  | 0x0402 => hInquiryCancel l
  | 0x0405 => hCreate l
  | 0x0406 => hDisconnect l
  | 0x0407 => hAddSco l
  | 0x0408 => hCancel l
  | 0x0409 => hAccept l
  | 0x040a => hReject l
  | 0x040f => hPacketType l
  | 0x0415 => hChangeKey l
  | 0x0417 => hCentralKey l
  | 0x0419 => hName l
  | 0x041b => hFeatures l
  | 0x041c => hExt l
  | 0x041d => hVersion l
  | 0x0428 => hSetupSync l
  | 0x0429 => hAcceptSync l
  | 0x042a => hRejectSync l
  | 0x0801 => hHold l
  | 0x0803 => hSniff l
  | 0x0804 => hExitSniff l
  | 0x0807 => hQos l
  | 0x0809 => hRole l
  | 0x080b => hSwitchRole l
  | 0x080c => hReadPolicy l
  | 0x080d => hWritePolicy l
  | 0x080e => hReadDefault l
  | 0x080f => hWriteDefaultPolicy l
  | 0x0810 => hFlow l
  | 0x0811 => hSubrating l
  | 0x0c01 => hSetMask l
  | 0x0c03 => hReset l
  | 0x0c18 => hWritePageTimeout l
  | 0x0c1a => hWriteScanEnable l
  | 0x0c37 => hSupervision l
  | 0x0c3a => hWriteIac l
  | 0x0c45 => hWriteInquiryMode l
  | 0x1405 => hReadRssi l
  | 0x1408 => hKeySize l
  | 0x2022 => hLeDataLength l
  | 0x2030 => hLePhy l
  | 0x2077 => hLePower l
  | 0x207a => hLeReporting l
  | _ => none

/-- The octets of a Command Complete event with these return values; kNumCommandPackets is 1. -/
def complete (op : Nat) (f : Fmt) (v : f.T) : List Nat :=
  serialize ⟨"", [⟨bodyEvent, [(0, 14)]⟩, ⟨bodyCommandComplete, [(1, op)]⟩, ⟨f, []⟩]⟩ ((14, ()), (1, op, ()), v, ()) []

/-- The octets of a Command Status event. -/
def status (op st : Nat) : List Nat :=
  serialize ⟨"", [⟨bodyEvent, [(0, 15)]⟩, ⟨bodyCommandStatus, [(2, op)]⟩, ⟨bodyCreateConnectionStatus, []⟩]⟩
    ((15, ()), (st, 1, op, ()), (), ()) []

/-- The answers of the handlers, at the end of each. -/
def answer (op : Nat) (r : Reply) : PCmd → List Nat
  | .base (.writeIac _) => complete op bodyWriteCurrentIacLapComplete (r.status, ())
  | .base (.inquiryCancel) => complete op bodyInquiryCancelComplete (r.status, ())
  | .base (.cancel a) => complete op bodyCreateConnectionCancelComplete (r.status, a, ())
  | .role h => complete op bodyRoleDiscoveryComplete (r.status, h, r.vals.getD 1 0, ())
  | .readPolicy h => complete op bodyReadLinkPolicySettingsComplete (r.status, h, r.vals.getD 1 0, ())
  | .base (.writePolicy h _) => complete op bodyWriteLinkPolicySettingsComplete (r.status, h, ())
  | .readDefault => complete op bodyReadDefaultLinkPolicySettingsComplete (r.status, r.vals.getD 0 0, ())
  | .base (.writeDefaultPolicy _) => complete op bodyWriteDefaultLinkPolicySettingsComplete (r.status, ())
  | .subrating h _ _ _ => complete op bodySniffSubratingComplete (r.status, h, ())
  | .base (.setMask _) => complete op bodySetEventMaskComplete (r.status, ())
  | .base (.reset) => complete op bodyResetComplete (r.status, ())
  | .base (.writePageTimeout _) => complete op bodyWritePageTimeoutComplete (r.status, ())
  | .base (.writeScanEnable _ _) => complete op bodyWriteScanEnableComplete (r.status, ())
  | .supervision h _ => complete op bodyWriteLinkSupervisionTimeoutComplete (r.status, h, ())
  | .base (.writeInquiryMode _) => complete op bodyWriteInquiryModeComplete (r.status, ())
  | .readRssi h => complete op bodyReadRssiComplete (r.status, h, r.vals.getD 1 0, ())
  | .keySize h => complete op bodyReadEncryptionKeySizeComplete (r.status, h, r.vals.getD 1 0, ())
  | .leDataLength h _ _ => complete op bodyLeSetDataLengthComplete (r.status, h, ())
  | .lePhy h => complete op bodyLeReadPhyComplete (r.status, h, r.vals.getD 1 0, r.vals.getD 2 0, ())
  | .leReporting h _ _ => complete op bodyLeSetTransmitPowerReportingEnableComplete (r.status, h, ())
  | _ => status op r.status

/-- A command: what it does and the octets of the answer. -/
def handle (p : P) (now : Nat) (l : List Nat) : Option (Out × List Nat) := match command l with
  | none => none
  | some c => match Pol.command p now c with
    | none => none
    | some o => some (o, answer (opcode l) o.reply c)

/-- A list of commands, each with the time of its call; the results in the order of the commands. -/
def serve : List (Nat × List Nat) → P → Option (P × List (Out × List Nat))
  | [], p => some (p, [])
  | (now, l) :: ls, p => match handle p now l with
    | none => none
    | some (o, out) => (serve ls o.p).map (fun r => (r.1, (o, out) :: r.2))

end Verif.WireBr
