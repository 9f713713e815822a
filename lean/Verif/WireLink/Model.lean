import Verif.Link.Model
import Verif.Sub.Model
import Verif.Wire.Model
import Verif.WireBr.Model

/-!
# From the octets of a command about an LE connection to the call of the controller

Models the handlers of `DualModeController` for the commands of `Verif.Link` and `Verif.Sub`
(/repo/model/controller/dual_mode_controller.cc, the lines at each definition): each creates the view of its packet
(packets/hci_packets.pdl, in `Verif.Pdl`), hands the values of the fields to a function of the LE controller, and answers with
an event. The handler is found by the opcode (199-275, 4017-4547).

Simplifications.
* `none` is the outcome for octets that are not a valid packet (CHECK_PACKET_VIEW; `Verif.Hci` has that), for other opcodes,
  and for undefined behaviour of the called function.
* Set Event Mask, Set Event Mask Page 2 and Read Remote Version Information: the part of the LE controller.
* PHYs and encryption (`Verif.Link`) and the timing (`Verif.Sub`) of one connection do not touch each other: the state has both
  side by side.
-/
namespace Verif.WireLink

open Verif.Pdl Verif.Pdl.Hci
open Verif.Wire (fields opcode data)
open Verif.WireBr (complete status)

/-- A call of the LE controller: of `Verif.Link`, of `Verif.Sub` on a connection, or `LeSetDefaultSubrate`. -/
inductive Call
  | link (c : Link.Cmd)
  | sub (h : Nat) (c : Sub.Cmd)
  | subrate (min max latency cont timeout : Nat)
  deriving DecidableEq, Repr

/-- `ErrorCode`, hci_packets.pdl: the reasons that `Verif.Sub` names. -/
def reason : Nat → Sub.Status
  | 0x00 => .success
  | 0x11 => .unsupportedValue
  | 0x12 => .invalidParameters
  | 0x1a => .unsupportedRemote
  | 0x1e => .invalidLlParameters
  | n => .other n

/-- The other way round. -/
def code : Sub.Status → Nat
  | .success => 0x00
  | .unsupportedValue => 0x11
  | .invalidParameters => 0x12
  | .unsupportedRemote => 0x1a
  | .invalidLlParameters => 0x1e
  | .other n => n

/-- `LeSetDefaultPhy`, 2273-2284. -/
def hSetDefaultPhy (l : List Nat) : Option Call := (fields 0x2031 bodyLeSetDefaultPhy l).bind
  fun ((a, b, t, r, _) : Nat × Nat × Nat × Nat × Unit) => some (.link (.setDefaultPhy (a == 1) (b == 1) t r))

/-- `LeSetPhy`, 2286-2298. -/
def hSetPhy (l : List Nat) : Option Call := (fields 0x2032 bodyLeSetPhy l).bind
  fun ((h, a, b, t, r, _, _) : Nat × Nat × Nat × Nat × Nat × Nat × Unit) => some (.link (.setPhy h (a == 1) (b == 1) t r))

/-- `LeStartEncryption`, 3412-3424. -/
def hEnable (l : List Nat) : Option Call := (fields 0x2019 bodyLeStartEncryption l).bind
  fun ((h, x, e, k, _) : Nat × List (Nat × Unit) × Nat × List (Nat × Unit) × Unit) => some (.link (.enable h (data x) e (data k)))

/-- `LeLongTermKeyRequestReply`, 3426-3439. -/
def hReply (l : List Nat) : Option Call := (fields 0x201a bodyLeLongTermKeyRequestReply l).bind
  fun ((h, k, _) : Nat × List (Nat × Unit) × Unit) => some (.link (.reply h (data k)))

/-- `LeLongTermKeyRequestNegativeReply`, 3441-3453. -/
def hNegative (l : List Nat) : Option Call := (fields 0x201b bodyLeLongTermKeyRequestNegativeReply l).bind
  fun ((h, _) : Nat × Unit) => some (.link (.negative h))

/-- `LeReadRemoteFeaturesPage0`, 2679-2691. -/
def hReadFeatures (l : List Nat) : Option Call := (fields 0x2016 bodyLeReadRemoteFeaturesPage0 l).bind
  fun ((h, _) : Nat × Unit) => some (.link (.readFeatures h))

/-- `ReadRemoteVersionInformation`, 438-455. -/
def hReadVersion (l : List Nat) : Option Call := (fields 0x041d bodyReadRemoteVersionInformation l).bind
  fun ((h, _) : Nat × Unit) => if 0x200 ≤ h ∧ h ≤ 0x2ff then some (.link (.readVersion h)) else none

/-- `SetEventMask`, 823-834. -/
def hSetMask (l : List Nat) : Option Call := (fields 0x0c01 bodySetEventMask l).bind
  fun ((m, _) : Nat × Unit) => some (.link (.setMask m))

/-- `SetEventMaskPage2`, 714-725. -/
def hSetMask2 (l : List Nat) : Option Call := (fields 0x0c63 bodySetEventMaskPage2 l).bind
  fun ((m, _) : Nat × Unit) => some (.link (.setMask2 m))

/-- `LeSetEventMask`, 1518-1528. -/
def hSetLeMask (l : List Nat) : Option Call := (fields 0x2001 bodyLeSetEventMask l).bind
  fun ((m, _) : Nat × Unit) => some (.link (.setLeMask m))

/-- `LeSubrateRequest`, 1670-1682. -/
def hSubrateRequest (l : List Nat) : Option Call := (fields 0x207e bodyLeSubrateRequest l).bind
  fun ((h, x, y, l, c, t, _) : Nat × Nat × Nat × Nat × Nat × Nat × Unit) => some (.sub h (.subrateRequest x y l c t))

/-- `LeConnectionUpdate`, 2062-2075. -/
def hConnectionUpdate (l : List Nat) : Option Call := (fields 0x2013 bodyLeConnectionUpdate l).bind
  fun ((h, x, y, l, t, _, _, _) : Nat × Nat × Nat × Nat × Nat × Nat × Nat × Unit) => some (.sub h (.connectionUpdate x y l t))

/-- `LeRemoteConnectionParameterRequestReply`, 2726-2739. -/
def hParamReply (l : List Nat) : Option Call := (fields 0x2020 bodyLeRemoteConnectionParameterRequestReply l).bind
  fun ((h, x, y, l, t, m, n, _) : Nat × Nat × Nat × Nat × Nat × Nat × Nat × Unit) => some (.sub h (.paramReply x y l t m n))

/-- `LeRemoteConnectionParameterRequestNegativeReply`, 2741-2754. -/
def hParamRefuse (l : List Nat) : Option Call := (fields 0x2021 bodyLeRemoteConnectionParameterRequestNegativeReply l).bind
  fun ((h, q, _) : Nat × Nat × Unit) => some (.sub h (.paramRefuse (reason q)))

/-- `LeSetDefaultSubrate`, 1657-1668. -/
def hSubrate (l : List Nat) : Option Call := (fields 0x207d bodyLeSetDefaultSubrate l).bind
  fun ((x, y, l, c, t, _) : Nat × Nat × Nat × Nat × Nat × Unit) => some (.subrate x y l c t)

/-- Finds the handler of an opcode, 4017-4547. -/
def command (l : List Nat) : Option Call := match opcode l with
  | 0x2031 => hSetDefaultPhy l
  | 0x2032 => hSetPhy l
  | 0x2019 => hEnable l
  | 0x201a => hReply l
  | 0x201b => hNegative l
  | 0x2016 => hReadFeatures l
  | 0x041d => hReadVersion l
  | 0x0c01 => hSetMask l
  | 0x0c63 => hSetMask2 l
  | 0x2001 => hSetLeMask l
  | 0x207e => hSubrateRequest l
  | 0x2013 => hConnectionUpdate l
  | 0x2020 => hParamReply l
  | 0x2021 => hParamRefuse l
  | 0x207d => hSubrate l
  | _ => none

/-- The answers of the handlers, at the end of each. -/
def answer (op st : Nat) : Call → List Nat
  | .link (.setDefaultPhy _ _ _ _) => complete op bodyLeSetDefaultPhyComplete (st, ())
  | .link (.reply h _) => complete op bodyLeLongTermKeyRequestReplyComplete (st, h, ())
  | .link (.negative h) => complete op bodyLeLongTermKeyRequestNegativeReplyComplete (st, h, ())
  | .link (.setMask _) => complete op bodySetEventMaskComplete (st, ())
  | .link (.setMask2 _) => complete op bodySetEventMaskPage2Complete (st, ())
  | .link (.setLeMask _) => complete op bodyLeSetEventMaskComplete (st, ())
  | .sub h (.paramReply _ _ _ _ _ _) => complete op bodyLeRemoteConnectionParameterRequestReplyComplete (st, h, ())
  | .sub h (.paramRefuse _) => complete op bodyLeRemoteConnectionParameterRequestNegativeReplyComplete (st, h, ())
  | .subrate _ _ _ _ _ => complete op bodyLeSetDefaultSubrateComplete (st, ())
  | _ => status op st

/-- The connections of the LE controller: PHYs and encryption; timing; the subrates connections made from now on accept. -/
structure Ctl where
  dev : Link.Dev
  ends : Nat → Option Sub.End
  accept : Sub.Accept

/-- What a call does: the status, the new state, what goes to the peers and to the host. -/
structure Did where
  status : Nat
  ctl : Ctl
  out : List (Nat × Link.Pkt)
  ev : List Link.Ev
  pdus : List (Nat × Sub.Pdu)
  evs : List (Nat × Sub.Ev)

/-- The call. The functions of `Verif.Sub` begin with `HasLeAclHandle`: le_controller.cc 2049-2052, 6401-6403, 6434-6436,
6479-6481. Nothing: the controller aborts, or an integer overflows. -/
def perform (s : Ctl) : Call → Option Did
  | .link c => (Link.command s.dev c).map (fun o => ⟨o.status, { s with dev := o.dev }, o.out, o.ev, [], []⟩)
  | .sub h c => match s.ends h with
    | none => some ⟨0x02, s, [], [], [], []⟩
    | some e => match Sub.command e c with
      | .ok st e' ps es => some ⟨code st, { s with ends := fun k => if k = h then some e' else s.ends k }, [], [],
          ps.map (fun p => (h, p)), es.map (fun x => (h, x))⟩
      | _ => none
  | .subrate a b l c t => match Sub.setDefaultSubrate s.accept a b l c t with
    | (st, x) => some ⟨code st, { s with accept := x }, [], [], [], []⟩

/-- A command: what it does and the octets of the answer. -/
def handle (s : Ctl) (l : List Nat) : Option (Did × List Nat) := match command l with
  | none => none
  | some c => (perform s c).map (fun d => (d, answer (opcode l) d.status c))

/-- A list of commands; the results in the order of the commands. -/
def serve : List (List Nat) → Ctl → Option (Ctl × List (Did × List Nat))
  | [], s => some (s, [])
  | l :: ls, s => match handle s l with
    | none => none
    | some (d, out) => (serve ls d.ctl).map (fun r => (r.1, (d, out) :: r.2))

end Verif.WireLink
