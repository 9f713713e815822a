import Verif.WireLink.Model
import Verif.WireBr.Events
import Verif.Pdl.LayoutsLinkLayer

/-!
# The octets between two LE controllers

Models how the packets of `Verif.Link` and `Verif.Sub` are written by the controller that sends them and read by the one that
receives them: which builder and which view of packets/link_layer_packets.pdl is used, and with which values
(/repo/model/controller/le_controller.cc, the lines at each packet). Packets of other procedures are not read here, and a view that
is not valid, on which the code stops with an ASSERT, reads nothing.
-/
namespace Verif.WireAir

open Verif.Pdl Verif.Pdl.LinkLayer
open Verif.Wire (data)
open Verif.WireBr (octet)
open Verif.WireLink (code reason)

/-- A packet of `Verif.Link`, or one of `Verif.Sub`. -/
inductive Air
  | link (p : Link.Pkt)
  | sub (p : Sub.Pdu)
  deriving DecidableEq, Repr

/-- A link layer packet with its type and body, link_layer_packets.pdl 80-85. -/
def packet (t : Nat) (f : Fmt) : Packet := ⟨"", [⟨bodyLinkLayerPacket, [(0, t)]⟩, ⟨f, []⟩]⟩

/-- The builder of a packet: the type, source, destination and the values of its fields. -/
def build (t : Nat) (f : Fmt) (s d : Nat) (v : f.T) : List Nat := serialize (packet t f) ((t, s, d, ()), (v, ())) []

/-- The view of a packet: source, destination and the values of its fields. -/
def view (t : Nat) (f : Fmt) (l : List Nat) : Option (Nat × Nat × f.T) :=
  match parse (packet t f) l with
  | some (((_, s, d, _), (v, _)), _) => some (s, d, v)
  | none => none

/-- `LinkLayerPacketView::GetType`. -/
def typeOf (l : List Nat) : Option Nat :=
  match parse ⟨"", [⟨bodyLinkLayerPacket, []⟩]⟩ l with
  | some (((t, _), _), _) => some t
  | none => none

/-- What is sent, with the lines of le_controller.cc: PHYs 505-506, 539-541, 561-564 and 601-604 (the instant is 0), encryption
6504-6505, 6547-6549 and 6561-6564 (no random number and no diversifier), features 4086-4087 and 5961-5963, versions 6390-6391 and
4265-4268, data 5413-5416, subrates 2153-2156, 2185-2187, 2237-2239, 2277-2280 (the base event is 0), connection parameters 5875-5877,
6410-6412, 6422-6424, 6464-6466, 6484-6486. -/
def send (s d : Nat) : Air → List Nat
  | .link (.phyReq tx rx) => build 80 bodyLlPhyReq s d (tx, rx, ())
  | .link (.phyRsp tx rx) => build 81 bodyLlPhyRsp s d (tx, rx, ())
  | .link (.phyInd a b) => build 82 bodyLlPhyUpdateInd s d (a, b, 0, ())
  | .link (.enc r e k) => build 32 bodyLeEncryptConnection s d (r.map octet, e, k.map octet, ())
  | .link (.encRsp st k) =>
    build 33 bodyLeEncryptConnectionResponse s d (st, (List.replicate 8 (0 : UInt8)).map octet, 0, k.map octet, ())
  | .link .featReq => build 44 bodyLeReadRemoteFeatures s d ()
  | .link (.featRsp f st) => build 45 bodyLeReadRemoteFeaturesResponse s d (f, st, ())
  | .link .verReq => build 27 bodyReadRemoteVersionInformation s d ()
  | .link (.verRsp v x c) => build 28 bodyReadRemoteVersionInformationResponse s d (v, x, c, ())
  | .link (.acl pb bc x) => build 1 bodyAcl s d (pb, bc, x.map octet, ())
  | .sub (.subrateReq a b l c t) => build 83 bodyLlSubrateReq s d (a, b, l, c, t, ())
  | .sub (.subrateInd st f l c t) => build 84 bodyLlSubrateInd s d (code st, f, 0, l, c, t, ())
  | .sub (.paramReq a b l t) => build 46 bodyLeConnectionParameterRequest s d (a, b, l, t, ())
  | .sub (.paramUpdate st i l t) => build 47 bodyLeConnectionParameterUpdate s d (code st, i, l, t, ())

/-- `IncomingPacket`, le_controller.cc 4121-4237, and the views of the functions it calls: 4239-4256 data, 4271-4288 versions, 531-535
and 582-587 and 621-624 PHYs, 5907-5918 and 5922-5932 encryption, 5958-5980 features, 2193-2210 and 2283-2306 subrates, 5862-5870 and
5881-5903 connection parameters. For the requests of features and versions the code creates no view; their body is empty. -/
def receive (l : List Nat) : Option (Nat × Nat × Air) :=
  match typeOf l with
  | some 80 => (view 80 bodyLlPhyReq l).map fun (s, d, tx, rx, _) => (s, d, .link (.phyReq tx rx))
  | some 81 => (view 81 bodyLlPhyRsp l).map fun (s, d, tx, rx, _) => (s, d, .link (.phyRsp tx rx))
  | some 82 => (view 82 bodyLlPhyUpdateInd l).map fun (s, d, a, b, _) => (s, d, .link (.phyInd a b))
  | some 32 => (view 32 bodyLeEncryptConnection l).map fun (s, d, r, e, k, _) => (s, d, .link (.enc (data r) e (data k)))
  | some 33 => (view 33 bodyLeEncryptConnectionResponse l).map fun (s, d, st, _, _, k, _) => (s, d, .link (.encRsp st (data k)))
  | some 44 => (view 44 bodyLeReadRemoteFeatures l).map fun (s, d, _) => (s, d, .link .featReq)
  | some 45 => (view 45 bodyLeReadRemoteFeaturesResponse l).map fun (s, d, f, st, _) => (s, d, .link (.featRsp f st))
  | some 27 => (view 27 bodyReadRemoteVersionInformation l).map fun (s, d, _) => (s, d, .link .verReq)
  | some 28 => (view 28 bodyReadRemoteVersionInformationResponse l).map fun (s, d, v, x, c, _) => (s, d, .link (.verRsp v x c))
  | some 1 => (view 1 bodyAcl l).map fun (s, d, pb, bc, x, _) => (s, d, .link (.acl pb bc (data x)))
  | some 83 => (view 83 bodyLlSubrateReq l).map fun (s, d, a, b, l, c, t, _) => (s, d, .sub (.subrateReq a b l c t))
  | some 84 => (view 84 bodyLlSubrateInd l).map fun (s, d, st, f, _, l, c, t, _) => (s, d, .sub (.subrateInd (reason st) f l c t))
  | some 46 => (view 46 bodyLeConnectionParameterRequest l).map fun (s, d, a, b, l, t, _) => (s, d, .sub (.paramReq a b l t))
  | some 47 =>
    (view 47 bodyLeConnectionParameterUpdate l).map fun (s, d, st, i, l, t, _) => (s, d, .sub (.paramUpdate (reason st) i l t))
  | _ => none

end Verif.WireAir
