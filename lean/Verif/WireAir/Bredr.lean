import Verif.WireAir.Model
import Verif.Br.Model

/-!
# The octets between two BR/EDR controllers

Models how the packets of `Verif.Br` are written by the controller that sends them and read by the one that receives them
(/repo/model/controller/bredr_controller.cc, the lines below). Left out are the packets of the link manager, of which `Verif.Br` has no
contents, the responses to an inquiry and synchronous data: they are not sent or read here. A view that is not valid, on which the code
stops with an ASSERT, reads nothing.
-/
namespace Verif.WireAir.Bredr

open Verif.Pdl Verif.Pdl.LinkLayer
open Verif.Wire (data)
open Verif.WireBr (octet)
open Verif.Br (Pkt)

/-- A `bool` as an argument of a builder. -/
def flagged (b : Bool) : Nat := if b then 1 else 0

/-- The builders: pages 2245-2246, 278-279, 1967-1968 and 2113, disconnections 160-161, 175-176, 183-184, 2214-2221, role switches 980,
2152-2157, synchronous connections 322-325, 473-477, 510-512, 547-550, 582-583, 1799-1801, pings 2294 and 2307-2308, inquiries 2272-2273,
data 1930-1932, names 388 and 1524-1525, features 387, 400-401, 413-414, 1540-1541, 1556-1558, 1586-1588, versions 425-426 and
1609-1612. -/
def send (s d : Nat) : Pkt → List Nat
  | .page c b => build 16 bodyPage s d (c, flagged b, ())
  | .pageRsp b => build 17 bodyPageResponse s d (flagged b, ())
  | .pageReject r => build 18 bodyPageReject s d (r, ())
  | .disconnect r => build 5 bodyDisconnect s d (r, ())
  | .roleReq => build 56 bodyRoleSwitchRequest s d ()
  | .roleRsp st => build 57 bodyRoleSwitchResponse s d (st, ())
  | .scoReq p c => build 48 bodyScoConnectionRequest s d
    (p.txBandwidth.toNat, p.rxBandwidth.toNat, p.maxLatency.toNat, p.voiceSetting.toNat, p.effort.toNat, p.packetType.toNat, c, ())
  | .scoRsp st l => build 49 bodyScoConnectionResponse s d
    (st, l.interval.toNat, l.window.toNat, l.rxLength.toNat, l.txLength.toNat, l.airMode.toNat, flagged l.extended, ())
  | .scoDisc r => build 50 bodyScoDisconnect s d (r, ())
  | .ping => build 53 bodyPingRequest s d ()
  | .pong => build 54 bodyPingResponse s d ()
  | .inquiry t k => build 6 bodyInquiry s d (t, k, ())
  | .acl pb bc x => build 1 bodyAcl s d (pb, bc, x.map octet, ())
  | .nameReq => build 29 bodyRemoteNameRequest s d ()
  | .nameRsp x => build 30 bodyRemoteNameRequestResponse s d (x.map octet, ())
  | .hostFeaturesReq => build 23 bodyReadRemoteLmpFeatures s d ()
  | .hostFeaturesRsp f => build 24 bodyReadRemoteLmpFeaturesResponse s d (f, ())
  | .featuresReq => build 21 bodyReadRemoteSupportedFeatures s d ()
  | .featuresRsp f => build 22 bodyReadRemoteSupportedFeaturesResponse s d (f, ())
  | .extReq n => build 25 bodyReadRemoteExtendedFeatures s d (n, ())
  | .extRsp st n m f => build 26 bodyReadRemoteExtendedFeaturesResponse s d (st, n, m, f, ())
  | .versionReq => build 27 bodyReadRemoteVersionInformation s d ()
  | .versionRsp v x c => build 28 bodyReadRemoteVersionInformationResponse s d (v, x, c, ())
  | _ => []

/-- `IncomingPacket`, 1359-1463, and the views of the functions it calls: 1470-1490 data, 1521-1531 names, 1546-1622 features and
versions, 1659-1662 and 1888-1890 disconnections, 1684-1695 inquiries, 1786-1812 and 1826-1850 synchronous connections, 1955-2021 pages,
2140-2178 role switches, 2305 pings. For the requests of features and versions that have no field, and for the answer to a ping, the code
creates no view; their body is empty. -/
def receive (l : List Nat) : Option (Nat × Nat × Pkt) :=
  match typeOf l with
  | some 16 => (view 16 bodyPage l).map fun (s, d, c, b, _) => (s, d, (.page c (b != 0)))
  | some 17 => (view 17 bodyPageResponse l).map fun (s, d, b, _) => (s, d, (.pageRsp (b != 0)))
  | some 18 => (view 18 bodyPageReject l).map fun (s, d, r, _) => (s, d, (.pageReject r))
  | some 5 => (view 5 bodyDisconnect l).map fun (s, d, r, _) => (s, d, (.disconnect r))
  | some 56 => (view 56 bodyRoleSwitchRequest l).map fun (s, d, _) => (s, d, .roleReq)
  | some 57 => (view 57 bodyRoleSwitchResponse l).map fun (s, d, st, _) => (s, d, (.roleRsp st))
  | some 48 => (view 48 bodyScoConnectionRequest l).map fun (s, d, x, y, l, v, e, t, c, _) =>
    (s, d, (.scoReq ⟨.ofNat x, .ofNat y, .ofNat l, .ofNat v, .ofNat e, .ofNat t⟩ c))
  | some 49 => (view 49 bodyScoConnectionResponse l).map fun (s, d, st, i, w, x, y, m, e, _) =>
    (s, d, (.scoRsp st ⟨.ofNat i, .ofNat w, .ofNat x, .ofNat y, .ofNat m, e != 0⟩))
  | some 50 => (view 50 bodyScoDisconnect l).map fun (s, d, r, _) => (s, d, (.scoDisc r))
  | some 53 => (view 53 bodyPingRequest l).map fun (s, d, _) => (s, d, .ping)
  | some 54 => (view 54 bodyPingResponse l).map fun (s, d, _) => (s, d, .pong)
  | some 6 => (view 6 bodyInquiry l).map fun (s, d, t, k, _) => (s, d, (.inquiry t k))
  | some 1 => (view 1 bodyAcl l).map fun (s, d, pb, bc, x, _) => (s, d, (.acl pb bc (data x)))
  | some 29 => (view 29 bodyRemoteNameRequest l).map fun (s, d, _) => (s, d, .nameReq)
  | some 30 => (view 30 bodyRemoteNameRequestResponse l).map fun (s, d, x, _) => (s, d, (.nameRsp (data x)))
  | some 23 => (view 23 bodyReadRemoteLmpFeatures l).map fun (s, d, _) => (s, d, .hostFeaturesReq)
  | some 24 => (view 24 bodyReadRemoteLmpFeaturesResponse l).map fun (s, d, f, _) => (s, d, (.hostFeaturesRsp f))
  | some 21 => (view 21 bodyReadRemoteSupportedFeatures l).map fun (s, d, _) => (s, d, .featuresReq)
  | some 22 => (view 22 bodyReadRemoteSupportedFeaturesResponse l).map fun (s, d, f, _) => (s, d, (.featuresRsp f))
  | some 25 => (view 25 bodyReadRemoteExtendedFeatures l).map fun (s, d, n, _) => (s, d, (.extReq n))
  | some 26 => (view 26 bodyReadRemoteExtendedFeaturesResponse l).map fun (s, d, st, n, m, f, _) => (s, d, (.extRsp st n m f))
  | some 27 => (view 27 bodyReadRemoteVersionInformation l).map fun (s, d, _) => (s, d, .versionReq)
  | some 28 => (view 28 bodyReadRemoteVersionInformationResponse l).map fun (s, d, v, x, c, _) => (s, d, (.versionRsp v x c))
  | _ => none

end Verif.WireAir.Bredr
