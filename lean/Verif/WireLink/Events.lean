import Verif.WireLink.Model
import Verif.WireLe.Model

/-!
# The octets of the events about LE connections

Models how what `Verif.Link` and `Verif.Sub` tell the host is written: which builder of packets/hci_packets.pdl is used, and with
which values (/repo/model/controller/le_controller.cc, the lines at each event).
-/
namespace Verif.WireLink

open Verif.Pdl Verif.Pdl.Hci
open Verif.WireBr (octet event)
open Verif.WireLe (subevent)

/-- An event of `Verif.Link`, or one of `Verif.Sub` with its connection. -/
inductive Tell
  | link (e : Link.Ev)
  | sub (h : Nat) (e : Sub.Ev)
  deriving DecidableEq, Repr

/-- `PhyType`, hci_packets.pdl 3798-3802. -/
def phyCode : Link.Phy → Nat
  | .m1 => 1
  | .m2 => 2
  | .coded => 3

/-- `EncryptionEnabled`, hci_packets.pdl 5455-5459: OFF 0, ON 1. -/
def onCode (b : Bool) : Nat := if b then 1 else 0

/-- What the host is sent, with the lines of le_controller.cc: PHYs 570-571, 609-610, 634-635, keys 5917-5918, encryption 5947-5953
and 6539-6544, refreshed keys 5941-5942, 6533-6534, features 5977-5978, versions 4285-4287, data 4259-4261, completed packets
5428-5429, subrates 2178-2180, 2271-2273, 2305-2306, parameter requests 5868-5870, connection updates 5901-5903, 6416-6417,
6470-6471. -/
def toHost : Tell → Nat × List Nat
  | .link (.phyDone h tx rx) => subevent 0x0c bodyLePhyUpdateComplete (0, h, phyCode tx, phyCode rx, ())
  | .link (.ltkRequest h x e) => subevent 0x05 bodyLeLongTermKeyRequest (h, x.map octet, e, ())
  | .link (.encChange st h b) => event 0x08 bodyEncryptionChange (st, h, onCode b, ())
  | .link (.encChangeV2 st h b) => event 0x59 bodyEncryptionChangeV2 (st, h, onCode b, 0x10, ())
  | .link (.keyRefresh st h) => event 0x30 bodyEncryptionKeyRefreshComplete (st, h, ())
  | .link (.features st h f) => subevent 0x04 bodyLeReadRemoteFeaturesPage0Complete (st, h, f, ())
  | .link (.version h v c s) => event 0x0c bodyReadRemoteVersionInformationComplete (0, h, v, c, s, ())
  | .link (.acl h pb bc d) => (2, serialize ⟨"", [⟨bodyAcl, []⟩]⟩ ((h, pb, bc, ()), ()) (d.map UInt8.toNat))
  | .link (.completed h n) => event 0x13 bodyNumberOfCompletedPackets ([(h, n, ())], ())
  | .sub h (.subrateChange st f l c t) => subevent 0x23 bodyLeSubrateChange (code st, h, f, l, c, t, ())
  | .sub h (.paramRequest x y l t) => subevent 0x06 bodyLeRemoteConnectionParameterRequest (h, x, y, l, t, ())
  | .sub h (.updateComplete st i l t) => subevent 0x03 bodyLeConnectionUpdateComplete (code st, h, i, l, t, ())

end Verif.WireLink
