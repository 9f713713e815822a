import Verif.Pol.Model
import Verif.Wire.Model

/-!
# The octets of the events of the BR/EDR controller

Models how the events of `Verif.Br` and `Verif.Pol` are written: which builder of packets/hci_packets.pdl is used, and with which
values (/repo/model/controller/bredr_controller.cc, the lines at each event, and le_controller.cc 1948-1954). The type is that
of the H4 packet, model/hci/h4.h; data has its own type.

Simplifications. `Br` has not the page scan repetition mode and the clock offset of an inquiry response; they are given here.
-/
namespace Verif.WireBr

open Verif.Pol Verif.Pdl Verif.Pdl.Hci
open Verif.Br (LinkType)

/-- The values of an inquiry response that `Br` has not. -/
structure Extra where
  repetition : Nat
  clock : Nat

/-- `LinkType`, `ConnectionRequestLinkType` and `ScoLinkType`, hci_packets.pdl 5409-5412, 5423-5428 and 5663-5666. -/
def linkCode : LinkType → Nat
  | .sco => 0
  | .acl => 1
  | .esco => 2

/-- An octet of an array. -/
def octet (b : UInt8) : Nat × Unit := (b.toNat, ())

/-- An event with its code and its values. -/
def event (code : Nat) (f : Fmt) (v : f.T) : Nat × List Nat :=
  (4, serialize ⟨"", [⟨bodyEvent, [(0, code)]⟩, ⟨f, []⟩]⟩ ((code, ()), v, ()) [])

/-- The events, with the lines of bredr_controller.cc: Connection Complete 215-217, 271-273, 330-332, 1856-1858, 1872-1873,
2012-2014, 2054-2056, 2116-2118, 2232-2234; Connection Request 1818-1821, 1992-1993; Role Change 262, 985, 2050, 2167, 2196;
Disconnection Complete 2125; Synchronous Connection Complete 554-563, 587-589, 1860-1867, 1877-1881; Inquiry Complete 2263;
the results of an inquiry 1734-1741, 1753-1761, 1770-1775; Remote Name Request Complete 1534; the features 1549, 1572, 1602; the
version 1629; Number Of Completed Packets 1944; data 1495 and 1516; Connection Packet Type Changed 365; QoS Setup Complete 926. -/
def toHost (x : Extra) : PEv → Nat × List Nat
  | .base (.connComplete st h a l) => event 0x03 bodyConnectionComplete (st, h, a, linkCode l, 0, ())
  | .base (.connRequest a cod l) => event 0x04 bodyConnectionRequest (a, cod, linkCode l, ())
  | .base (.roleChange st a r) => event 0x12 bodyRoleChange (st, a, roleCode r, ())
  | .base (.disconnComplete h r) => event 0x05 bodyDisconnectionComplete (0, h, r, ())
  | .base (.syncComplete st h a l i w rx tx air) =>
    event 0x2c bodySynchronousConnectionComplete (st, h, a, linkCode l, i, w, rx, tx, air, ())
  | .base .inqComplete => event 0x01 bodyInquiryComplete (0, ())
  | .base (.inqResult 0 a cod _ _) => event 0x02 bodyInquiryResult ([(a, x.repetition, cod, x.clock, ())], ())
  | .base (.inqResult 1 a cod rssi _) => event 0x22 bodyInquiryResultWithRssi ([(a, x.repetition, cod, x.clock, rssi, ())], ())
  | .base (.inqResult _ a cod rssi eir) =>
    event 0x2f bodyExtendedInquiryResult (a, x.repetition, cod, x.clock, rssi, eir.map octet, ())
  | .base (.name a n) => event 0x07 bodyRemoteNameRequestComplete (0, a, n.map octet, ())
  | .base (.hostFeatures a f) => event 0x3d bodyRemoteHostSupportedFeaturesNotification (a, f, ())
  | .base (.features h f) => event 0x0b bodyReadRemoteSupportedFeaturesComplete (0, h, f, ())
  | .base (.ext st h p m f) => event 0x23 bodyReadRemoteExtendedFeaturesComplete (st, h, p, m, f, ())
  | .base (.version h v c s) => event 0x0c bodyReadRemoteVersionInformationComplete (0, h, v, c, s, ())
  | .base (.completed h n) => event 0x13 bodyNumberOfCompletedPackets ([(h, n, ())], ())
  | .base (.acl h pb bc d) => (2, serialize ⟨"", [⟨bodyAcl, []⟩]⟩ ((h, pb, bc, ()), ()) (d.map UInt8.toNat))
  | .base (.sco h d) => (3, serialize ⟨"", [⟨bodySco, []⟩]⟩ ((h, 0, d.map octet, ()), ()) [])
  | .packetType st h t => event 0x1d bodyConnectionPacketTypeChanged (st, h, t, ())
  | .qos st h s r b l v => event 0x0d bodyQosSetupComplete (st, h, s, r, b, l, v, ())
  | .power st h phy => (4, serialize ⟨"", [⟨bodyEvent, [(0, 62)]⟩, ⟨bodyLeMetaEvent, [(0, 33)]⟩, ⟨bodyLeTransmitPowerReporting, []⟩]⟩
      ((62, ()), (33, ()), (st, h, 2, phy, 0xe2, 0, 0x7f, ()), ()) [])

end Verif.WireBr
