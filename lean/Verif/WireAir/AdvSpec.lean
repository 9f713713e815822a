import Verif.Ll.Model
import Verif.WireAir.Spec

/-!
# The octets between an LE advertiser and a scanner or initiator (C134)

The packets as other devices of the emulator see them: a type, the addresses of the sender and of the receiver, and the values, the
lowest octet first. Of the model only the type of packets is used. This file does not refer to the packet description files.
-/
namespace Verif.WireAir.Adv

open Verif.Wire (le yes)
open Verif.Ll (PhyType PduType)
open Verif.Le (AddressType)

/-- The numbers of the types of addresses. -/
def addressNumber : AddressType → Nat
  | .publicDevice => 0x00
  | .randomDevice => 0x01
  | .publicIdentity => 0x02
  | .randomIdentity => 0x03

/-- The numbers of the types of legacy advertisements. -/
def pduNumber : PduType → Nat
  | .advInd => 0x00
  | .advDirectInd => 0x01
  | .advScanInd => 0x02
  | .advNonconnInd => 0x03

/-- The numbers of the PHYs. -/
def phyNumber : PhyType → Nat
  | .noPackets => 0x00
  | .le1m => 0x01
  | .le2m => 0x02
  | .codedS8 => 0x03
  | .codedS2 => 0x04

/-- The octets on the air, with the transmission power `w`: who sends comes first, so that a completion has the advertiser first and the
initiator second, while the types of the addresses are always those of the initiator or scanner, then of the advertiser. -/
def onAir (w : Nat) : Ll.Packet → List Nat
  | .legacyAdv p => [0x0b] ++ le 6 p.adv.address.toNat ++ le 6 p.target.address.toNat ++
    [addressNumber p.adv.type, addressNumber p.target.type, pduNumber p.type] ++ p.data.map UInt8.toNat
  | .extAdv p => [0x37] ++ le 6 p.adv.address.toNat ++ le 6 p.target.address.toNat ++
    [addressNumber p.adv.type, addressNumber p.target.type, yes p.connectable + 2 * yes p.scannable + 4 * yes p.directed,
      p.sid, w, phyNumber p.primary, phyNumber p.secondary] ++ le 2 p.interval ++ p.data.map UInt8.toNat
  | .periodic p => [0x40] ++ le 6 p.adv.address.toNat ++ [0, 0, 0, 0, 0, 0] ++
    [addressNumber p.adv.type, p.sid, w] ++ le 2 p.interval ++ p.data.map UInt8.toNat
  | .connect i a l => [0x0c] ++ le 6 i.address.toNat ++ le 6 a.address.toNat ++
    [addressNumber i.type, addressNumber a.type] ++ le 2 l.interval ++ le 2 l.latency ++ le 2 l.timeout
  | .connectComplete i a l => [0x0d] ++ le 6 a.address.toNat ++ le 6 i.address.toNat ++
    [addressNumber i.type, addressNumber a.type] ++ le 2 l.interval ++ le 2 l.latency ++ le 2 l.timeout
  | .scan s a => [0x0e] ++ le 6 s.address.toNat ++ le 6 a.address.toNat ++ [addressNumber s.type, addressNumber a.type]
  | .scanResponse a s x => [0x0f] ++ le 6 a.address.toNat ++ le 6 s.toNat ++ [addressNumber a.type] ++ x.map UInt8.toNat
  | .link _ _ _ => []

/-- The values fit the octets they have. The packets of connections are left out: they are those of C132. -/
def Fits : Ll.Packet → Prop
  | .legacyAdv _ => True
  | .extAdv p => p.sid < 256 ∧ p.interval < 65536
  | .periodic p => p.sid < 256 ∧ p.interval < 65536
  | .connect _ _ l => l.interval < 65536 ∧ l.latency < 65536 ∧ l.timeout < 65536
  | .connectComplete _ _ l => l.interval < 65536 ∧ l.latency < 65536 ∧ l.timeout < 65536
  | .scan _ _ => True
  | .scanResponse _ _ _ => True
  | .link _ _ _ => False

end Verif.WireAir.Adv
