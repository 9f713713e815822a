import Verif.WireAir.Model
import Verif.WireLink.Spec

/-!
# The octets between two LE controllers (C132)

The link layer packets as other devices of the emulator see them: a type, the addresses of the sender and of the receiver, and the
values, the lowest octet first. Of the model only the type of packets is used. This file does not refer to the packet description
files.
-/
namespace Verif.WireAir

open Verif.Wire (le)
open Verif.WireLink (ofReason Known)

/-- The types of the packets. -/
def kind : Air → Nat
  | .link (.acl _ _ _) => 0x01
  | .link .verReq => 0x1b
  | .link (.verRsp _ _ _) => 0x1c
  | .link (.enc _ _ _) => 0x20
  | .link (.encRsp _ _) => 0x21
  | .link .featReq => 0x2c
  | .link (.featRsp _ _) => 0x2d
  | .sub (.paramReq _ _ _ _) => 0x2e
  | .sub (.paramUpdate _ _ _ _) => 0x2f
  | .link (.phyReq _ _) => 0x50
  | .link (.phyRsp _ _) => 0x51
  | .link (.phyInd _ _) => 0x52
  | .sub (.subrateReq _ _ _ _ _) => 0x53
  | .sub (.subrateInd _ _ _ _ _) => 0x54

/-- The values. -/
def values : Air → List Nat
  | .link (.acl pb bc x) => le 1 pb ++ le 1 bc ++ x.map UInt8.toNat
  | .link .verReq => []
  | .link (.verRsp v x c) => le 1 v ++ le 1 x ++ le 2 c
  | .link (.enc r e k) => r.map UInt8.toNat ++ le 2 e ++ k.map UInt8.toNat
  | .link (.encRsp st k) => le 1 st ++ List.replicate 10 0 ++ k.map UInt8.toNat
  | .link .featReq => []
  | .link (.featRsp f st) => le 8 f ++ le 1 st
  | .sub (.paramReq a b l t) => le 2 a ++ le 2 b ++ le 2 l ++ le 2 t
  | .sub (.paramUpdate st i l t) => le 1 (ofReason st) ++ le 2 i ++ le 2 l ++ le 2 t
  | .link (.phyReq tx rx) => le 1 tx ++ le 1 rx
  | .link (.phyRsp tx rx) => le 1 tx ++ le 1 rx
  | .link (.phyInd a b) => le 1 a ++ le 1 b ++ [0, 0]
  | .sub (.subrateReq a b l c t) => le 2 a ++ le 2 b ++ le 2 l ++ le 2 c ++ le 2 t
  | .sub (.subrateInd st f l c t) => le 1 (ofReason st) ++ le 2 f ++ [0, 0] ++ le 2 l ++ le 2 c ++ le 2 t

/-- The octets on the air. -/
def onAir (s d : Nat) (p : Air) : List Nat := [kind p] ++ le 6 s ++ le 6 d ++ values p

/-- The values fit the octets they have. -/
def Fits : Air → Prop
  | .link (.acl pb bc _) => pb < 256 ∧ bc < 256
  | .link (.verRsp v x c) => v < 256 ∧ x < 256 ∧ c < 65536
  | .link (.enc r e k) => r.length = 8 ∧ e < 65536 ∧ k.length = 16
  | .link (.encRsp st k) => st < 256 ∧ k.length = 16
  | .link (.featRsp f st) => f < 18446744073709551616 ∧ st < 256
  | .sub (.paramReq a b l t) => a < 65536 ∧ b < 65536 ∧ l < 65536 ∧ t < 65536
  | .sub (.paramUpdate st i l t) => Known st ∧ i < 65536 ∧ l < 65536 ∧ t < 65536
  | .link (.phyReq tx rx) => tx < 256 ∧ rx < 256
  | .link (.phyRsp tx rx) => tx < 256 ∧ rx < 256
  | .link (.phyInd a b) => a < 256 ∧ b < 256
  | .sub (.subrateReq a b l c t) => a < 65536 ∧ b < 65536 ∧ l < 65536 ∧ c < 65536 ∧ t < 65536
  | .sub (.subrateInd st f l c t) => Known st ∧ f < 65536 ∧ l < 65536 ∧ c < 65536 ∧ t < 65536
  | .link .verReq => True
  | .link .featReq => True

/-- Addresses of 48 bits. -/
def Address (n : Nat) : Prop := n < 281474976710656

/-- The members of a controller have the widths they are declared with. -/
structure Sound (d : Link.Dev) : Prop where
  supported : d.supported < 256
  defTx : d.defTx < 256
  defRx : d.defRx < 256
  features : d.features < 18446744073709551616
  version : d.version < 256
  company : d.company < 65536
  tasks : ∀ e ∈ d.tasks, e.rand.length = 8 ∧ e.ediv < 65536 ∧ e.ltk.length = 16

/-- The arguments of a command have the widths they have in the command. -/
def Args : Link.Cmd → Prop
  | .setDefaultPhy _ _ tx rx => tx < 256 ∧ rx < 256
  | .setPhy _ _ _ tx rx => tx < 256 ∧ rx < 256
  | .enable _ r e k => r.length = 8 ∧ e < 65536 ∧ k.length = 16
  | .reply _ k => k.length = 16
  | .acl _ pb bc _ => pb < 4 ∧ bc < 4
  | _ => True

/-- The same for the commands about subrates and connection parameters. -/
def SubArgs : Sub.Cmd → Prop
  | .subrateRequest a b l c t => a < 65536 ∧ b < 65536 ∧ l < 65536 ∧ c < 65536 ∧ t < 65536
  | .connectionUpdate a b l t => a < 65536 ∧ b < 65536 ∧ l < 65536 ∧ t < 65536
  | .paramReply a b l t x y => a < 65536 ∧ b < 65536 ∧ l < 65536 ∧ t < 65536 ∧ x < 65536 ∧ y < 65536
  | .paramRefuse q => Known q

end Verif.WireAir
