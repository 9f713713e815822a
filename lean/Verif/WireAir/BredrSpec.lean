import Verif.WireAir.Bredr
import Verif.WireAir.Spec

/-!
# The octets between two BR/EDR controllers (C133)

The packets as other devices of the emulator see them: a type, the addresses of the sender and of the receiver, and the values, the
lowest octet first. Of the model only the type of packets is used. This file does not refer to the packet description files.
-/
namespace Verif.WireAir.Bredr

open Verif.Wire (le yes)
open Verif.Br (Pkt)

/-- The types of the packets. -/
def kind : Pkt → Nat
  | .page _ _ => 0x10
  | .pageRsp _ => 0x11
  | .pageReject _ => 0x12
  | .disconnect _ => 0x05
  | .roleReq => 0x38
  | .roleRsp _ => 0x39
  | .scoReq _ _ => 0x30
  | .scoRsp _ _ => 0x31
  | .scoDisc _ => 0x32
  | .ping => 0x35
  | .pong => 0x36
  | .inquiry _ _ => 0x06
  | .acl _ _ _ => 0x01
  | .nameReq => 0x1d
  | .nameRsp _ => 0x1e
  | .hostFeaturesReq => 0x17
  | .hostFeaturesRsp _ => 0x18
  | .featuresReq => 0x15
  | .featuresRsp _ => 0x16
  | .extReq _ => 0x19
  | .extRsp _ _ _ _ => 0x1a
  | .versionReq => 0x1b
  | .versionRsp _ _ _ => 0x1c
  | _ => 0

/-- The values. -/
def values : Pkt → List Nat
  | .page c b => le 3 c ++ le 1 (yes b)
  | .pageRsp b => le 1 (yes b)
  | .pageReject r => le 1 r
  | .disconnect r => le 1 r
  | .roleReq => []
  | .roleRsp st => le 1 st
  | .scoReq p c => le 4 p.txBandwidth.toNat ++ le 4 p.rxBandwidth.toNat ++ le 2 p.maxLatency.toNat ++ le 2 p.voiceSetting.toNat ++
    le 1 p.effort.toNat ++ le 2 p.packetType.toNat ++ le 3 c
  | .scoRsp st l => le 1 st ++ le 1 l.interval.toNat ++ le 1 l.window.toNat ++ le 2 l.rxLength.toNat ++
    le 2 l.txLength.toNat ++ le 1 l.airMode.toNat ++ [yes l.extended]
  | .scoDisc r => le 1 r
  | .ping => []
  | .pong => []
  | .inquiry t k => le 1 t ++ le 1 k
  | .acl pb bc x => le 1 pb ++ le 1 bc ++ x.map UInt8.toNat
  | .nameReq => []
  | .nameRsp x => x.map UInt8.toNat
  | .hostFeaturesReq => []
  | .hostFeaturesRsp f => le 8 f
  | .featuresReq => []
  | .featuresRsp f => le 8 f
  | .extReq n => le 1 n
  | .extRsp st n m f => le 1 st ++ le 1 n ++ le 1 m ++ le 8 f
  | .versionReq => []
  | .versionRsp v x c => le 1 v ++ le 1 x ++ le 2 c
  | _ => []

/-- The octets on the air. -/
def onAir (s d : Nat) (p : Pkt) : List Nat := [kind p] ++ le 6 s ++ le 6 d ++ values p

/-- The values fit the octets they have. Left out are the packets of the link manager, the responses to inquiries, and synchronous data. -/
def Fits : Pkt → Prop
  | .page c _ => c < 16777216
  | .pageRsp _ => True
  | .pageReject r => r < 256
  | .disconnect r => r < 256
  | .roleReq => True
  | .roleRsp st => st < 256
  | .scoReq p c => p.voiceSetting.toNat < 1024 ∧ c < 16777216
  | .scoRsp st _ => st < 256
  | .scoDisc r => r < 256
  | .ping => True
  | .pong => True
  | .inquiry t k => t < 256 ∧ k < 256
  | .acl pb bc _ => pb < 256 ∧ bc < 256
  | .nameReq => True
  | .nameRsp x => x.length = 248
  | .hostFeaturesReq => True
  | .hostFeaturesRsp f => f < 18446744073709551616
  | .featuresReq => True
  | .featuresRsp f => f < 18446744073709551616
  | .extReq n => n < 256
  | .extRsp st n m f => st < 256 ∧ n < 256 ∧ m < 256 ∧ f < 18446744073709551616
  | .versionReq => True
  | .versionRsp v x c => v < 256 ∧ x < 256 ∧ c < 65536
  | _ => False

end Verif.WireAir.Bredr
