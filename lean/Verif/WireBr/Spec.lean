import Verif.Pol.Model
import Verif.Wire.Spec

/-!
# The octets of BR/EDR commands (C127)

Bluetooth Core Specification, Volume 4, Part E, sections 5.4.1, 7.1 to 7.5, 7.7.14, 7.7.15 and 7.8: which octets a host sends
for a command, and which octets answer it. This file does not refer to the packet description files.
-/
namespace Verif.WireBr

open Verif.Pol
open Verif.Br (Role)
open Verif.Sco (ConnParams)
open Verif.Wire (le yes)

/-- Parameters of Create Connection and Remote Name Request that make no difference to this controller: the packet types, the
page scan repetition mode and the clock offset. -/
structure Unused where
  types : Nat
  repetition : Nat
  clock : Nat
  clockValid : Bool

/-- They fit the octets they have; the clock offset has 15 bits. -/
def Unused.Fits (u : Unused) : Prop := u.types < 65536 ∧ u.repetition < 256 ∧ u.clock < 32768

/-- Role. -/
def ofRole : Role → Nat
  | .central => 0x00
  | .peripheral => 0x01

/-- The last parameters of Setup and Accept Synchronous Connection Request: Transmit_Bandwidth, Receive_Bandwidth, Max_Latency,
Voice_Setting, Retransmission_Effort, Packet_Type. -/
def ofSync (p : ConnParams) : List Nat :=
  le 4 p.txBandwidth.toNat ++ le 4 p.rxBandwidth.toNat ++ le 2 p.maxLatency.toNat ++ le 2 p.voiceSetting.toNat ++
    [p.effort.toNat] ++ le 2 p.packetType.toNat

/-- The three octets of an inquiry access code: 0x9E8B00 to 0x9E8B3F. The model has the last octet. -/
def ofLap (k : Nat) : List Nat := le 3 (0x9e8b00 + k)

/-- The opcodes. 0 for what is not a command of this list. -/
def number : PCmd → Nat
  | .base (.inquiry _ _ _) => 0x0401
  | .base (.inquiryCancel) => 0x0402
  | .base (.create _ _) => 0x0405
  | .base (.disconnect _ _) => 0x0406
  | .base (.addSco _ _) => 0x0407
  | .base (.cancel _) => 0x0408
  | .base (.accept _ _) => 0x0409
  | .base (.reject _ _) => 0x040a
  | .packetType _ _ => 0x040f
  | .changeKey _ => 0x0415
  | .centralKey _ => 0x0417
  | .base (.name _) => 0x0419
  | .base (.features _) => 0x041b
  | .base (.ext _ _) => 0x041c
  | .base (.version _) => 0x041d
  | .base (.setupSync _ _ _) => 0x0428
  | .base (.acceptSync _ _) => 0x0429
  | .base (.rejectSync _ _) => 0x042a
  | .hold _ _ _ => 0x0801
  | .sniff _ _ _ _ _ => 0x0803
  | .exitSniff _ => 0x0804
  | .qos _ _ _ _ _ _ => 0x0807
  | .role _ => 0x0809
  | .base (.switchRole _ _) => 0x080b
  | .readPolicy _ => 0x080c
  | .base (.writePolicy _ _) => 0x080d
  | .readDefault => 0x080e
  | .base (.writeDefaultPolicy _) => 0x080f
  | .flow _ _ _ _ _ _ _ => 0x0810
  | .subrating _ _ _ _ => 0x0811
  | .base (.setMask _) => 0x0c01
  | .base (.reset) => 0x0c03
  | .base (.writePageTimeout _) => 0x0c18
  | .base (.writeScanEnable _ _) => 0x0c1a
  | .supervision _ _ => 0x0c37
  | .base (.writeIac _) => 0x0c3a
  | .base (.writeInquiryMode _) => 0x0c45
  | .readRssi _ => 0x1405
  | .keySize _ => 0x1408
  | .leDataLength _ _ _ => 0x2022
  | .lePhy _ => 0x2030
  | .lePower _ _ => 0x2077
  | .leReporting _ _ _ => 0x207a
  | _ => 0

/-- The parameters, in the order of the core specification. -/
def parameters (u : Unused) : PCmd → List Nat
  | .base (.inquiry k t n) => ofLap k ++ [t, n]
  | .base (.writeIac ks) => ks.length :: ks.flatMap ofLap
  | .base (.inquiryCancel) => []
  | .base (.create a w) => le 6 a ++ le 2 u.types ++ [u.repetition, 0] ++ le 2 (u.clock + 32768 * yes u.clockValid) ++ [yes w]
  | .base (.disconnect h r) => le 2 h ++ [r]
  | .base (.addSco h t) => le 2 h ++ le 2 t.toNat
  | .base (.cancel a) => le 6 a
  | .base (.accept a t) => le 6 a ++ [yes (!t)]
  | .base (.reject a r) => le 6 a ++ [r]
  | .packetType h t => le 2 h ++ le 2 t
  | .changeKey h => le 2 h
  | .centralKey f => [f]
  | .base (.name a) => le 6 a ++ [u.repetition, 0] ++ le 2 (u.clock + 32768 * yes u.clockValid)
  | .base (.features h) => le 2 h
  | .base (.ext h p) => le 2 h ++ [p]
  | .base (.version h) => le 2 h
  | .base (.setupSync h p _) => le 2 h ++ ofSync p
  | .base (.acceptSync a p) => le 6 a ++ ofSync p
  | .base (.rejectSync a r) => le 6 a ++ [r]
  | .hold h x y => le 2 h ++ le 2 x ++ le 2 y
  | .sniff h x y n t => le 2 h ++ le 2 x ++ le 2 y ++ le 2 n ++ le 2 t
  | .exitSniff h => le 2 h
  | .qos h s r b l v => le 2 h ++ [0, s] ++ le 4 r ++ le 4 b ++ le 4 l ++ le 4 v
  | .role h => le 2 h
  | .base (.switchRole a r) => le 6 a ++ [ofRole r]
  | .readPolicy h => le 2 h
  | .base (.writePolicy h p) => le 2 h ++ le 2 p
  | .readDefault => []
  | .base (.writeDefaultPolicy p) => le 2 p
  | .flow h d s r k b l => le 2 h ++ [0, d, s] ++ le 4 r ++ le 4 k ++ le 4 b ++ le 4 l
  | .subrating h x y z => le 2 h ++ le 2 x ++ le 2 y ++ le 2 z
  | .base (.setMask m) => le 8 m
  | .base (.reset) => []
  | .base (.writePageTimeout t) => le 2 t
  | .base (.writeScanEnable i p) => [yes i + 2 * yes p]
  | .supervision h t => le 2 h ++ le 2 t
  | .base (.writeInquiryMode m) => [m]
  | .readRssi h => le 2 h
  | .keySize h => le 2 h
  | .leDataLength h o t => le 2 h ++ le 2 o ++ le 2 t
  | .lePhy h => le 2 h
  | .lePower h p => le 2 h ++ [p]
  | .leReporting h x y => le 2 h ++ [x, y]
  | _ => []

/-- The octets of a command. -/
def octetsOf (u : Unused) (c : PCmd) : List Nat := le 2 (number c) ++ [(parameters u c).length] ++ parameters u c

/-- A command of this list, whose parameters fit the octets they have. A handle has 12 bits; Disconnect and Read Remote Version
Information name a BR/EDR connection. -/
def Sendable (u : Unused) (c : PCmd) : Prop := match c with
  | .base (.inquiry k t n) => k < 64 ∧ t < 256 ∧ n < 256
  | .base (.writeIac ks) => ks.length < 64 ∧ ∀ k ∈ ks, k < 64
  | .base (.inquiryCancel) => True
  | .base (.create a _) => a < 281474976710656 ∧ u.Fits
  | .base (.disconnect h r) => h < 512 ∧ r < 256
  | .base (.addSco h _) => h < 4096
  | .base (.cancel a) => a < 281474976710656
  | .base (.accept a _) => a < 281474976710656
  | .base (.reject a r) => a < 281474976710656 ∧ r < 256
  | .packetType h t => h < 4096 ∧ t < 65536
  | .changeKey h => h < 4096
  | .centralKey f => f < 256
  | .base (.name a) => a < 281474976710656 ∧ u.Fits
  | .base (.features h) => h < 4096
  | .base (.ext h p) => h < 4096 ∧ p < 256
  | .base (.version h) => h < 256
  | .base (.setupSync h p s) => h < 4096 ∧ p.voiceSetting.toNat < 1024 ∧ s = false
  | .base (.acceptSync a p) => a < 281474976710656 ∧ p.voiceSetting.toNat < 1024
  | .base (.rejectSync a r) => a < 281474976710656 ∧ r < 256
  | .hold h x y => h < 4096 ∧ x < 65536 ∧ y < 65536
  | .sniff h x y n t => h < 4096 ∧ x < 65536 ∧ y < 65536 ∧ n < 65536 ∧ t < 65536
  | .exitSniff h => h < 4096
  | .qos h s r b l v => h < 4096 ∧ s < 256 ∧ r < 4294967296 ∧ b < 4294967296 ∧ l < 4294967296 ∧ v < 4294967296
  | .role h => h < 4096
  | .base (.switchRole a _) => a < 281474976710656
  | .readPolicy h => h < 4096
  | .base (.writePolicy h p) => h < 4096 ∧ p < 65536
  | .readDefault => True
  | .base (.writeDefaultPolicy p) => p < 65536
  | .flow h d s r k b l => h < 4096 ∧ d < 256 ∧ s < 256 ∧ r < 4294967296 ∧ k < 4294967296 ∧ b < 4294967296 ∧ l < 4294967296
  | .subrating h x y z => h < 4096 ∧ x < 65536 ∧ y < 65536 ∧ z < 65536
  | .base (.setMask m) => m < 18446744073709551616
  | .base (.reset) => True
  | .base (.writePageTimeout t) => t < 65536
  | .base (.writeScanEnable _ _) => True
  | .supervision h t => h < 4096 ∧ t < 65536
  | .base (.writeInquiryMode m) => m < 256
  | .readRssi h => h < 4096
  | .keySize h => h < 4096
  | .leDataLength h o t => h < 4096 ∧ o < 65536 ∧ t < 65536
  | .lePhy h => h < 4096
  | .lePower h p => h < 4096 ∧ p < 256
  | .leReporting h x y => h < 4096 ∧ x < 256 ∧ y < 256
  | _ => False

/-- Command Complete (0x0e) with these return parameters. It allows one more command. -/
def completes (c : PCmd) (ret : List Nat) : List Nat := [0x0e, 3 + ret.length, 1] ++ le 2 (number c) ++ ret

/-- The octets of the event that answers a command: Command Complete where the command has one, with the return parameters of
the core specification, Command Status (0x0f) otherwise. -/
def answerOf (r : Reply) (c : PCmd) : List Nat := match c with
  | .base (.writeIac _) => completes c (le 1 r.status)
  | .base (.inquiryCancel) => completes c (le 1 r.status)
  | .base (.cancel a) => completes c (le 1 r.status ++ le 6 a)
  | .role h => completes c (le 1 r.status ++ le 2 h ++ le 1 (r.vals.getD 1 0))
  | .readPolicy h => completes c (le 1 r.status ++ le 2 h ++ le 2 (r.vals.getD 1 0))
  | .base (.writePolicy h _) => completes c (le 1 r.status ++ le 2 h)
  | .readDefault => completes c (le 1 r.status ++ le 2 (r.vals.getD 0 0))
  | .base (.writeDefaultPolicy _) => completes c (le 1 r.status)
  | .subrating h _ _ _ => completes c (le 1 r.status ++ le 2 h)
  | .base (.setMask _) => completes c (le 1 r.status)
  | .base (.reset) => completes c (le 1 r.status)
  | .base (.writePageTimeout _) => completes c (le 1 r.status)
  | .base (.writeScanEnable _ _) => completes c (le 1 r.status)
  | .supervision h _ => completes c (le 1 r.status ++ le 2 h)
  | .base (.writeInquiryMode _) => completes c (le 1 r.status)
  | .readRssi h => completes c (le 1 r.status ++ le 2 h ++ le 1 (r.vals.getD 1 0))
  | .keySize h => completes c (le 1 r.status ++ le 2 h ++ le 1 (r.vals.getD 1 0))
  | .leDataLength h _ _ => completes c (le 1 r.status ++ le 2 h)
  | .lePhy h => completes c (le 1 r.status ++ le 2 h ++ le 1 (r.vals.getD 1 0) ++ le 1 (r.vals.getD 2 0))
  | .leReporting h _ _ => completes c (le 1 r.status ++ le 2 h)
  | _ => [0x0f, 4] ++ le 1 r.status ++ [1] ++ le 2 (number c)

end Verif.WireBr
