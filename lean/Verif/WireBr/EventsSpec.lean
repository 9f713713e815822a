import Verif.Pol.Model
import Verif.Wire.Spec

/-!
# The octets of the events of BR/EDR connections (C128)

Bluetooth Core Specification, Volume 4, Part E, sections 5.4.2 to 5.4.4 and 7.7, and Part A, section 2: how a host reads what the
controller sends. This file does not refer to the packet description files.
-/
namespace Verif.WireBr

open Verif.Pol
open Verif.Br (LinkType Role)
open Verif.Wire (le)

/-- Link_Type. -/
def ofLink : LinkType → Nat
  | .sco => 0x00
  | .acl => 0x01
  | .esco => 0x02

def ofNewRole : Role → Nat
  | .central => 0x00
  | .peripheral => 0x01

/-- An event: the H4 type is 4; the code, the number of octets of the parameters, the parameters. -/
def ofEvent (code : Nat) (ps : List Nat) : Nat × List Nat := (4, code :: ps.length :: ps)

/-- What the controller sends for an event; `repetition` and `clock` are those of an inquiry response. Inquiry results have one
response. The transmit power is -30 dBm, the difference is not known (0x7f). -/
def told (repetition clock : Nat) : PEv → Nat × List Nat
  | .base (.connComplete st h a l) => ofEvent 0x03 (le 1 st ++ le 2 h ++ le 6 a ++ le 1 (ofLink l) ++ [0])
  | .base (.connRequest a cod l) => ofEvent 0x04 (le 6 a ++ le 3 cod ++ le 1 (ofLink l))
  | .base (.roleChange st a r) => ofEvent 0x12 (le 1 st ++ le 6 a ++ le 1 (ofNewRole r))
  | .base (.disconnComplete h r) => ofEvent 0x05 (0 :: le 2 h ++ le 1 r)
  | .base (.syncComplete st h a l i w rx tx air) =>
    ofEvent 0x2c (le 1 st ++ le 2 h ++ le 6 a ++ le 1 (ofLink l) ++ le 1 i ++ le 1 w ++ le 2 rx ++ le 2 tx ++ le 1 air)
  | .base .inqComplete => ofEvent 0x01 [0]
  | .base (.inqResult 0 a cod _ _) => ofEvent 0x02 (1 :: le 6 a ++ le 1 repetition ++ [0, 0] ++ le 3 cod ++ le 2 clock)
  | .base (.inqResult 1 a cod rssi _) =>
    ofEvent 0x22 (1 :: le 6 a ++ le 1 repetition ++ [0] ++ le 3 cod ++ le 2 clock ++ le 1 rssi)
  | .base (.inqResult _ a cod rssi eir) =>
    ofEvent 0x2f (1 :: le 6 a ++ le 1 repetition ++ [0] ++ le 3 cod ++ le 2 clock ++ le 1 rssi ++ eir.map UInt8.toNat)
  | .base (.name a n) => ofEvent 0x07 (0 :: le 6 a ++ n.map UInt8.toNat)
  | .base (.hostFeatures a f) => ofEvent 0x3d (le 6 a ++ le 8 f)
  | .base (.features h f) => ofEvent 0x0b (0 :: le 2 h ++ le 8 f)
  | .base (.ext st h p m f) => ofEvent 0x23 (le 1 st ++ le 2 h ++ le 1 p ++ le 1 m ++ le 8 f)
  | .base (.version h v c s) => ofEvent 0x0c (0 :: le 2 h ++ le 1 v ++ le 2 c ++ le 2 s)
  | .base (.completed h n) => ofEvent 0x13 (1 :: le 2 h ++ le 2 n)
  | .base (.acl h pb bc d) => (2, le 2 (h + 4096 * pb + 16384 * bc) ++ le 2 d.length ++ d.map UInt8.toNat)
  | .base (.sco h d) => (3, le 2 h ++ le 1 d.length ++ d.map UInt8.toNat)
  | .packetType st h t => ofEvent 0x1d (le 1 st ++ le 2 h ++ le 2 t)
  | .qos st h s r b l v => ofEvent 0x0d (le 1 st ++ le 2 h ++ [0] ++ le 1 s ++ le 4 r ++ le 4 b ++ le 4 l ++ le 4 v)
  | .power st h phy => ofEvent 0x3e (0x21 :: le 1 st ++ le 2 h ++ [2] ++ le 1 phy ++ [0xe2, 0, 0x7f])

/-- The values fit the octets they have. -/
def Tellable : PEv → Prop
  | .base (.connComplete st h a l) => st < 256 ∧ h < 4096 ∧ a < 281474976710656 ∧ l ≠ .esco
  | .base (.connRequest a cod _) => a < 281474976710656 ∧ cod < 16777216
  | .base (.roleChange st a _) => st < 256 ∧ a < 281474976710656
  | .base (.disconnComplete h r) => h < 4096 ∧ r < 256
  | .base (.syncComplete st h a l i w rx tx air) =>
    st < 256 ∧ h < 4096 ∧ a < 281474976710656 ∧ l ≠ .acl ∧ i < 256 ∧ w < 256 ∧ rx < 65536 ∧ tx < 65536 ∧ air < 256
  | .base .inqComplete => True
  | .base (.inqResult t a cod rssi eir) =>
    t ≤ 2 ∧ a < 281474976710656 ∧ cod < 16777216 ∧ rssi < 256 ∧ (t = 2 → eir.length = 240)
  | .base (.name a n) => a < 281474976710656 ∧ n.length = 248
  | .base (.hostFeatures a f) => a < 281474976710656 ∧ f < 18446744073709551616
  | .base (.features h f) => h < 4096 ∧ f < 18446744073709551616
  | .base (.ext st h p m f) => st < 256 ∧ h < 4096 ∧ p < 256 ∧ m < 256 ∧ f < 18446744073709551616
  | .base (.version h v c s) => h < 4096 ∧ v < 256 ∧ c < 65536 ∧ s < 65536
  | .base (.completed h n) => h < 4096 ∧ n < 65536
  | .base (.acl h pb bc d) => h < 4096 ∧ pb < 4 ∧ bc < 4 ∧ d.length < 65536
  | .base (.sco h d) => h < 4096 ∧ d.length < 256
  | .packetType st h t => st < 256 ∧ h < 4096 ∧ t < 65536
  | .qos st h s r b l v => st < 256 ∧ h < 4096 ∧ s < 256 ∧ r < 4294967296 ∧ b < 4294967296 ∧ l < 4294967296 ∧ v < 4294967296
  | .power st h phy => st < 256 ∧ h < 4096 ∧ phy < 256

/-- What the host cannot see: the RSSI and the data of an inquiry result that has none. -/
def seen : PEv → PEv
  | .base (.inqResult 0 a cod _ _) => .base (.inqResult 0 a cod 0 [])
  | .base (.inqResult 1 a cod rssi _) => .base (.inqResult 1 a cod rssi [])
  | e => e

/-- The number in the first `k` octets, and the others. -/
def get : Nat → List Nat → Option (Nat × List Nat)
  | 0, l => some (0, l)
  | _ + 1, [] => none
  | k + 1, b :: l => match get k l with
    | none => none
    | some (n, r) => some (b + 256 * n, r)

def link : Nat → Option LinkType
  | 0 => some .sco
  | 1 => some .acl
  | 2 => some .esco
  | _ => none

def newRole : Nat → Option Role
  | 0 => some .central
  | 1 => some .peripheral
  | _ => none

/-- Octets. -/
def bytes (l : List Nat) : List UInt8 := l.map UInt8.ofNat

/-- What a host takes from the parameters of an event. -/
def parameters? (code : Nat) (ps : List Nat) : Option PEv := match code with
  | 0x01 => some (.base .inqComplete)
  | 0x02 => do
    let (_, l) ← get 1 ps
    let (a, l) ← get 6 l
    let (_, l) ← get 3 l
    let (cod, _) ← get 3 l
    some (.base (.inqResult 0 a cod 0 []))
  | 0x03 => do
    let (st, l) ← get 1 ps
    let (h, l) ← get 2 l
    let (a, l) ← get 6 l
    let (t, _) ← get 1 l
    let t ← link t
    some (.base (.connComplete st h a t))
  | 0x04 => do
    let (a, l) ← get 6 ps
    let (cod, l) ← get 3 l
    let (t, _) ← get 1 l
    let t ← link t
    some (.base (.connRequest a cod t))
  | 0x05 => do
    let (_, l) ← get 1 ps
    let (h, l) ← get 2 l
    let (r, _) ← get 1 l
    some (.base (.disconnComplete h r))
  | 0x07 => do
    let (_, l) ← get 1 ps
    let (a, l) ← get 6 l
    some (.base (.name a (bytes l)))
  | 0x0b => do
    let (_, l) ← get 1 ps
    let (h, l) ← get 2 l
    let (f, _) ← get 8 l
    some (.base (.features h f))
  | 0x0c => do
    let (_, l) ← get 1 ps
    let (h, l) ← get 2 l
    let (v, l) ← get 1 l
    let (c, l) ← get 2 l
    let (s, _) ← get 2 l
    some (.base (.version h v c s))
  | 0x0d => do
    let (st, l) ← get 1 ps
    let (h, l) ← get 2 l
    let (_, l) ← get 1 l
    let (s, l) ← get 1 l
    let (r, l) ← get 4 l
    let (b, l) ← get 4 l
    let (y, l) ← get 4 l
    let (v, _) ← get 4 l
    some (.qos st h s r b y v)
  | 0x12 => do
    let (st, l) ← get 1 ps
    let (a, l) ← get 6 l
    let (r, _) ← get 1 l
    let r ← newRole r
    some (.base (.roleChange st a r))
  | 0x13 => do
    let (_, l) ← get 1 ps
    let (h, l) ← get 2 l
    let (n, _) ← get 2 l
    some (.base (.completed h n))
  | 0x1d => do
    let (st, l) ← get 1 ps
    let (h, l) ← get 2 l
    let (t, _) ← get 2 l
    some (.packetType st h t)
  | 0x22 => do
    let (_, l) ← get 1 ps
    let (a, l) ← get 6 l
    let (_, l) ← get 2 l
    let (cod, l) ← get 3 l
    let (_, l) ← get 2 l
    let (rssi, _) ← get 1 l
    some (.base (.inqResult 1 a cod rssi []))
  | 0x23 => do
    let (st, l) ← get 1 ps
    let (h, l) ← get 2 l
    let (p, l) ← get 1 l
    let (m, l) ← get 1 l
    let (f, _) ← get 8 l
    some (.base (.ext st h p m f))
  | 0x2c => do
    let (st, l) ← get 1 ps
    let (h, l) ← get 2 l
    let (a, l) ← get 6 l
    let (t, l) ← get 1 l
    let t ← link t
    let (i, l) ← get 1 l
    let (w, l) ← get 1 l
    let (rx, l) ← get 2 l
    let (tx, l) ← get 2 l
    let (air, _) ← get 1 l
    some (.base (.syncComplete st h a t i w rx tx air))
  | 0x2f => do
    let (_, l) ← get 1 ps
    let (a, l) ← get 6 l
    let (_, l) ← get 2 l
    let (cod, l) ← get 3 l
    let (_, l) ← get 2 l
    let (rssi, l) ← get 1 l
    some (.base (.inqResult 2 a cod rssi (bytes l)))
  | 0x3d => do
    let (a, l) ← get 6 ps
    let (f, _) ← get 8 l
    some (.base (.hostFeatures a f))
  | 0x3e => do
    let (_, l) ← get 1 ps
    let (st, l) ← get 1 l
    let (h, l) ← get 2 l
    let (_, l) ← get 1 l
    let (phy, _) ← get 1 l
    some (.power st h phy)
  | _ => none

/-- What a host takes from a packet: an event, ACL data or synchronous data, of the length it says. -/
def hears : Nat × List Nat → Option PEv
  | (4, code :: n :: ps) => if n = ps.length then parameters? code ps else none
  | (2, l) => do
    let (w, l) ← get 2 l
    let (n, l) ← get 2 l
    if n = l.length then some (.base (.acl (w % 4096) (w / 4096 % 4) (w / 16384) (bytes l))) else none
  | (3, l) => do
    let (h, l) ← get 2 l
    let (n, l) ← get 1 l
    if n = l.length then some (.base (.sco h (bytes l))) else none
  | _ => none

end Verif.WireBr
