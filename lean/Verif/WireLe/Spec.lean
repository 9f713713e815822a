import Verif.Ll.Model
import Verif.WireBr.EventsSpec

/-!
# The octets of the events of LE (C129)

Bluetooth Core Specification, Volume 4, Part E, sections 5.4.2, 5.4.4, 7.7.5, 7.7.19 and 7.7.65: what the controller sends, and how
a host reads it. This file does not refer to the packet description files.
-/
namespace Verif.WireLe

open Verif.Le Verif.Ll
open Verif.Wire (le yes ofType ofAddress)
open Verif.WireBr (ofEvent get bytes)

/-- An LE Meta event: the code 0x3e, and the code of the subevent before its parameters. -/
def ofSubevent (code : Nat) (ps : List Nat) : Nat × List Nat := ofEvent 0x3e (code :: ps)

def ofPhy : PhyType → Nat
  | .noPackets => 0x00
  | .le1m => 0x01
  | .le2m => 0x02
  | .codedS8 => 0x03
  | .codedS2 => 0x04

def ofRole : Ll.Role → Nat
  | .central => 0x00
  | .peripheral => 0x01

/-- Event_Type of LE Advertising Report. -/
def ofReport : ReportType → Nat
  | .pdu .advInd => 0x00
  | .pdu .advDirectInd => 0x01
  | .pdu .advScanInd => 0x02
  | .pdu .advNonconnInd => 0x03
  | .scanResponse => 0x04

/-- Address type and address. -/
def ofTyped (a : AddressWithType) : List Nat := le 1 (ofType a.type) ++ ofAddress a.address

/-- Event_Type of LE Extended Advertising Report: bit 0 connectable, 1 scannable, 2 directed, 3 scan response, 4 legacy PDU, bits 5
and 6 the status of the data, 1 when more is to come. -/
def ofKind (r : ExtReport) : Nat :=
  yes r.connectable + 2 * yes r.scannable + 4 * yes r.directed + 8 * yes r.scanResponse + 16 * yes r.legacy + 32 * yes (!r.complete)

/-- The address an advertisement is directed to; no address has the type 0xff. -/
def ofDirect : Option AddressWithType → List Nat
  | some a => ofTyped a
  | none => 0xff :: le 6 0

/-- The peer of a connection is known by its identity if the controller has resolved its address (`resolved` is empty otherwise). -/
def peer (c : LeConn) : AddressWithType := if c.resolved = ⟨0, .publicDevice⟩ then c.address else c.resolved

/-- The address the peer used instead. -/
def peerUsed (c : LeConn) : Address := if c.resolved = ⟨0, .publicDevice⟩ then 0 else c.address.address

/-- The resolvable private address of the device: the one it used, unless that was its public or its random address. -/
def localUsed (pub random : Address) (c : LeConn) : Address :=
  if c.own.address = pub then 0 else if c.own.address = random then 0 else c.own.address

/-- Connection_Interval, Peripheral_Latency, Supervision_Timeout, and the clock accuracy 0 (500 ppm). -/
def ofParams (p : LinkParams) : List Nat := le 2 p.interval ++ le 2 p.latency ++ le 2 p.timeout ++ [0]

/-- What the controller sends its host; `rssi` and `power` are those of the received PDU, `enhanced` says whether the host wants LE
Enhanced Connection Complete, `pub` and `random` are the addresses of the device. Reports have one response. -/
def told (rssi power : Nat) (enhanced : Bool) (pub random : Address) : Out → Option (Nat × List Nat)
  | .directedReport a d => some (ofSubevent 0x0b ([1, 1] ++ ofTyped a ++ [1] ++ ofAddress d ++ le 1 rssi))
  | .legacyReport t a d => some (ofSubevent 0x02
      (1 :: le 1 (ofReport t) ++ ofTyped a ++ le 1 d.length ++ d.map UInt8.toNat ++ le 1 rssi))
  | .extReport r => some (ofSubevent 0x0d
      (1 :: le 2 (ofKind r) ++ ofTyped r.address ++ le 1 (ofPhy r.primary) ++ le 1 (ofPhy r.secondary) ++ le 1 r.sid ++ le 1 power ++
        le 1 rssi ++ le 2 r.interval ++ ofDirect r.direct ++ le 1 r.data.length ++ r.data.map UInt8.toNat))
  | .scanTimeout => some (ofSubevent 0x11 [])
  | .syncEstablished h sid a i => some (ofSubevent 0x0e (0 :: le 2 h ++ le 1 sid ++ ofTyped a ++ [1] ++ le 2 i ++ [0]))
  | .periodicReport h c d => some (ofSubevent 0x0f
      (le 2 h ++ le 1 power ++ le 1 rssi ++ [0xff] ++ [yes (!c)] ++ le 1 d.length ++ d.map UInt8.toNat))
  | .connected h c => some (if enhanced
      then ofSubevent 0x0a (0 :: le 2 h ++ le 1 (ofRole c.role) ++ ofTyped (peer c) ++ ofAddress (localUsed pub random c) ++
        ofAddress (peerUsed c) ++ ofParams c.params)
      else ofSubevent 0x01 (0 :: le 2 h ++ le 1 (ofRole c.role) ++ ofTyped c.address ++ ofParams c.params))
  | .channelSelection h => some (ofSubevent 0x14 (le 2 h ++ [0]))
  | .setTerminated a (some h) n => some (ofSubevent 0x12 (0 :: le 1 a.toNat ++ le 2 h ++ le 1 n))
  | .setTerminated a none n => some (ofSubevent 0x12 (0x3c :: le 1 a.toNat ++ [0, 0] ++ le 1 n))
  | .directedTimeout => some (if enhanced then ofSubevent 0x0a (0x3c :: List.replicate 29 0) else ofSubevent 0x01 (0x3c :: List.replicate 17 0))
  | .acl h pb bc d => some (2, le 2 (h + 4096 * pb + 16384 * bc) ++ le 2 d.length ++ d.map UInt8.toNat)
  | .completedPackets h => some (ofEvent 0x13 (1 :: le 2 h ++ le 2 1))
  | .disconnected h r => some (ofEvent 0x05 (0 :: le 2 h ++ le 1 r))
  | .dispatched _ _ _ => none
  | .send _ => none

/-- The values fit the octets they have, and the event has at most 255. -/
def Tellable : Out → Prop
  | .directedReport _ _ => True
  | .legacyReport _ _ d => d.length ≤ 243
  | .extReport r => r.sid < 256 ∧ r.interval < 65536 ∧ r.data.length ≤ 229
  | .scanTimeout => True
  | .syncEstablished h sid _ i => h < 4096 ∧ sid < 256 ∧ i < 65536
  | .periodicReport h _ d => h < 4096 ∧ d.length ≤ 247
  | .connected h c => h < 4096 ∧ c.params.interval < 65536 ∧ c.params.latency < 65536 ∧ c.params.timeout < 65536
  | .channelSelection h => h < 4096
  | .setTerminated _ h n => h.getD 0 < 4096 ∧ n < 256
  | .directedTimeout => True
  | .acl h pb bc d => h < 4096 ∧ pb < 4 ∧ bc < 4 ∧ d.length < 65536
  | .completedPackets h => h < 4096
  | .disconnected h r => h < 4096 ∧ r < 256
  | .dispatched _ _ _ => True
  | .send _ => True

/-- What a host learns: of a connection, only what the event has. -/
inductive Heard
  | out (o : Out)
  | connection (status handle : Nat) (role : Ll.Role) (peer : AddressWithType) (params : LinkParams)
  | enhanced (status handle : Nat) (role : Ll.Role) (peer : AddressWithType) (localUsed peerUsed : Address) (params : LinkParams)
  deriving DecidableEq

/-- What a host should learn. The end of directed advertising is a connection with the status Advertising Timeout. -/
def learns (enhanced : Bool) (pub random : Address) : Out → Option Heard
  | .connected h c => some (if enhanced then .enhanced 0 h c.role (peer c) (localUsed pub random c) (peerUsed c) c.params
      else .connection 0 h c.role c.address c.params)
  | .directedTimeout => some (if enhanced then .enhanced 0x3c 0 .central ⟨0, .publicDevice⟩ 0 0 ⟨0, 0, 0⟩
      else .connection 0x3c 0 .central ⟨0, .publicDevice⟩ ⟨0, 0, 0⟩)
  | .dispatched _ _ _ => none
  | .send _ => none
  | o => some (.out o)

def typeOf : Nat → Option AddressType
  | 0 => some .publicDevice
  | 1 => some .randomDevice
  | 2 => some .publicIdentity
  | 3 => some .randomIdentity
  | _ => none

def phyOf : Nat → Option PhyType
  | 0 => some .noPackets
  | 1 => some .le1m
  | 2 => some .le2m
  | 3 => some .codedS8
  | 4 => some .codedS2
  | _ => none

def roleOf : Nat → Option Ll.Role
  | 0 => some .central
  | 1 => some .peripheral
  | _ => none

def reportOf : Nat → Option ReportType
  | 0 => some (.pdu .advInd)
  | 1 => some (.pdu .advDirectInd)
  | 2 => some (.pdu .advScanInd)
  | 3 => some (.pdu .advNonconnInd)
  | 4 => some .scanResponse
  | _ => none

/-- An address. -/
def getAddress (l : List Nat) : Option (Address × List Nat) := (get 6 l).map fun x => (BitVec.ofNat 48 x.1, x.2)

/-- A type and an address. -/
def getTyped (l : List Nat) : Option (AddressWithType × List Nat) := do
  let (t, l) ← get 1 l
  let t ← typeOf t
  let (a, l) ← getAddress l
  some (⟨a, t⟩, l)

/-- A type and an address, or none. -/
def getDirect (l : List Nat) : Option (Option AddressWithType × List Nat) :=
  if l.head? = some 0xff then (get 7 l).map fun x => (none, x.2) else (getTyped l).map fun x => (some x.1, x.2)

/-- The parameters of a connection. -/
def getParams (l : List Nat) : Option (LinkParams × List Nat) := do
  let (i, l) ← get 2 l
  let (y, l) ← get 2 l
  let (t, l) ← get 2 l
  some (⟨i, y, t⟩, l)

/-- A length and as many octets. -/
def getData (l : List Nat) : Option (List UInt8 × List Nat) := do
  let (n, l) ← get 1 l
  if n ≤ l.length then some (bytes (l.take n), l.drop n) else none

/-- Bit `i`. -/
def bit (n i : Nat) : Bool := decide (n / 2 ^ i % 2 = 1)

/-- What a host takes from the parameters of a subevent. -/
def subevent? (code : Nat) (ps : List Nat) : Option Heard := match code with
  | 0x01 => do
    let (st, l) ← get 1 ps
    let (h, l) ← get 2 l
    let (r, l) ← get 1 l
    let r ← roleOf r
    let (a, l) ← getTyped l
    let (p, _) ← getParams l
    some (.connection st h r a p)
  | 0x02 => do
    let (_, l) ← get 1 ps
    let (t, l) ← get 1 l
    let t ← reportOf t
    let (a, l) ← getTyped l
    let (d, _) ← getData l
    some (.out (.legacyReport t a d))
  | 0x0a => do
    let (st, l) ← get 1 ps
    let (h, l) ← get 2 l
    let (r, l) ← get 1 l
    let r ← roleOf r
    let (a, l) ← getTyped l
    let (u, l) ← getAddress l
    let (v, l) ← getAddress l
    let (p, _) ← getParams l
    some (.enhanced st h r a u v p)
  | 0x0b => do
    let (_, l) ← get 2 ps
    let (a, l) ← getTyped l
    let (_, l) ← get 1 l
    let (d, _) ← getAddress l
    some (.out (.directedReport a d))
  | 0x0d => do
    let (_, l) ← get 1 ps
    let (k, l) ← get 2 l
    let (a, l) ← getTyped l
    let (p, l) ← get 1 l
    let p ← phyOf p
    let (s, l) ← get 1 l
    let s ← phyOf s
    let (sid, l) ← get 1 l
    let (_, l) ← get 2 l
    let (i, l) ← get 2 l
    let (d, l) ← getDirect l
    let (x, _) ← getData l
    some (.out (.extReport ⟨bit k 0, bit k 1, bit k 2, bit k 3, bit k 4, a, p, s, sid, i, d, decide (k / 32 % 4 = 0), x⟩))
  | 0x0e => do
    let (_, l) ← get 1 ps
    let (h, l) ← get 2 l
    let (sid, l) ← get 1 l
    let (a, l) ← getTyped l
    let (_, l) ← get 1 l
    let (i, _) ← get 2 l
    some (.out (.syncEstablished h sid a i))
  | 0x0f => do
    let (h, l) ← get 2 ps
    let (_, l) ← get 3 l
    let (s, l) ← get 1 l
    let (d, _) ← getData l
    some (.out (.periodicReport h (decide (s = 0)) d))
  | 0x11 => some (.out .scanTimeout)
  | 0x12 => do
    let (st, l) ← get 1 ps
    let (a, l) ← get 1 l
    let (h, l) ← get 2 l
    let (n, _) ← get 1 l
    some (.out (.setTerminated (UInt8.ofNat a) (if st = 0 then some h else none) n))
  | 0x14 => do
    let (h, _) ← get 2 ps
    some (.out (.channelSelection h))
  | _ => none

/-- What a host takes from the parameters of an event. -/
def event? (code : Nat) (ps : List Nat) : Option Heard := match code with
  | 0x05 => do
    let (_, l) ← get 1 ps
    let (h, l) ← get 2 l
    let (r, _) ← get 1 l
    some (.out (.disconnected h r))
  | 0x13 => do
    let (_, l) ← get 1 ps
    let (h, _) ← get 2 l
    some (.out (.completedPackets h))
  | 0x3e => do
    let (s, l) ← get 1 ps
    subevent? s l
  | _ => none

/-- What a host takes from a packet: an event or ACL data, of the length it says. -/
def hears : Nat × List Nat → Option Heard
  | (4, code :: n :: ps) => if n = ps.length ∧ n < 256 then event? code ps else none
  | (2, l) => do
    let (w, l) ← get 2 l
    let (n, l) ← get 2 l
    if n = l.length then some (.out (.acl (w % 4096) (w / 4096 % 4) (w / 16384) (bytes l))) else none
  | _ => none

/-- The data of the extended reports a host hears. -/
def heardData : List (Option Heard) → List UInt8
  | some (.out (.extReport r)) :: l => r.data ++ heardData l
  | _ :: l => heardData l
  | [] => []

end Verif.WireLe
