/-!
# Synchronous link parameters

Models `/repo/model/controller/sco_connection.{h,cc}`: the choice of (e)SCO link parameters and their
negotiation with the peer. Logging is omitted.
-/

namespace Verif.Sco

/-- `ScoConnectionParameters`, sco_connection.h:55-61. -/
structure ConnParams where
  txBandwidth : UInt32
  rxBandwidth : UInt32
  maxLatency : UInt16
  voiceSetting : UInt16
  effort : UInt8
  packetType : UInt16
  deriving DecidableEq, Repr

/-- `ScoLinkParameters`, sco_connection.h:46-53. -/
structure LinkParams where
  interval : UInt8
  window : UInt8
  rxLength : UInt16
  txLength : UInt16
  airMode : UInt8
  extended : Bool
  deriving DecidableEq, Repr

/-- `SynchronousPacketTypeBits`, packets/hci_packets.pdl:1316-1327. -/
def hv1 : UInt16 := 0x0001
def hv2 : UInt16 := 0x0002
def hv3 : UInt16 := 0x0004
def ev3 : UInt16 := 0x0008
def ev4 : UInt16 := 0x0010
def ev5 : UInt16 := 0x0020
def no2Ev3 : UInt16 := 0x0040
def no3Ev3 : UInt16 := 0x0080
def no2Ev5 : UInt16 := 0x0100
def no3Ev5 : UInt16 := 0x0200

/-- `RetransmissionEffort`, packets/hci_packets.pdl:1329-1334. -/
def effortNone : UInt8 := 0
def effortPower : UInt8 := 1
def effortQuality : UInt8 := 2
def effortDontCare : UInt8 := 0xFF

/-- The local `struct Packet`, sco_connection.cc:55-60. -/
structure Packet where
  length : Nat
  slots : Nat
  deriving DecidableEq, Repr

/-- `accepted_packets`, sco_connection.cc:62-85. -/
def accepted (t : UInt16) : List Packet :=
  [⟨0, 1⟩] ++ (if t &&& ev3 ≠ 0 then [⟨30, 1⟩] else []) ++
    (if t &&& ev4 ≠ 0 then [⟨120, 3⟩] else []) ++
    (if t &&& ev5 ≠ 0 then [⟨180, 3⟩] else []) ++
    (if t &&& no2Ev3 = 0 then [⟨60, 1⟩] else []) ++
    (if t &&& no3Ev3 = 0 then [⟨360, 3⟩] else []) ++
    (if t &&& no2Ev5 = 0 then [⟨90, 1⟩] else []) ++
    (if t &&& no3Ev5 = 0 then [⟨540, 3⟩] else [])

/-- `transmission_interval`, sco_connection.cc:105, 114-119. The multiplications stay below 2^32 and
the divisors are not 0 here. -/
def interval (p : ConnParams) (tx rx : Packet) : Nat :=
  let m := min ((1600 * tx.length) / p.txBandwidth.toNat) ((1600 * rx.length) / p.rxBandwidth.toNat)
  min (m - m % 2) 254

/-- `retransmission_window`, sco_connection.cc:124-130. -/
def retransmission (p : ConnParams) (tx rx : Packet) : Nat :=
  if p.effort = effortNone then 0
  else if p.effort = effortPower then rx.slots + tx.slots
  else if p.effort = effortQuality then 2 * (rx.slots + tx.slots)
  else 0

/-- `transmission_window`, sco_connection.cc:135. -/
def transmissionWindow (p : ConnParams) (tx rx : Packet) : Nat :=
  tx.slots + rx.slots + retransmission p tx rx

/-- The tests that `continue` the loop, sco_connection.cc:101-103, 108-110, 137-151. -/
def valid (p : ConnParams) (tx rx : Packet) : Bool :=
  tx.length ≠ 0 && rx.length ≠ 0 && transmissionWindow p tx rx ≤ interval p tx rx &&
    (transmissionWindow p tx rx * 1250) / 2 ≤ 1000 * p.maxLatency.toNat

/-- `air_coding_to_air_mode[voice_setting & 3]`, sco_connection.cc:46-51, 162. -/
def airMode (v : UInt16) : UInt8 :=
  match (v &&& 3).toNat with
  | 0 => 2
  | 1 => 0
  | 2 => 1
  | _ => 3

/-- A packet length, sco_connection.cc:160-161: 32-bit arithmetic, then a 16-bit conversion. -/
def packetLength (bandwidth : UInt32) (interval : Nat) : UInt16 :=
  UInt16.ofNat (((bandwidth.toNat * interval + 1600 - 1) % 2 ^ 32) / 1600)

/-- `best_parameters` for a combination, sco_connection.cc:160-172. -/
def escoParams (p : ConnParams) (tx rx : Packet) : LinkParams :=
  { interval := UInt8.ofNat (interval p tx rx), window := UInt8.ofNat (retransmission p tx rx), rxLength := packetLength p.rxBandwidth (interval p tx rx), txLength := packetLength p.txBandwidth (interval p tx rx), airMode := airMode p.voiceSetting, extended := true }

/-- `best_bandwidth_usage` as a fraction, and `best_parameters`. The code divides two integers
below 255 as doubles and compares the quotients; correctly rounded quotients of such integers are
ordered as the fractions are, so the comparison is written by cross-multiplication. -/
structure Best where
  num : Nat
  den : Nat
  params : Option LinkParams
  deriving Repr

/-- The body of the double loop, sco_connection.cc:107-175. -/
def consider (p : ConnParams) (b : Best) (c : Packet × Packet) : Best :=
  if valid p c.1 c.2 then
    let w := transmissionWindow p c.1 c.2
    let i := interval p c.1 c.2
    if w * b.den ≤ b.num * i then ⟨w, i, some (escoParams p c.1 c.2)⟩ else b
  else b

/-- The combinations in loop order, sco_connection.cc:100-107. -/
def combinations (t : UInt16) : List (Packet × Packet) :=
  (accepted t).flatMap (fun tx => (accepted t).map (fun rx => (tx, rx)))

/-- The double loop, sco_connection.cc:93-177. -/
def bestEsco (p : ConnParams) : Option LinkParams :=
  ((combinations p.packetType).foldl (consider p) ⟨1, 1, none⟩).params

/-- The second phase, sco_connection.cc:183-219. -/
def scoFallback (p : ConnParams) : Option LinkParams :=
  if p.effort = effortPower ∨ p.effort = effortQuality then none
  else if p.packetType &&& hv3 ≠ 0 then some ⟨6, 0, 30, 30, airMode p.voiceSetting, false⟩
  else if p.packetType &&& hv2 ≠ 0 then some ⟨4, 0, 20, 20, airMode p.voiceSetting, false⟩
  else if p.packetType &&& hv1 ≠ 0 then some ⟨2, 0, 10, 10, airMode p.voiceSetting, false⟩
  else none

/-- `ScoConnectionParameters::GetLinkParameters`, sco_connection.cc:44-215. -/
def getLinkParams (p : ConnParams) : Option LinkParams :=
  if p.txBandwidth = 0 ∨ p.rxBandwidth = 0 then none
  else
    match bestEsco p with
    | some l => some l
    | none => scoFallback p

/-- The state of the connection during the negotiation, sco_connection.h:71-77: only whether it is
one of the two "sent" states matters. -/
inductive State where
  | other | sentEsco | sentSco
  deriving DecidableEq, Repr

/-- `max_latency` of the negotiation, sco_connection.cc:249-252. -/
def latency (mine peer : UInt16) : UInt16 :=
  if peer = 0xffff then mine else if mine = 0xffff then peer else min peer mine

/-- `packet_type` of the negotiation, sco_connection.cc:239-240. -/
def commonTypes (mine peer : UInt16) : UInt16 :=
  ((peer &&& mine) &&& 0x3f) ||| ((peer ||| mine) &&& 0x3c0)

/-- `retransmission_effort` of the negotiation, sco_connection.cc:254-271; `none` is a failure. -/
def commonEffort (st : State) (mine peer : UInt8) : Option UInt8 :=
  if st = .sentSco then some effortNone
  else if peer = mine ∨ peer = effortDontCare then some mine
  else if mine = effortDontCare then some peer
  else if peer = effortNone ∨ mine = effortNone then none
  else some effortPower

/-- `ScoConnection::NegotiateLinkParameters`, sco_connection.cc:217-290: the link parameters on
success. `mine` are the parameters stored in the connection, `peer` those of the argument. -/
def negotiate (st : State) (mine peer : ConnParams) : Option LinkParams :=
  if peer.txBandwidth ≠ 0xffff ∧ peer.txBandwidth ≠ mine.rxBandwidth then none
  else if st = .sentEsco ∧ peer.rxBandwidth ≠ 0xffff ∧ peer.rxBandwidth ≠ mine.txBandwidth then none
  else if peer.voiceSetting &&& ~~~3 ≠ mine.voiceSetting &&& ~~~3 then none
  else if commonTypes mine.packetType peer.packetType = 0x3c0 then none
  else
    match commonEffort st mine.effort peer.effort with
    | none => none
    | some e =>
      getLinkParams { mine with maxLatency := latency mine.maxLatency peer.maxLatency, effort := e, packetType := commonTypes mine.packetType peer.packetType }

/-- `ScoConnectionParameters::IsExtended`, sco_connection.cc:33-42. -/
def isExtended (p : ConnParams) : Bool :=
  (p.packetType ^^^ (no2Ev3 ||| no3Ev3 ||| no2Ev5 ||| no3Ev5)) &&& ~~~(hv1 ||| hv2 ||| hv3) ≠ 0

end Verif.Sco
