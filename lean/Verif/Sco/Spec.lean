import Verif.Sco.Model
/-!
# Specification of (e)SCO link parameters

The packet types and their payloads are those of the Bluetooth Core Specification (Vol 2, Part B,
6.5.2 and 6.5.3), written without reference to the code.
-/

namespace Verif.Sco

/-- The eSCO packet types. -/
inductive EscoType where
  | ev3 | ev4 | ev5 | ev3_2 | ev3_3 | ev5_2 | ev5_3
  deriving DecidableEq, Repr

namespace EscoType

/-- Greatest payload, in octets. -/
def payload : EscoType → Nat
  | ev3 => 30 | ev4 => 120 | ev5 => 180 | ev3_2 => 60 | ev3_3 => 90 | ev5_2 => 360 | ev5_3 => 540

/-- Slots occupied. -/
def slots : EscoType → Nat
  | ev3 => 1 | ev4 => 3 | ev5 => 3 | ev3_2 => 1 | ev3_3 => 1 | ev5_2 => 3 | ev5_3 => 3

/-- The host allows a type: a set bit for EV3 to EV5, a cleared one for the others. -/
def Allowed (mask : UInt16) : EscoType → Prop
  | ev3 => mask &&& 0x008 ≠ 0
  | ev4 => mask &&& 0x010 ≠ 0
  | ev5 => mask &&& 0x020 ≠ 0
  | ev3_2 => mask &&& 0x040 = 0
  | ev3_3 => mask &&& 0x080 = 0
  | ev5_2 => mask &&& 0x100 = 0
  | ev5_3 => mask &&& 0x200 = 0

/-- 3-EV3 and 2-EV5 exchanged: the code gives each of them the size of the other. -/
def exchange : EscoType → EscoType
  | ev3_3 => ev5_2
  | ev5_2 => ev3_3
  | k => k

end EscoType

/-- Slots reserved for retransmissions under a retransmission effort. -/
def retransmissionSlots (effort : UInt8) (slots : Nat) : Nat :=
  if effort = 1 then slots else if effort = 2 then 2 * slots else 0

/-- Size of the whole window: one packet each way, plus the retransmissions. -/
def windowSlots (effort : UInt8) (tx rx : EscoType) : Nat :=
  (tx.slots + rx.slots) + retransmissionSlots effort (tx.slots + rx.slots)

/-- A choice of packet types and interval that satisfies a request, for a given meaning of "the
host allows this type". The interval is counted in slots (1600 per second, 625 µs each) and the
latency in milliseconds. -/
structure Admissible (p : ConnParams) (allows : EscoType → Prop) (tx rx : EscoType) (i : Nat) : Prop where
  txAllowed : allows tx
  rxAllowed : allows rx
  even : i % 2 = 0
  small : i ≤ 254
  txCarries : p.txBandwidth.toNat * i ≤ 1600 * tx.payload
  rxCarries : p.rxBandwidth.toNat * i ≤ 1600 * rx.payload
  fits : windowSlots p.effort tx rx ≤ i
  latency : 625 * windowSlots p.effort tx rx ≤ 1000 * p.maxLatency.toNat

/-- `l` is an eSCO configuration for the request that no admissible choice beats. -/
def IsBest (p : ConnParams) (allows : EscoType → Prop) (l : LinkParams) : Prop :=
  l.extended = true ∧
  ∃ tx rx, Admissible p allows tx rx l.interval.toNat ∧
    l.window.toNat = retransmissionSlots p.effort (tx.slots + rx.slots) ∧
    -- the packets carry the bandwidth over an interval, with less than an octet to spare,
    -- and fit in the chosen packet types
    p.txBandwidth.toNat * l.interval.toNat ≤ 1600 * l.txLength.toNat ∧
    1600 * l.txLength.toNat < p.txBandwidth.toNat * l.interval.toNat + 1600 ∧
    l.txLength.toNat ≤ tx.payload ∧
    p.rxBandwidth.toNat * l.interval.toNat ≤ 1600 * l.rxLength.toNat ∧
    1600 * l.rxLength.toNat < p.rxBandwidth.toNat * l.interval.toNat + 1600 ∧
    l.rxLength.toNat ≤ rx.payload ∧
    -- no admissible choice uses a smaller share of the slots
    ∀ tx' rx' i', Admissible p allows tx' rx' i' →
      windowSlots p.effort tx rx * i' ≤ windowSlots p.effort tx' rx' * l.interval.toNat

end Verif.Sco
