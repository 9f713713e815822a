import Verif.Iso.Model
/-!
# Isochronous data

Models `LeController::HandleIso` and `LeController::IncomingLeConnectedIsochronousPdu`
(`/repo/model/controller/le_controller.cc` 5358-5396 and 5433-5523) and the queries of the link layer they make.
Octets are natural numbers.
-/

namespace Verif.Iso

open Verif.Le (mapFind)

/-- `IsoPacketBoundaryFlag`, packets/hci_packets.pdl:6326-6331. -/
inductive Boundary where
  | first | continuation | complete | last
  deriving DecidableEq, Repr

/-- `Iso`, packets/hci_packets.pdl:6338-6346. -/
structure IsoPacket where
  handle : Nat
  boundary : Boundary
  timestamp : Bool
  payload : List Nat
  deriving DecidableEq, Repr

/-- `LeConnectedIsochronousPdu`, packets/link_layer_packets.pdl:97-102, with the handle of the ACL connection whose
two addresses are those of the link layer packet. -/
structure IsoPdu where
  acl : Nat
  cigId : Nat
  cisId : Nat
  sequence : Nat
  data : List Nat
  deriving DecidableEq, Repr

/-- `IsoWithoutTimestamp` as it is given to the host, packets/hci_packets.pdl:6363-6369. The packet status is always
valid. -/
structure IsoReport where
  handle : Nat
  boundary : Boundary
  sequence : Nat
  sduLength : Nat
  payload : List Nat
  deriving DecidableEq, Repr

/-- `Cis::max_sdu_tx`, rust/src/llcp/iso.rs:290-296, with the `unwrap_or(0)` of rust/src/ffi.rs:424. -/
def Cis.maxSduTx (c : Cis) : Nat :=
  match c.params with
  | none => 0
  | some p => match c.role with
    | .central => p.maxSduC
    | .peripheral => p.maxSduP

/-- The size of the header of an ISO packet: `IsoWithTimestamp` and `IsoWithoutTimestamp`,
packets/hci_packets.pdl:6354-6369. -/
def headerSize (timestamp : Bool) : Nat := if timestamp then 8 else 4

/-- `packet_sequence_number`: the two octets before the SDU length. -/
def sequenceOf (timestamp : Bool) (payload : List Nat) : Nat :=
  payload.getD (headerSize timestamp - 4) 0 + 256 * payload.getD (headerSize timestamp - 3) 0

/-- The part of `HandleIso` after the checks, le_controller.cc:5481-5523. `buffer` is `iso_sdu_`, which is empty after
`std::move`. -/
def assemble (buffer : List Nat) (pkt : IsoPacket) (acl cigId cisId maxSdu : Nat) :
    Except Fault (List Nat × List IsoPdu) :=
  let sdu := (if pkt.boundary = .first ∨ pkt.boundary = .complete then [] else buffer) ++
    pkt.payload.drop (headerSize pkt.timestamp)
  if pkt.payload.length < headerSize pkt.timestamp then .error .panic
  else if pkt.boundary = .last ∨ pkt.boundary = .complete then
    if maxSdu < sdu.length then .ok (sdu, [])
    else .ok ([], [⟨acl, cigId, cisId, sequenceOf pkt.timestamp pkt.payload, sdu⟩])
  else .ok (sdu, [])

/-- `HandleIso`, le_controller.cc:5433-5523. `limit` is `iso_data_packet_length`. The controller has an LE ACL connection
for exactly the handles that the link layer knows. The number of completed packets event is not modelled. -/
def handleIso (s : State) (limit : Nat) (buffer : List Nat) (pkt : IsoPacket) : Except Fault (List Nat × List IsoPdu) :=
  if limit < pkt.payload.length then .error .panic
  else if pkt.timestamp ∧ (pkt.boundary = .continuation ∨ pkt.boundary = .last) then .error .panic
  else
    match findCis s.cises pkt.handle with
    | none => .ok (buffer, [])
    | some c =>
      match c.acl with
      | none => .ok (buffer, [])
      | some acl =>
        if (mapFind s.acls acl).isNone then .ok (buffer, [])
        else assemble buffer pkt acl c.cigId c.cisId c.maxSduTx

/-- A sequence of packets from the host, while the link layer does not change. -/
def handleIsos (s : State) (limit : Nat) : List Nat → List IsoPacket → Except Fault (List Nat × List IsoPdu)
  | buffer, [] => .ok (buffer, [])
  | buffer, pkt :: pkts =>
    match handleIso s limit buffer pkt with
    | .error f => .error f
    | .ok (buffer', out) =>
      match handleIsos s limit buffer' pkts with
      | .error f => .error f
      | .ok (buffer'', out') => .ok (buffer'', out ++ out')

/-- `kMaxPayloadSize`, le_controller.cc:5374. -/
def maxPayload : Nat := 4095 - 4

/-- The loop that fragments an SDU, le_controller.cc:5382-5395. `n` is a bound on the number of iterations. -/
def fragmentLoop (handle sequence sduLength : Nat) : Nat → Boundary → List Nat → List IsoReport
  | 0, _, _ => []
  | n + 1, b, data =>
    ⟨handle, b, sequence, sduLength, data.take maxPayload⟩ ::
      (if (data.drop maxPayload).length = 0 then []
        else fragmentLoop handle sequence sduLength n
          (if (data.drop maxPayload).length ≤ maxPayload then .last else .continuation) (data.drop maxPayload))

/-- `IncomingLeConnectedIsochronousPdu`, le_controller.cc:5358-5396. `get_cis_connection_handle` (rust/src/llcp/manager.rs
133-136) returns any CIS with the two identifiers. The SDU length is a `uint16_t`. -/
def incomingIso (s : State) (pdu : IsoPdu) : List IsoReport :=
  match s.cises.find? (fun c => c.cigId = pdu.cigId ∧ c.cisId = pdu.cisId) with
  | none => []
  | some c => fragmentLoop c.handle pdu.sequence (pdu.data.length % 65536) (pdu.data.length + 1)
      (if pdu.data.length ≤ maxPayload then .complete else .first) pdu.data

end Verif.Iso
