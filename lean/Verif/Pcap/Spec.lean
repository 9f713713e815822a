import Verif.Pcap.Model
/-! # What C13 and C14 talk about -/

namespace Verif.Pcap

/-- An AD structure of advertising data or of an extended inquiry response. -/
structure Entry where
  type : UInt8
  data : Bytes

/-- The length octet of an AD structure counts the type octet. -/
def Entry.Valid (e : Entry) : Prop := e.data.length ≤ 254

/-- The bytes of an AD structure. -/
def Entry.encode (e : Entry) : Bytes := UInt8.ofNat (e.data.length + 1) :: e.type :: e.data

/-- The AD types that carry the name of a device: shortened and complete local name. -/
def Entry.HoldsName (e : Entry) : Prop := e.type = 0x08 ∨ e.type = 0x09

/-- A packet is framed: its length field says how long it is. -/
def Framed (idc : UInt8) (p : Bytes) : Prop :=
  match idc, p with
  | 1, _ :: _ :: s :: rest => rest.length = s.toNat
  | 2, _ :: _ :: s0 :: s1 :: rest => rest.length = s0.toNat + 256 * s1.toNat
  | 3, _ :: _ :: s :: rest => rest.length = s.toNat
  | 4, _ :: s :: rest => rest.length = s.toNat
  | 5, _ :: _ :: s0 :: s1 :: rest => rest.length = s0.toNat + 256 * (s1.toNat % 64)
  | _, _ => True

/-- The packets of a session, one after the other. -/
def session (m : Names) : List (Bytes × UInt8) → Option (Names × List Bytes)
  | [] => some (m, [])
  | (p, idc) :: ps =>
    match filterPacket m p idc with
    | none => none
    | some (m', q) =>
      match session m' ps with
      | none => none
      | some (m'', qs) => some (m'', q :: qs)

/-- The names replaced one after the other, each with the interface (padded or not) it comes through. -/
def rename (m : Names) : List (Bytes × Bool) → Names × List Bytes
  | [] => (m, [])
  | (n, b) :: ns =>
    let r := changeName m n b
    let q := rename r.1 ns
    (q.1, r.2 :: q.2)

end Verif.Pcap
