import Verif.Ll.SpecReport
import Verif.Ll.SpecScan
/-!
# What an advertising report says, for C120

Volume 4 Part E § 7.7.65.2, .11 and .13 of the Core specification: the kinds of reports and their fields.
-/
namespace Verif.Ll
open Verif.Le

/-- The LE Directed Advertising Reports among some outputs: who advertises, and for which address. -/
def directedReportsOf (out : List Out) : List (AddressWithType × Address) :=
  out.filterMap (fun o => match o with | .directedReport a d => some (a, d) | _ => none)

/-- A legacy PDU type: connectable, scannable, directed. -/
def nature : PduType → Bool × Bool × Bool
  | .advInd => (true, true, false)
  | .advDirectInd => (true, false, true)
  | .advScanInd => (false, true, false)
  | .advNonconnInd => (false, false, false)

/-- A legacy PDU of the device `r` as an extended report: on the 1M PHY, with no second channel, set or interval. -/
def legacyAsExtended (p : LegacyPdu) (r : AddressWithType) : ExtReport :=
  ⟨(nature p.type).1, (nature p.type).2.1, (nature p.type).2.2, false, true, r, .le1m, .noPackets, 0xff, 0,
    if p.type = .advDirectInd then some p.target else none, true, p.data⟩

/-- An extended PDU of the device `r` as an extended report, with a part of the data. -/
def asExtended (p : ExtPdu) (r : AddressWithType) (complete : Bool) (data : List UInt8) : ExtReport :=
  ⟨p.connectable, p.scannable, p.directed, false, false, r, p.primary, p.secondary, p.sid, p.interval,
    if p.directed then some p.target else none, complete, data⟩

/-- The scanner looks at the initiator's identity, and the PDU is for a resolvable private address that is not known to be the
scanner's. -/
def Unresolved (ah : Hash) (s : Le.State) (r : AddressWithType) (p : LegacyPdu) : Prop :=
  (s.scanner.filterPolicy = .checkInitiatorsIdentity ∨ s.scanner.filterPolicy = .filterAcceptListAndInitiatorsIdentity) ∧
  p.type = .advDirectInd ∧ RpaForm p.target ∧ ¬ResolvesToUs ah s r p.target

/-- What a scan response tells about the PDU it answers. -/
structure Answered where
  adv : AddressWithType
  connectable : Bool
  legacy : Bool
  primary : PhyType
  secondary : PhyType

/-- Of the scannable PDUs. -/
def answered : Packet → Option Answered
  | .legacyAdv p => if (nature p.type).2.1 then some ⟨p.adv, (nature p.type).1, true, .le1m, .noPackets⟩ else none
  | .extAdv p => if p.scannable then some ⟨p.adv, p.connectable, false, p.primary, p.secondary⟩ else none
  | _ => none

/-- A scan request for the device is among some outputs. -/
def asks (a : AddressWithType) (out : List Out) : Bool := out.any (fun o => match o with | .send (.scan _ b) => b = a | _ => false)

/-- The scannable PDU of a device because of which the last scan request was sent to it, in a history. -/
def lastAsked (a : AddressWithType) (m : Option Answered) : List (Op × Obs) → Option Answered
  | [] => m
  | (.receive _ _ q, o) :: l => lastAsked a (if asks a o.out then (answered q).or m else m) l
  | _ :: l => lastAsked a m l

/-- The report of a scan response of the device `r`, with a part of the data. -/
def asResponse (q : Answered) (r : AddressWithType) (complete : Bool) (data : List UInt8) : ExtReport :=
  ⟨q.connectable, true, false, true, q.legacy, r, q.primary, q.secondary, 0xff, 0, none, complete, data⟩

end Verif.Ll
