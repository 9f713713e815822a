import Verif.Le.Scan
/-!
# Connection parameters: connect request, update and reply

The parameters of an LE connection as they travel from the commands to the link.
-/

namespace Verif.Le

/-- Timing fields of a connection: `LeAclConnectionParameters` (le_acl_connection.h),
without the subrate fields (see `Verif.Subrate`). -/
structure LinkTiming where
  interval : Nat
  latency : Nat
  supervisionTimeout : Nat
  deriving DecidableEq, Repr

/-- The timing sent in the CONNECT_IND of the initiator (le_controller.cc 4766-4772 and
5182-5188): always the 1M PHY parameters, whatever PHY was requested. -/
def connectRequestTiming (i : Initiator) : LinkTiming :=
  ⟨i.le1m.params.intervalMax, i.le1m.params.maxLatency, i.le1m.params.supervisionTimeout⟩

/-- The parameters of LE Remote Connection Parameter Request Reply. -/
structure ReplyParams where
  intervalMin : Nat
  intervalMax : Nat
  latency : Nat
  supervisionTimeout : Nat
  minCeLength : Nat
  maxCeLength : Nat
  deriving DecidableEq, Repr

/-- `LeRemoteConnectionParameterRequestReply` (le_controller.cc 6429-6473) for a
connection with the timing `t` (`none`: unknown handle). The disjuncts are
evaluated in order, so the `int` product is at most 500 * 3200 * 10. -/
def parameterRequestReply (t : Option LinkTiming) (p : ReplyParams) : Option LinkTiming × Status :=
  match t with
  | none => (none, .unknownConnection)
  | some t =>
    if p.intervalMin < 6 ∨ p.intervalMax > 0xc80 ∨ p.intervalMin > p.intervalMax ∨
        p.intervalMax < p.intervalMin ∨ p.latency > 0x1f3 ∨ p.supervisionTimeout < 0xa ∨
        p.supervisionTimeout > 0xc80 ∨
        p.supervisionTimeout ≤ (((1 + p.latency) * p.intervalMax * 10) / 4) / 10 then
      (some t, .invalidHciCommandParameters)
    else if p.minCeLength > p.maxCeLength then (some t, .invalidHciCommandParameters)
    else (some ⟨p.intervalMin, p.latency, p.supervisionTimeout⟩, .success)

/-- `LeConnectionUpdate` (le_controller.cc 6398-6427) on a connection where the local
device is central: the PDU sent to the peer, which adopts it
(`IncomingLeConnectionParameterUpdate`, 5886-5910). The central's own record is left
alone. The handler does not look at the values. -/
def connectionUpdate (t : Option LinkTiming) (intervalMax latency timeout : Nat) :
    Option LinkTiming × Status :=
  match t with
  | none => (none, .unknownConnection)
  | some _ => (some ⟨intervalMax, latency, timeout⟩, .success)

end Verif.Le
