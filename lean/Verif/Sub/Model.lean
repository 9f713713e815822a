/-!
# Timing of an LE connection: connection update and subrating

Models the handling of the timing parameters of one LE ACL connection by `LeController`
(model/controller/le_controller.cc), on either end of the link, and a link of two controllers.

Simplifications. Only one connection is modelled: the handle of a command is that of the connection (an
unknown handle is answered `UNKNOWN_CONNECTION` before anything else happens). Fields of packets and
commands are natural numbers; `Cmd.wf` and `Pdu.wf` say that they fit into 16 bits. All events are
unmasked, except for the remote connection parameter request, for which both cases are modelled. The
scheduling of packets and events on the task queue without delay keeps their order. -/
namespace Verif.Sub

/-- `bluetooth::hci::Role`. -/
inductive Role | central | peripheral
  deriving DecidableEq, Repr

/-- `LeAclConnectionParameters` (le_acl_connection.h 42-60). `interval` is in units of 1.25 ms, `timeout`
in units of 10 ms. -/
structure Timing where
  interval : Nat
  factor : Nat
  cont : Nat
  latency : Nat
  timeout : Nat
  deriving DecidableEq, Repr

/-- `LeAclSubrateParameters` (le_acl_connection.h 64-70): what is acceptable. -/
structure Accept where
  min : Nat := 1
  max : Nat := 1
  latency : Nat := 0
  cont : Nat := 0
  timeout : Nat := 0x0c80
  deriving DecidableEq, Repr

/-- The timing of a connection when it is created (le_controller.cc 5536-5543). -/
def Timing.initial (interval latency timeout : Nat) : Timing := ⟨interval, 1, 0, latency, timeout⟩

/-- One end of a connection: its role, its timing, what it accepts, and whether the LE remote connection
parameter request event is unmasked. -/
structure End where
  role : Role
  timing : Timing
  accept : Accept
  asksHost : Bool
  deriving DecidableEq, Repr

/-- `bluetooth::hci::ErrorCode`, the values that occur; other values of a status octet are `other`. -/
inductive Status
  | success | invalidParameters | unsupportedValue | invalidLlParameters | unsupportedRemote | other (n : Nat)
  deriving DecidableEq, Repr

/-- The link layer PDUs of these procedures (packets/link_layer_packets.pdl 399-416 and the two for
connection parameters). -/
inductive Pdu
  | subrateReq (min max latency cont timeout : Nat)
  | subrateInd (status : Status) (factor latency cont timeout : Nat)
  | paramReq (imin imax latency timeout : Nat)
  | paramUpdate (status : Status) (interval latency timeout : Nat)
  deriving DecidableEq, Repr

/-- Events to the host. -/
inductive Ev
  | subrateChange (status : Status) (factor latency cont timeout : Nat)
  | paramRequest (imin imax latency timeout : Nat)
  | updateComplete (status : Status) (interval latency timeout : Nat)
  deriving DecidableEq, Repr

/-- Commands of the host on the connection. -/
inductive Cmd
  | subrateRequest (min max latency cont timeout : Nat)
  | connectionUpdate (imin imax latency timeout : Nat)
  | paramReply (imin imax latency timeout ceMin ceMax : Nat)
  | paramRefuse (reason : Status)
  deriving DecidableEq, Repr

/-- What a handler does: it answers with a status (commands only), changes the connection, sends PDUs and
events. A failed `ASSERT` and the overflow of a signed integer are outcomes of their own. -/
inductive Res
  | ok (status : Status) (e : End) (pdus : List Pdu) (evs : List Ev)
  | assertion
  | overflow
  deriving DecidableEq, Repr

/-- `INT_MAX`: the operands of type `uint16_t` are promoted to `int`. -/
def intMax : Nat := 2147483647

/-- `LeSetDefaultSubrate` (le_controller.cc 1979-2040): the answer, and what connections made from now on
accept. -/
def setDefaultSubrate (cur : Accept) (min max latency cont timeout : Nat) : Status × Accept :=
  if min < 1 ∨ min > 0x1f4 then (.unsupportedValue, cur)
  else if max < 1 ∨ max > 0x1f4 then (.unsupportedValue, cur)
  else if min > max then (.unsupportedValue, cur)
  else if latency > 0x1f3 then (.unsupportedValue, cur)
  else if cont > 0x1f3 then (.unsupportedValue, cur)
  else if timeout < 0xa ∨ timeout > 0xc80 then (.unsupportedValue, cur)
  else (.success, ⟨min, max, latency, cont, timeout⟩)

/-- `LeSubrateRequest` (le_controller.cc 2043-2191). -/
def subrateRequest (e : End) (min max latency cont timeout : Nat) : Res :=
  if min < 1 ∨ min > 0x1f4 then .ok .unsupportedValue e [] []
  else if max < 1 ∨ max > 0x1f4 then .ok .unsupportedValue e [] []
  else if min > max then .ok .invalidParameters e [] []
  else if latency > 0x1f3 then .ok .unsupportedValue e [] []
  else if cont > 0x1f3 then .ok .unsupportedValue e [] []
  else if timeout < 0xa ∨ timeout > 0xc80 then .ok .unsupportedValue e [] []
  else if max * (latency + 1) > intMax then .overflow
  else if max * (latency + 1) > 500 then .ok .invalidParameters e [] []
  else if e.timing.interval * max * (latency + 1) > intMax then .overflow
  else if e.timing.interval * max * (latency + 1) ≥ timeout / 2 then .ok .invalidParameters e [] []
  else if cont ≥ max then .ok .invalidParameters e [] []
  else
    match e.role with
    | .central =>
      .ok .success { e with timing := ⟨e.timing.interval, max, cont, latency, timeout⟩, accept := ⟨min, max, latency, cont, timeout⟩ }
        [.subrateInd .success max latency cont timeout] [.subrateChange .success max latency cont timeout]
    | .peripheral => .ok .success e [.subrateReq min max latency cont timeout] []

/-- `IncomingLlSubrateReq` (le_controller.cc 2193-2281). The product of line 2231 is computed whatever the
earlier checks said; `subrate_factor - 1` is converted to `uint16_t`. -/
def incomingSubrateReq (e : End) (min max latency cont timeout : Nat) : Res :=
  if e.role ≠ .central then .assertion
  else if e.timing.interval * min * (latency + 1) * 2 > intMax then .overflow
  else if (max < e.accept.min ∨ min > e.accept.max) ∨ latency > e.accept.latency ∨ timeout > e.accept.timeout ∨
      e.timing.interval * min * (latency + 1) * 2 < timeout then
    .ok .success e [.subrateInd .invalidLlParameters 0 0 0 0] []
  else
    let factor := Nat.min max e.accept.max
    let cont' := Nat.min (Nat.max cont e.accept.cont) ((factor + 65535) % 65536)
    let latency' := Nat.min latency e.accept.latency
    let timeout' := Nat.min timeout e.accept.timeout
    .ok .success { e with timing := ⟨e.timing.interval, factor, cont', latency', timeout'⟩ }
      [.subrateInd .success factor latency' cont' timeout'] [.subrateChange .success factor latency' cont' timeout']

/-- `IncomingLlSubrateInd` (le_controller.cc 2283-2309). -/
def incomingSubrateInd (e : End) (status : Status) (factor latency cont timeout : Nat) : Res :=
  if e.role ≠ .peripheral then .assertion
  else
    match status with
    | .success =>
      .ok .success { e with timing := ⟨e.timing.interval, factor, cont, latency, timeout⟩ } []
        [.subrateChange status factor latency cont timeout]
    | _ => .ok .success e [] [.subrateChange status factor latency cont timeout]

/-- `LeConnectionUpdate` (le_controller.cc 6398-6428). The parameters are not checked, and the timing the
central keeps is not changed. -/
def connectionUpdate (e : End) (imin imax latency timeout : Nat) : Res :=
  match e.role with
  | .central =>
    .ok .success e [.paramUpdate .success imax latency timeout] [.updateComplete .success imax latency timeout]
  | .peripheral => .ok .success e [.paramReq imin imax latency timeout] []

/-- `LeRemoteConnectionParameterRequestReply` (le_controller.cc 6430-6475). -/
def paramReply (e : End) (imin imax latency timeout ceMin ceMax : Nat) : Res :=
  if imin < 6 ∨ imax > 0xc80 ∨ imin > imax ∨ imax < imin ∨ latency > 0x1f3 ∨ timeout < 0xa ∨ timeout > 0xc80 ∨
      timeout ≤ (1 + latency) * imax * 10 / 4 / 10 then .ok .invalidParameters e [] []
  else if ceMin > ceMax then .ok .invalidParameters e [] []
  else
    .ok .success { e with timing := ⟨imin, 1, 0, latency, timeout⟩ }
      [.paramUpdate .success imin latency timeout] [.updateComplete .success imin latency timeout]

/-- `LeRemoteConnectionParameterRequestNegativeReply` (le_controller.cc 6477-6489). -/
def paramRefuse (e : End) (reason : Status) : Res := .ok .success e [.paramUpdate reason 0 0 0] []

/-- `IncomingLeConnectionParameterRequest` (le_controller.cc 5862-5879). -/
def incomingParamReq (e : End) (imin imax latency timeout : Nat) : Res :=
  if e.asksHost then .ok .success e [] [.paramRequest imin imax latency timeout]
  else .ok .success e [.paramUpdate .unsupportedRemote 0 0 0] []

/-- `IncomingLeConnectionParameterUpdate` (le_controller.cc 5881-5905). -/
def incomingParamUpdate (e : End) (status : Status) (interval latency timeout : Nat) : Res :=
  match status with
  | .success =>
    .ok .success { e with timing := ⟨interval, 1, 0, latency, timeout⟩ } [] [.updateComplete status interval latency timeout]
  | _ => .ok .success e [] [.updateComplete status interval latency timeout]

/-- A command of the host. -/
def command (e : End) : Cmd → Res
  | .subrateRequest a b c d t => subrateRequest e a b c d t
  | .connectionUpdate a b c t => connectionUpdate e a b c t
  | .paramReply a b c t x y => paramReply e a b c t x y
  | .paramRefuse r => paramRefuse e r

/-- A PDU of the peer (`IncomingPacket`, le_controller.cc 4133-4190). -/
def incoming (e : End) : Pdu → Res
  | .subrateReq a b c d t => incomingSubrateReq e a b c d t
  | .subrateInd s f l c t => incomingSubrateInd e s f l c t
  | .paramReq a b c t => incomingParamReq e a b c t
  | .paramUpdate s i l t => incomingParamUpdate e s i l t

/-- All the 16-bit fields of a command fit. -/
def Cmd.wf : Cmd → Prop
  | .subrateRequest a b c d t => a < 65536 ∧ b < 65536 ∧ c < 65536 ∧ d < 65536 ∧ t < 65536
  | .connectionUpdate a b c t => a < 65536 ∧ b < 65536 ∧ c < 65536 ∧ t < 65536
  | .paramReply a b c t x y => a < 65536 ∧ b < 65536 ∧ c < 65536 ∧ t < 65536 ∧ x < 65536 ∧ y < 65536
  | .paramRefuse _ => True

/-- All the 16-bit fields of a PDU fit. -/
def Pdu.wf : Pdu → Prop
  | .subrateReq a b c d t => a < 65536 ∧ b < 65536 ∧ c < 65536 ∧ d < 65536 ∧ t < 65536
  | .subrateInd _ f l c t => f < 65536 ∧ l < 65536 ∧ c < 65536 ∧ t < 65536
  | .paramReq a b c t => a < 65536 ∧ b < 65536 ∧ c < 65536 ∧ t < 65536
  | .paramUpdate _ i l t => i < 65536 ∧ l < 65536 ∧ t < 65536

/-! ## Two controllers -/

/-- A link: the two ends and the PDUs on their way, oldest first. -/
structure Link where
  central : End
  peripheral : End
  toPeripheral : List Pdu
  toCentral : List Pdu
  deriving DecidableEq, Repr

/-- A link that has just been made: both ends take the timing from the connection request
(le_controller.cc 4765-4773, 5678-5690, 5850-5856), and what they accept from their defaults. -/
def Link.start (interval latency timeout : Nat) (accC accP : Accept) (askC askP : Bool) : Link :=
  ⟨⟨.central, .initial interval latency timeout, accC, askC⟩, ⟨.peripheral, .initial interval latency timeout, accP, askP⟩, [], []⟩

/-- What can happen on a link: a command on either side, the arrival of the oldest PDU on either side. -/
inductive Act
  | hostC (c : Cmd)
  | hostP (c : Cmd)
  | arriveP
  | arriveC
  deriving DecidableEq, Repr

/-- The outcome of an action: the next state, with the status (for a command) and the events of either
side, or a failure of one of the controllers. -/
inductive Out
  | ok (l : Link) (status : Status) (evC evP : List Ev)
  | failed
  deriving DecidableEq, Repr

def step (l : Link) : Act → Out
  | .hostC c =>
    match command l.central c with
    | .ok s e p ev => .ok { l with central := e, toPeripheral := l.toPeripheral ++ p } s ev []
    | _ => .failed
  | .hostP c =>
    match command l.peripheral c with
    | .ok s e p ev => .ok { l with peripheral := e, toCentral := l.toCentral ++ p } s [] ev
    | _ => .failed
  | .arriveP =>
    match l.toPeripheral with
    | [] => .ok l .success [] []
    | x :: q =>
      match incoming l.peripheral x with
      | .ok s e p ev => .ok { l with peripheral := e, toPeripheral := q, toCentral := l.toCentral ++ p } s [] ev
      | _ => .failed
  | .arriveC =>
    match l.toCentral with
    | [] => .ok l .success [] []
    | x :: q =>
      match incoming l.central x with
      | .ok s e p ev => .ok { l with central := e, toCentral := q, toPeripheral := l.toPeripheral ++ p } s ev []
      | _ => .failed

/-- A history of the link; `none` is a failure. -/
def run (l : Link) : List Act → Option Link
  | [] => some l
  | a :: as =>
    match step l a with
    | .ok l' _ _ _ => run l' as
    | .failed => none

end Verif.Sub
