import Verif.Conn.Model
import Verif.Sco.Model
/-!
# The BR/EDR controller

Models `BrEdrController` (model/controller/bredr_controller.{h,cc}): paging and page scan, ACL and
synchronous connections, role switch, inquiry, remote information, data, Reset and the timers.

Simplifications.
* A device address is a number; 0 stands for `Address::kEmpty`. Time is a number of nanoseconds on the
  steady clock and does not advance during a command, a packet or a tick.
* `SendLinkLayerPacket` and the events sent by `ScheduleTask(kNoDelayMs, …)` go through the task queue
  (see `Verif.Task`), which keeps their order. Here they are output at once. The one task that does more,
  `RejectPeripheralConnection`, is kept in `later` until the next tick.
* `CheckExpiringConnection` reschedules itself; here it is an action that may happen to any handle at any
  time (`Act.check`), which includes all the schedules of the code.
* The link manager (see `Verif.Lmp`) is only its list of peers. The stream of a spoofed synchronous
  connection (a periodic task) is only the fact that it is running.
* The tables are `std::unordered_map`s; here they are iterated over with the newest entry first. This matters only for a device with
  several synchronous connections (see `C117_order_violated`), since there is at most one ACL connection with a device.
* Vol 4 Part E commands that return a constant or copy a value are left out, so are RSSI and the packet types.
-/
namespace Verif.Br
open Verif.Conn (Table find erase firstWith getUnusedHandle ScoState)
open Verif.Sco (ConnParams LinkParams)

/-- `bluetooth::hci::Role`. -/
inductive Role | central | peripheral
  deriving DecidableEq, Repr

/-- The other role, bredr_controller.cc:2159-2161. -/
def Role.other : Role → Role
  | .central => .peripheral
  | .peripheral => .central

/-- `bluetooth::hci::ErrorCode`, packets/hci_packets.pdl:918-. -/
abbrev Status := Nat
namespace Status
def success : Status := 0x00
def unknownConnection : Status := 0x02
def pageTimeout : Status := 0x04
def connectionTimeout : Status := 0x08
def syncLimit : Status := 0x0A
def alreadyExists : Status := 0x0B
def commandDisallowed : Status := 0x0C
def invalidParameters : Status := 0x12
def remoteUserTerminated : Status := 0x13
def scoIntervalRejected : Status := 0x1C
def invalidLmpParameters : Status := 0x1E
def roleChangeNotAllowed : Status := 0x21
def roleSwitchFailed : Status := 0x35
def unknown : Status := 0xFF
end Status

/-- `AclConnection`, acl_connection.h. `policy` are the link policy settings, `last` the time of the last
packet of the peer. `IsRoleSwitchEnabled` is bit 0 of the settings. The mode of a connection never becomes
the sniff mode. -/
structure Acl where
  addr : Nat
  role : Role
  policy : Nat
  last : Nat
  deriving DecidableEq, Repr

/-- `ScoConnection`, sco_connection.h:84-133. `stream`: `stream_handle_.has_value()`. -/
structure Syn where
  addr : Nat
  params : ConnParams
  link : LinkParams
  state : ScoState
  spoofed : Bool
  legacy : Bool
  stream : Bool
  deriving DecidableEq, Repr

/-- `PageState`, bredr_controller.h. -/
structure Page where
  addr : Nat
  allow : Bool
  next : Nat
  timeout : Nat
  deriving DecidableEq, Repr

/-- `PageScanState`, bredr_controller.h (`authentication_required` is not used). -/
structure Scan where
  addr : Nat
  allow : Bool
  deriving DecidableEq, Repr

/-- `InquiryState`, bredr_controller.h. -/
structure Inq where
  lap : Nat
  responses : Nat
  next : Nat
  timeout : Nat
  deriving DecidableEq, Repr

/-- What a device tells others about itself. `features` are pages 0 and 2 of `lmp_features`
(controller_properties.h:143), page 1 is `hostFeatures`. -/
structure Info where
  cod : Nat
  name : List UInt8
  eir : List UInt8
  hostFeatures : Nat
  features0 : Nat
  features2 : Nat
  version : Nat
  subversion : Nat
  company : Nat
  deriving DecidableEq, Repr

/-- The members of `BrEdrController`, bredr_controller.h:330-493. `mask` is `event_mask_`. -/
structure Ctl where
  addr : Nat
  info : Info
  acl : Table Acl
  sco : Table Syn
  lastAcl : Nat
  lastSco : Nat
  lm : List Nat
  page : Option Page
  scan : Option Scan
  inq : Option Inq
  later : List (Nat × Nat)
  pageScan : Bool
  inqScan : Bool
  pageTimeout : Nat
  policy : Nat
  iac : List Nat
  numIac : Nat
  inqMode : Nat
  mask : Nat
  deriving DecidableEq, Repr

/-- A link layer packet, packets/link_layer_packets.pdl:87-381. `lmp ok`: `ok` says whether the payload
parses. `inqRsp` holds the fields of the three kinds of inquiry response. -/
inductive Pkt
  | page (cod : Nat) (allow : Bool)
  | pageRsp (trySwitch : Bool)
  | pageReject (reason : Status)
  | disconnect (reason : Status)
  | roleReq
  | roleRsp (status : Status)
  | scoReq (p : ConnParams) (cod : Nat)
  | scoRsp (status : Status) (l : LinkParams)
  | scoDisc (reason : Status)
  | lmp (ok : Bool)
  | ping
  | pong
  | inquiry (type lap : Nat)
  | inqRsp (type cod : Nat) (rssi : Nat) (eir : List UInt8)
  | acl (pb bc : Nat) (data : List UInt8)
  | sco (data : List UInt8)
  | nameReq
  | nameRsp (name : List UInt8)
  | hostFeaturesReq
  | hostFeaturesRsp (f : Nat)
  | featuresReq
  | featuresRsp (f : Nat)
  | extReq (page : Nat)
  | extRsp (status : Status) (page max f : Nat)
  | versionReq
  | versionRsp (version subversion company : Nat)
  deriving DecidableEq, Repr

/-- The link types of the connection events. -/
inductive LinkType | acl | sco | esco
  deriving DecidableEq, Repr

/-- What the host gets: events, and ACL and SCO data. -/
inductive Ev
  | connComplete (status handle addr : Nat) (link : LinkType)
  | connRequest (addr cod : Nat) (link : LinkType)
  | roleChange (status addr : Nat) (role : Role)
  | disconnComplete (handle reason : Nat)
  | syncComplete (status handle addr : Nat) (link : LinkType) (interval window rx tx air : Nat)
  | inqComplete
  | inqResult (type addr cod : Nat) (rssi : Nat) (eir : List UInt8)
  | name (addr : Nat) (name : List UInt8)
  | hostFeatures (addr f : Nat)
  | features (handle f : Nat)
  | ext (status handle page max f : Nat)
  | version (handle version company subversion : Nat)
  | completed (handle n : Nat)
  | acl (handle pb bc : Nat) (data : List UInt8)
  | sco (handle : Nat) (data : List UInt8)
  deriving DecidableEq, Repr

/-- What a command, packet or tick does: the status of the command (0 otherwise), the new state, the
packets with their destinations, and the events. `abort`: a failed `ASSERT` or `FATAL`. `hang`: the endless
loop of `GetUnusedHandle`. `wild`: a read outside an array. -/
inductive Res
  | ok (st : Status) (s : Ctl) (out : List (Nat × Pkt)) (ev : List Ev)
  | abort
  | hang
  | wild
  deriving DecidableEq, Repr

/-- `IsEventUnmasked`, bredr_controller.cc:64-75, for the codes up to 64. -/
def unmasked (s : Ctl) (code : Nat) : Bool := s.mask.testBit (code - 1)

/-- `if (IsEventUnmasked(code)) send_event_(e)`. -/
def tell (s : Ctl) (code : Nat) (e : Ev) : List Ev := if unmasked s code then [e] else []

/-- A command that does nothing but return an error. -/
def refuse (s : Ctl) (st : Status) : Res := .ok st s [] []

/-- `GetAclConnectionHandle`, acl_connection_handler.cc:125-133, with the connection. -/
def aclOf (s : Ctl) (a : Nat) : Option (Nat × Acl) := firstWith (fun c => c.addr = a) s.acl

/-- `GetScoConnectionHandle`, acl_connection_handler.cc:146-154, with the connection. -/
def scoOf (t : Table Syn) (a : Nat) : Option (Nat × Syn) := firstWith (fun c => c.addr = a) t

/-- Assignment through the reference to an entry. -/
def update {C : Type} (t : Table C) (h : Nat) (c : C) : Table C := t.map (fun e => if e.1 = h then (h, c) else e)

/-- `HasPendingScoConnection`, acl_connection_handler.cc:179-188. -/
def scoPending (s : Ctl) (a : Nat) : Bool :=
  match scoOf s.sco a with
  | none => false
  | some (_, c) => c.state = .pending || c.state = .sentEsco || c.state = .sentSco

/-- `link_manager_add_link`, rust/src/lmp/manager.rs `add_link`: there is room for seven peers, and a slot
with the empty address counts as unused. -/
def addLink (lm : List Nat) (a : Nat) : Option (List Nat) :=
  if lm.length ≥ 7 then none else if a = 0 then some lm else some (a :: lm)

/-- `link_manager_remove_link`, rust/src/lmp/manager.rs `remove_link`. -/
def removeLink (lm : List Nat) (a : Nat) : Option (List Nat) :=
  if a = 0 then (if lm.length ≥ 7 then none else some lm)
  else if a ∈ lm then some (lm.erase a) else none

/-! ## Connecting -/

/-- Inquiry, bredr_controller.cc:82-101. -/
def startInquiry (s : Ctl) (now lap length responses : Nat) : Res :=
  if responses > 0xff ∨ length < 1 ∨ length > 0x30 then refuse s Status.invalidParameters
  else if s.inq.isSome then refuse s Status.commandDisallowed
  else .ok Status.success { s with inq := some ⟨lap, responses, now + 2000000000, now + length * 1280000000⟩ } [] []

/-- InquiryCancel, bredr_controller.cc:104-112. -/
def cancelInquiry (s : Ctl) : Res :=
  if s.inq.isNone then refuse s Status.commandDisallowed
  else .ok Status.success { s with inq := none } [] []

/-- CreateConnection, bredr_controller.cc:115-148. A slot is 625 µs. -/
def createConnection (s : Ctl) (now a : Nat) (allow : Bool) : Res :=
  if s.page.isSome then refuse s Status.commandDisallowed
  else if (aclOf s a).isSome then refuse s Status.alreadyExists
  else if s.scan.any (fun p => p.addr = a) then refuse s Status.alreadyExists
  else .ok Status.success { s with page := some ⟨a, allow, now + 1000000000, now + s.pageTimeout * 625000⟩ } [] []

/-- CreateConnectionCancel, bredr_controller.cc:197-223. -/
def cancelConnection (s : Ctl) (a : Nat) : Res :=
  match s.page with
  | none => refuse s Status.unknownConnection
  | some p =>
    if p.addr ≠ a then refuse s Status.unknownConnection
    else .ok Status.success { s with page := none } [] (tell s 0x03 (.connComplete Status.unknownConnection 0 a .acl))

/-- The new ACL connection of AcceptConnectionRequest and IncomingPageResponsePacket,
bredr_controller.cc:245-267 and 2032-2044: the handle and the state. -/
inductive Made
  | ok (h : Nat) (s : Ctl)
  | abort
  | hang

def connect (s : Ctl) (now a : Nat) (role : Role) : Made :=
  match getUnusedHandle s.acl Conn.aclStart Conn.aclEnd s.lastAcl with
  | none => .hang
  | some (h, last) =>
    match addLink s.lm a with
    | none => .abort
    | some lm => .ok h { s with acl := (h, ⟨a, role, s.policy, now⟩) :: s.acl, lastAcl := last, lm := lm }

/-- The role of the device that accepts, bredr_controller.cc:248-250. -/
def acceptorRole (trySwitch allow : Bool) : Role := if trySwitch && allow then .central else .peripheral

/-- The part of AcceptConnectionRequest for an ACL connection, bredr_controller.cc:227-300. -/
def acceptPage (s : Ctl) (now : Nat) (p : Scan) (trySwitch : Bool) : Res :=
  if (aclOf s p.addr).isSome then .ok Status.success s [] []
  else
    match connect s now p.addr (acceptorRole trySwitch p.allow) with
    | .abort => .abort
    | .hang => .hang
    | .ok h s' =>
      .ok Status.success { s' with scan := none, page := if s.page.any (fun q => q.addr = p.addr) then none else s.page }
        [(p.addr, .pageRsp trySwitch)]
        ((if acceptorRole trySwitch p.allow = .central then tell s 0x12 (.roleChange Status.success p.addr .central) else []) ++
          tell s 0x03 (.connComplete Status.success h p.addr .acl))

/-- The negotiation state `Verif.Sco` knows. -/
def negState : ScoState → Sco.State
  | .sentEsco => .sentEsco
  | .sentSco => .sentSco
  | _ => .other

/-- A table in which a synchronous connection was changed, or a failed assertion. -/
abbrev Tab := Option (Table Syn)

/-- `StartStream`, sco_connection.cc:292-297, after the state and the link parameters were set. -/
def openSyn (t : Table Syn) (h : Nat) (c : Syn) (l : LinkParams) : Tab :=
  if c.stream then none else some (update t h { c with state := .opened, link := l, stream := c.spoofed })

/-- `CancelPendingScoConnection`, acl_connection_handler.cc:208-215. The destructor of an entry asserts that
its stream is not running (sco_connection.cc:31). -/
def cancelSyn (t : Table Syn) (a : Nat) : Tab :=
  match scoOf t a with
  | none => some t
  | some (h, c) => if c.stream then none else some (erase t h)

/-- The value of `ScoLinkParameters link_parameters = {}`. -/
def noLink : LinkParams := ⟨0, 0, 0, 0, 0, false⟩

/-- The negotiation of AcceptConnectionRequest and AcceptSynchronousConnection, bredr_controller.cc:305-319
and 529-544: the table, the status, the handle and the link parameters. `bad` is the status of a failure. The
caller has checked that there is a pending connection. -/
def acceptSyn (s : Ctl) (a : Nat) (p : Option ConnParams) (bad : Status) : Option (Table Syn × Status × Nat × LinkParams) :=
  match scoOf s.sco a with
  | none => none
  | some (h, c) =>
    match Sco.negotiate (negState c.state) c.params (p.getD c.params) with
    | some l => (openSyn s.sco h c l).map (fun t => (t, Status.success, h, l))
    | none => (cancelSyn (update s.sco h { c with state := .closed }) a).map (fun t => (t, bad, 0, noLink))

/-- AcceptConnectionRequest, bredr_controller.cc:226-341. -/
def acceptConnection (s : Ctl) (now a : Nat) (trySwitch : Bool) : Res :=
  match s.scan.filter (fun p => p.addr = a) with
  | some p => acceptPage s now p trySwitch
  | none =>
    if scoPending s a then
      match acceptSyn s a none Status.scoIntervalRejected with
      | none => .abort
      | some (t, st, h, l) =>
        .ok Status.success { s with sco := t } [(a, .scoRsp st l)] (tell s 0x03 (.connComplete st h a .sco))
    else refuse s Status.unknownConnection

/-- RejectConnectionRequest, bredr_controller.cc:344-354: the page scan state is not cleared. -/
def rejectConnection (s : Ctl) (a reason : Nat) : Res :=
  if s.scan.any (fun p => p.addr = a) then .ok Status.success { s with later := s.later ++ [(a, reason)] } [] []
  else refuse s Status.unknownConnection

/-! ## Disconnecting -/

/-- The end of an ACL connection: AclConnectionHandler::Disconnect (acl_connection_handler.cc:110-116) asserts
that no synchronous connection is left, and the link manager must know the peer. -/
def endAcl (s : Ctl) (h a : Nat) : Option Ctl :=
  if (scoOf s.sco a).isSome then none
  else (removeLink s.lm a).map (fun lm => { s with acl := erase s.acl h, lm := lm })

/-- Disconnect, bredr_controller.cc:154-194. -/
def disconnect (s : Ctl) (h hostReason reason : Nat) : Res :=
  match find s.sco h with
  | some c =>
    .ok Status.success { s with sco := erase s.sco h } [(c.addr, .scoDisc hostReason)] (tell s 0x05 (.disconnComplete h reason))
  | none =>
    match find s.acl h with
    | none => refuse s Status.unknownConnection
    | some c =>
      match scoOf s.sco c.addr with
      | some (k, _) =>
        match endAcl { s with sco := erase s.sco k } h c.addr with
        | none => .abort
        | some s' =>
          .ok Status.success s' [(c.addr, .scoDisc hostReason), (c.addr, .disconnect hostReason)]
            (tell s 0x05 (.disconnComplete k reason) ++ tell s 0x05 (.disconnComplete h reason))
      | none =>
        match endAcl s h c.addr with
        | none => .abort
        | some s' => .ok Status.success s' [(c.addr, .disconnect hostReason)] (tell s 0x05 (.disconnComplete h reason))

/-- CheckExpiringConnection, bredr_controller.cc:2280-2302, with the timeout of three seconds of
acl_connection.cc:32 and 50-64. -/
def checkExpiring (s : Ctl) (now h : Nat) : Res :=
  match find s.acl h with
  | none => .ok 0 s [] []
  | some c =>
    if c.last + 3000000000 < now then disconnect s h Status.connectionTimeout Status.connectionTimeout
    else if c.last + 1500000000 < now then .ok 0 s [(c.addr, .ping)] []
    else .ok 0 s [] []

/-- Reset, bredr_controller.cc:1075-1122, with DisconnectAll (2212-2223). The task queue is not emptied. -/
def reset (s : Ctl) : Res :=
  .ok Status.success
    { s with info := { s.info with cod := 0, name := List.replicate 248 0, eir := List.replicate 240 0, hostFeatures := 0 }, acl := [], sco := [], lastAcl := Conn.aclStart, lastSco := Conn.scoStart, lm := [], page := none, scan := none, inq := none, pageScan := false, inqScan := false, pageTimeout := 0x2000, policy := 0, iac := [0x33], inqMode := 0, mask := 0x00001fffffffffff }
    (s.sco.map (fun e => (e.2.addr, .scoDisc Status.remoteUserTerminated)) ++
      s.acl.map (fun e => (e.2.addr, .disconnect Status.remoteUserTerminated))) []

/-! ## Role switch and link policy -/

/-- SwitchRole, bredr_controller.cc:949-991. -/
def switchRole (s : Ctl) (a : Nat) (role : Role) : Res :=
  match aclOf s a with
  | none => refuse s Status.unknownConnection
  | some (_, c) =>
    if (scoOf s.sco a).isSome then refuse s Status.commandDisallowed
    else if role ≠ c.role then .ok Status.success s [(a, .roleReq)] []
    else .ok Status.success s [] (tell s 0x12 (.roleChange Status.roleSwitchFailed a role))

/-- WriteLinkPolicySettings, bredr_controller.cc:1005-1017. -/
def writePolicy (s : Ctl) (h policy : Nat) : Res :=
  match find s.acl h with
  | none => refuse s Status.unknownConnection
  | some c =>
    if policy > 7 then refuse s Status.invalidParameters
    else .ok Status.success { s with acl := update s.acl h { c with policy := policy } } [] []

/-- WriteDefaultLinkPolicySettings, bredr_controller.cc:1027-1034. -/
def writeDefaultPolicy (s : Ctl) (policy : Nat) : Res :=
  if policy > 7 then refuse s Status.invalidParameters
  else .ok Status.success { s with policy := policy } [] []

/-! ## Synchronous connections -/

/-- `CreateScoConnection`, acl_connection_handler.cc:171-177. -/
def createSyn (s : Ctl) (a : Nat) (p : ConnParams) (st : ScoState) (spoofed legacy : Bool) : Option Ctl :=
  match getUnusedHandle s.sco Conn.scoStart Conn.scoEnd s.lastSco with
  | none => none
  | some (h, last) => some { s with sco := (h, ⟨a, p, noLink, st, spoofed, legacy, false⟩) :: s.sco, lastSco := last }

/-- SetupSynchronousConnection, bredr_controller.cc:482-514, and the end of AddScoConnection
(bredr_controller.cc:445-479), which is the same with other parameters and `legacy`. -/
def setupSync (s : Ctl) (h : Nat) (p : ConnParams) (spoofed legacy : Bool) : Res :=
  match find s.acl h with
  | none => refuse s Status.unknownConnection
  | some c =>
    if scoPending s c.addr then refuse s Status.commandDisallowed
    else
      match createSyn s c.addr p .pending spoofed legacy with
      | none => .hang
      | some s' => .ok Status.success s' [(c.addr, .scoReq p s.info.cod)] []

/-- The parameters of AddScoConnection, bredr_controller.cc:458-468. -/
def legacyParams (packetType : UInt16) : ConnParams :=
  ⟨8000, 8000, 0xffff, 0x60, 0, ((packetType >>> 5) &&& 7) ||| Sco.no2Ev3 ||| Sco.no3Ev3 ||| Sco.no2Ev5 ||| Sco.no3Ev5⟩

/-- The event of AcceptSynchronousConnection and IncomingScoConnectionResponse for an open connection,
bredr_controller.cc:553-563 and 1860-1867. -/
def syncEvent (st h a : Nat) (l : LinkParams) : Ev :=
  if l.extended then .syncComplete st h a .esco l.interval.toNat l.window.toNat l.rxLength.toNat l.txLength.toNat l.airMode.toNat
  else .syncComplete st h a .sco 0 0 0 0 l.airMode.toNat

/-- AcceptSynchronousConnection, bredr_controller.cc:517-566. -/
def acceptSync (s : Ctl) (a : Nat) (p : ConnParams) : Res :=
  if scoPending s a then
    match acceptSyn s a (some p) Status.unknown with
    | none => .abort
    | some (t, st, h, l) => .ok Status.success { s with sco := t } [(a, .scoRsp st l)] [syncEvent st h a l]
  else refuse s Status.commandDisallowed

/-- The reason of RejectSynchronousConnection, bredr_controller.cc:572-574. -/
def rejectReason (reason : Status) : Status := if reason = Status.success then Status.remoteUserTerminated else reason

/-- `ScoAirMode::TRANSPARENT`. -/
def transparent : Nat := 3

/-- RejectSynchronousConnection, bredr_controller.cc:569-593. -/
def rejectSync (s : Ctl) (a reason : Nat) : Res :=
  if scoPending s a then
    match cancelSyn s.sco a with
    | none => .abort
    | some t =>
      .ok Status.success { s with sco := t } [(a, .scoRsp (rejectReason reason) noLink)]
        [.syncComplete (rejectReason reason) 0 a .esco 0 0 0 0 transparent]
  else refuse s Status.commandDisallowed

/-! ## The tick -/

/-- RejectPeripheralConnection, bredr_controller.cc:2111-2120, for all the rejections that wait. -/
def sendRejects (s : Ctl) : List (Nat × Pkt) × List Ev :=
  (s.later.map (fun r => (r.1, .pageReject r.2)), s.later.flatMap (fun r => tell s 0x03 (.connComplete r.2 0xeff r.1 .acl)))

/-- Paging, bredr_controller.cc:2226-2249. -/
def paging (s : Ctl) (now : Nat) : Ctl × List (Nat × Pkt) × List Ev :=
  match s.page with
  | none => (s, [], [])
  | some p =>
    if now ≥ p.timeout then ({ s with page := none }, [], [.connComplete Status.pageTimeout 0 p.addr .acl])
    else if now ≥ p.next ∧ ¬(s.scan.any (fun q => q.addr = p.addr) = true) then
      ({ s with page := some { p with next := now + 1000000000 } }, [(p.addr, .page s.info.cod p.allow)], [])
    else (s, [], [])

/-- Inquiry, bredr_controller.cc:2256-2276. -/
def inquiring (s : Ctl) (now : Nat) : Ctl × List (Nat × Pkt) × List Ev :=
  match s.inq with
  | none => (s, [], [])
  | some i =>
    if now ≥ i.timeout then ({ s with inq := none }, [], tell s 0x01 .inqComplete)
    else if now ≥ i.next then
      ({ s with inq := some { i with next := now + 2000000000 } }, [(0, .inquiry s.inqMode i.lap)], [])
    else (s, [], [])

/-- Tick, bredr_controller.cc:2060-2065, without the link manager. -/
def tick (s : Ctl) (now : Nat) : Res :=
  match sendRejects s with
  | (o1, e1) =>
    match paging { s with later := [] } now with
    | (s2, o2, e2) =>
      match inquiring s2 now with
      | (s3, o3, e3) => .ok 0 s3 (o1 ++ o2 ++ o3) (e1 ++ e2 ++ e3)

/-! ## Data and remote information -/

/-- HandleAcl, bredr_controller.cc:1915-1947. -/
def sendAcl (s : Ctl) (h pb bc : Nat) (data : List UInt8) : Res :=
  if bc ≠ 0 then .abort
  else
    match find s.acl h with
    | none => .ok 0 s [] [.completed h 1]
    | some c => .ok 0 s [(c.addr, .acl pb bc data)] [.completed h 1]

/-- SendScoToRemote, bredr_controller.cc:1341-1357. -/
def sendSco (s : Ctl) (h : Nat) (data : List UInt8) : Res :=
  match find s.sco h with
  | none => refuse s Status.unknownConnection
  | some c => .ok 0 s [(c.addr, .sco data)] []

/-- The commands that ask a connected peer for something, bredr_controller.cc:394-428. -/
def ask (s : Ctl) (h : Nat) (q : Pkt) : Res :=
  match find s.acl h with
  | none => refuse s Status.unknownConnection
  | some c => .ok Status.success s [(c.addr, q)] []

/-- `GetLmpFeatures`, bredr_controller.h:305-307. `none`: the index is outside the array. -/
def lmpFeatures (i : Info) (page : Nat) : Option Nat :=
  if page = 1 then some i.hostFeatures else if page = 0 then some i.features0 else if page = 2 then some i.features2 else none

/-- The commands of the host. `extLocal` is ReadLocalExtendedFeatures (dual_mode_controller.cc:498-510). -/
inductive Cmd
  | inquiry (lap length responses : Nat)
  | inquiryCancel
  | create (a : Nat) (allow : Bool)
  | cancel (a : Nat)
  | accept (a : Nat) (trySwitch : Bool)
  | reject (a reason : Nat)
  | disconnect (h reason : Nat)
  | switchRole (a : Nat) (role : Role)
  | writePolicy (h policy : Nat)
  | writeDefaultPolicy (policy : Nat)
  | setupSync (h : Nat) (p : ConnParams) (spoofed : Bool)
  | addSco (h : Nat) (packetType : UInt16)
  | acceptSync (a : Nat) (p : ConnParams)
  | rejectSync (a reason : Nat)
  | writeScanEnable (inquiry page : Bool)
  | writePageTimeout (slots : Nat)
  | writeIac (laps : List Nat)
  | writeInquiryMode (mode : Nat)
  | setMask (mask : Nat)
  | setInfo (i : Info)
  | name (a : Nat)
  | features (h : Nat)
  | ext (h page : Nat)
  | version (h : Nat)
  | extLocal (page : Nat)
  | acl (h pb bc : Nat) (data : List UInt8)
  | sco (h : Nat) (data : List UInt8)
  | reset
  deriving DecidableEq, Repr

/-- The commands. Disconnect uses the local reason 0x16 (bredr_controller.h, default argument
CONNECTION_TERMINATED_BY_LOCAL_HOST). WriteCurrentIacLap: bredr_controller.cc:2101-2109. The name request is
bredr_controller.cc:384-391. `setInfo` stands for the commands that write the name, the class of device, the
extended inquiry response and the host features. -/
def command (s : Ctl) (now : Nat) : Cmd → Res
  | .inquiry l n r => startInquiry s now l n r
  | .inquiryCancel => cancelInquiry s
  | .create a w => createConnection s now a w
  | .cancel a => cancelConnection s a
  | .accept a t => acceptConnection s now a t
  | .reject a r => rejectConnection s a r
  | .disconnect h r => disconnect s h r 0x16
  | .switchRole a r => switchRole s a r
  | .writePolicy h p => writePolicy s h p
  | .writeDefaultPolicy p => writeDefaultPolicy s p
  | .setupSync h p sp => setupSync s h p sp false
  | .addSco h t => setupSync s h (legacyParams t) false true
  | .acceptSync a p => acceptSync s a p
  | .rejectSync a r => rejectSync s a r
  | .writeScanEnable i p => .ok Status.success { s with inqScan := i, pageScan := p } [] []
  | .writePageTimeout t => .ok Status.success { s with pageTimeout := t } [] []
  | .writeIac l => .ok Status.success { s with iac := l.take s.numIac } [] []
  | .writeInquiryMode m => .ok Status.success { s with inqMode := m } [] []
  | .setMask m => .ok Status.success { s with mask := m } [] []
  | .setInfo i => .ok Status.success { s with info := i } [] []
  | .name a => .ok Status.success s [(a, .hostFeaturesReq), (a, .nameReq)] []
  | .features h => ask s h .featuresReq
  | .ext h p => ask s h (.extReq p)
  | .version h => ask s h .versionReq
  | .extLocal p => match lmpFeatures s.info p with
    | none => .wild
    | some _ => .ok Status.success s [] []
  | .acl h pb bc d => sendAcl s h pb bc d
  | .sco h d => sendSco s h d
  | .reset => reset s

/-! ## Reception -/

/-- IncomingPagePacket, bredr_controller.cc:1949-1994. -/
def onPage (s : Ctl) (src cod : Nat) (allow : Bool) : Res :=
  if s.pageScan = false then .ok 0 s [] []
  else if unmasked s 0x04 = false then .ok 0 s [(src, .pageReject Status.connectionTimeout)] []
  else if (aclOf s src).isSome then .ok 0 s [] []
  else if s.scan.isSome then .ok 0 s [] []
  else .ok 0 { s with scan := some ⟨src, allow⟩ } [] [.connRequest src cod .acl]

/-- IncomingPageRejectPacket, bredr_controller.cc:1996-2016. -/
def onPageReject (s : Ctl) (src reason : Nat) : Res :=
  match s.page with
  | none => .ok 0 s [] []
  | some p =>
    if p.addr ≠ src then .ok 0 s [] []
    else .ok 0 { s with page := none } [] (tell s 0x03 (.connComplete reason 0 src .acl))

/-- The role of the device that pages, bredr_controller.cc:2034-2036. -/
def pagerRole (allow trySwitch : Bool) : Role := if allow && trySwitch then .peripheral else .central

/-- IncomingPageResponsePacket, bredr_controller.cc:2018-2058. -/
def onPageRsp (s : Ctl) (now src : Nat) (trySwitch : Bool) : Res :=
  match s.page with
  | none => .ok 0 s [] []
  | some p =>
    if p.addr ≠ src then .ok 0 s [] []
    else
      match connect s now src (pagerRole p.allow trySwitch) with
      | .abort => .abort
      | .hang => .hang
      | .ok h s' =>
        .ok 0 { s' with page := none } []
          ((if pagerRole p.allow trySwitch = .peripheral then tell s 0x12 (.roleChange Status.success src .peripheral) else []) ++
            tell s 0x03 (.connComplete Status.success h src .acl))

/-- IncomingDisconnectPacket, bredr_controller.cc:1656-1676. -/
def onDisconnect (s : Ctl) (src reason : Nat) : Res :=
  match aclOf s src with
  | none => .ok 0 s [] []
  | some (h, _) =>
    match endAcl s h src with
    | none => .abort
    | some s' => .ok 0 s' [] (tell s 0x05 (.disconnComplete h reason))

/-- IncomingRoleSwitchRequest, bredr_controller.cc:2137-2172. -/
def onRoleReq (s : Ctl) (src : Nat) : Res :=
  match aclOf s src with
  | none => .ok 0 s [] []
  | some (h, c) =>
    if c.policy.testBit 0 = false then .ok 0 s [(src, .roleRsp Status.roleChangeNotAllowed)] []
    else
      .ok 0 { s with acl := update s.acl h { c with role := c.role.other } } [(src, .roleRsp Status.success)]
        (tell s 0x12 (.roleChange Status.success src c.role.other))

/-- IncomingRoleSwitchResponse, bredr_controller.cc:2174-2199. -/
def onRoleRsp (s : Ctl) (src st : Nat) : Res :=
  match aclOf s src with
  | none => .ok 0 s [] []
  | some (h, c) =>
    if st ≠ Status.success then .ok 0 s [] (tell s 0x12 (.roleChange st src c.role))
    else
      .ok 0 { s with acl := update s.acl h { c with role := c.role.other } } []
        (tell s 0x12 (.roleChange st src c.role.other))

/-- IncomingScoConnectionRequest, bredr_controller.cc:1784-1822. It does not matter whether there is an ACL
connection. -/
def onScoReq (s : Ctl) (src : Nat) (p : ConnParams) (cod : Nat) : Res :=
  if scoPending s src then .ok 0 s [(src, .scoRsp Status.syncLimit noLink)] []
  else
    match createSyn s src p (if Sco.isExtended p then .sentEsco else .sentSco) false false with
    | none => .hang
    | some s' => .ok 0 s' [] [.connRequest src cod (if Sco.isExtended p then .esco else .sco)]

/-- The parameters `GetScoConnectionParameters` returns if there is no connection. -/
def noParams : ConnParams := ⟨0, 0, 0, 0, 0, 0⟩

/-- `GetScoConnectionParameters`, acl_connection_handler.cc:248-256. -/
def paramsOf (t : Table Syn) (a : Nat) : ConnParams := match scoOf t a with
  | none => noParams
  | some (_, c) => c.params

/-- IncomingScoConnectionResponse, bredr_controller.cc:1824-1884. The parameters of the failure event are
looked up after the connection was erased. -/
def onScoRsp (s : Ctl) (src st : Nat) (l : LinkParams) : Res :=
  match scoOf s.sco src with
  | none => .ok 0 s [] []
  | some (h, c) =>
    if st = Status.success then
      match openSyn s.sco h c l with
      | none => .abort
      | some t =>
        .ok 0 { s with sco := t } []
          [if c.legacy then .connComplete Status.success h src .sco else syncEvent Status.success h src l]
    else
      match cancelSyn s.sco src with
      | none => .abort
      | some t =>
        .ok 0 { s with sco := t } []
          [if c.legacy then .connComplete st 0 src .sco
           else .syncComplete st 0 src (if Sco.isExtended (paramsOf t src) then .esco else .sco) 0 0 0 0 transparent]

/-- IncomingScoDisconnect, bredr_controller.cc:1886-1902. -/
def onScoDisc (s : Ctl) (src reason : Nat) : Res :=
  match scoOf s.sco src with
  | none => .ok 0 s [] []
  | some (h, _) => .ok 0 { s with sco := erase s.sco h } [] (tell s 0x05 (.disconnComplete h reason))

/-- IncomingInquiryPacket, bredr_controller.cc:1678-1718. -/
def onInquiry (s : Ctl) (src type lap rssi : Nat) : Res :=
  if s.inqScan = false then .ok 0 s [] []
  else if lap ∉ s.iac then .ok 0 s [] []
  else if type = 0 then .ok 0 s [(src, .inqRsp 0 s.info.cod 0 [])] []
  else if type = 1 then .ok 0 s [(src, .inqRsp 1 s.info.cod rssi [])] []
  else if type = 2 then .ok 0 s [(src, .inqRsp 2 s.info.cod rssi s.info.eir)] []
  else .ok 0 s [] []

/-- IncomingInquiryResponsePacket, bredr_controller.cc:1720-1782. -/
def onInqRsp (s : Ctl) (src type cod rssi : Nat) (eir : List UInt8) : Res :=
  if type = 0 then .ok 0 s [] (tell s 0x02 (.inqResult 0 src cod rssi eir))
  else if type = 1 then .ok 0 s [] (tell s 0x22 (.inqResult 1 src cod rssi eir))
  else if type = 2 then .ok 0 s [] [.inqResult 2 src cod rssi eir]
  else .ok 0 s [] []

/-- IncomingAclPacket, bredr_controller.cc:1469-1498. -/
def onAcl (s : Ctl) (src pb bc : Nat) (data : List UInt8) : Res :=
  match aclOf s src with
  | none => .ok 0 s [] []
  | some (h, _) => .ok 0 s [] [.acl h (if pb = 0 then 2 else pb) bc data]

/-- IncomingScoPacket, bredr_controller.cc:1500-1518. -/
def onSco (s : Ctl) (src : Nat) (data : List UInt8) : Res :=
  match scoOf s.sco src with
  | none => .ok 0 s [] []
  | some (h, _) => .ok 0 s [] [.sco h data]

/-- The answer of a peer that is only reported for a connection, bredr_controller.cc:1561-1606 and
1615-1633. -/
def report (s : Ctl) (src code : Nat) (e : Nat → Ev) : Res :=
  match aclOf s src with
  | none => .ok 0 s [] []
  | some (h, _) => .ok 0 s [] (tell s code (e h))

/-- The answer to ReadRemoteExtendedFeatures, bredr_controller.cc:1577-1589: the features are read from the
array whatever the page. -/
def onExtReq (s : Ctl) (src page : Nat) : Res :=
  match lmpFeatures s.info page with
  | none => .wild
  | some f => .ok 0 s [(src, .extRsp (if page ≥ 3 then Status.invalidLmpParameters else Status.success) page 2 f)] []

/-- The switch of IncomingPacket, bredr_controller.cc:1378-1466. The subversion has 16 bits in the device and
8 in the packet (bredr_controller.cc:1608-1613, link_layer_packets.pdl:280-284). -/
def dispatch (s : Ctl) (now src rssi : Nat) : Pkt → Res
  | .page cod allow => onPage s src cod allow
  | .pageRsp t => onPageRsp s now src t
  | .pageReject r => onPageReject s src r
  | .disconnect r => onDisconnect s src r
  | .roleReq => onRoleReq s src
  | .roleRsp st => onRoleRsp s src st
  | .scoReq p cod => onScoReq s src p cod
  | .scoRsp st l => onScoRsp s src st l
  | .scoDisc r => onScoDisc s src r
  | .lmp ok => if ok then .ok 0 s [] [] else .abort
  | .ping => .ok 0 s [(src, .pong)] []
  | .pong => .ok 0 s [] []
  | .inquiry t lap => onInquiry s src t lap rssi
  | .inqRsp t cod r eir => onInqRsp s src t cod r eir
  | .acl pb bc d => onAcl s src pb bc d
  | .sco d => onSco s src d
  | .nameReq => .ok 0 s [(src, .nameRsp s.info.name)] []
  | .nameRsp n => .ok 0 s [] (tell s 0x07 (.name src n))
  | .hostFeaturesReq => .ok 0 s [(src, .hostFeaturesRsp s.info.hostFeatures)] []
  | .hostFeaturesRsp f => .ok 0 s [] (tell s 0x3d (.hostFeatures src f))
  | .featuresReq => .ok 0 s [(src, .featuresRsp s.info.features0)] []
  | .featuresRsp f => report s src 0x0b (fun h => .features h f)
  | .extReq p => onExtReq s src p
  | .extRsp st p m f => report s src 0x23 (fun h => .ext st h p m f)
  | .versionReq => .ok 0 s [(src, .versionRsp s.info.version (s.info.subversion % 256) s.info.company)] []
  | .versionRsp v sub c => report s src 0x0c (fun h => .version h v c sub)

/-- `ResetLinkTimer` of the connection with the sender, bredr_controller.cc:1373-1376. -/
def touch (s : Ctl) (now src : Nat) : Ctl :=
  match aclOf s src with
  | none => s
  | some (h, c) => { s with acl := update s.acl h { c with last := now } }

/-- IncomingPacket, bredr_controller.cc:1359-1467. -/
def incoming (s : Ctl) (now src dst rssi : Nat) (p : Pkt) : Res :=
  if dst ≠ 0 ∧ dst ≠ s.addr then .ok 0 s [] []
  else dispatch (touch s now src) now src rssi p

/-- What can happen to a controller. -/
inductive Act
  | cmd (c : Cmd)
  | tick
  | check (h : Nat)
  | packet (src dst rssi : Nat) (p : Pkt)
  deriving DecidableEq, Repr

/-- One step at time `now`. -/
def step (s : Ctl) (now : Nat) : Act → Res
  | .cmd c => command s now c
  | .tick => tick s now
  | .check h => checkExpiring s now h
  | .packet src dst rssi p => incoming s now src dst rssi p

/-- A step as it looks from outside. -/
structure Seen where
  now : Nat
  act : Act
  status : Status
  out : List (Nat × Pkt)
  ev : List Ev
  deriving DecidableEq, Repr

/-- A history: the state at its end, and what was seen; nothing if the controller failed. -/
def run (s : Ctl) : List (Nat × Act) → Option (Ctl × List Seen)
  | [] => some (s, [])
  | (now, a) :: as =>
    match step s now a with
    | .ok st s' out ev => (run s' as).map (fun r => (r.1, ⟨now, a, st, out, ev⟩ :: r.2))
    | _ => none

/-- A controller after construction, bredr_controller.h:330-493. The list of inquiry access codes is empty until Reset (386). -/
def Ctl.fresh (addr : Nat) (i : Info) (numIac : Nat) : Ctl :=
  ⟨addr, i, [], [], Conn.aclStart, Conn.scoStart, [], none, none, none, [], false, false, 0x2000, 0, [], numIac, 0, 0x00001fffffffffff⟩

/-! ## Two controllers -/

/-- Two controllers and the packets on their way to each, oldest first. Packets for other addresses are
lost; those for the empty address reach the other one. -/
structure Net where
  a : Ctl
  b : Ctl
  toA : List (Nat × Pkt)
  toB : List (Nat × Pkt)
  deriving DecidableEq, Repr

/-- What can happen to two controllers. -/
inductive NAct
  | hostA (c : Cmd)
  | hostB (c : Cmd)
  | tickA
  | tickB
  | checkA (h : Nat)
  | checkB (h : Nat)
  | arriveA
  | arriveB
  deriving DecidableEq, Repr

/-- The action of a controller put into the network. -/
def putA (n : Net) (q : List (Nat × Pkt)) : Res → Option (Net × List Ev × List Ev)
  | .ok _ s out ev => some ({ n with a := s, toA := q, toB := n.toB ++ out }, ev, [])
  | _ => none

def putB (n : Net) (q : List (Nat × Pkt)) : Res → Option (Net × List Ev × List Ev)
  | .ok _ s out ev => some ({ n with b := s, toB := q, toA := n.toA ++ out }, [], ev)
  | _ => none

/-- One step of the network at time `now`: the new state and the events of the two hosts. -/
def nstep (n : Net) (now : Nat) : NAct → Option (Net × List Ev × List Ev)
  | .hostA c => putA n n.toA (command n.a now c)
  | .hostB c => putB n n.toB (command n.b now c)
  | .tickA => putA n n.toA (tick n.a now)
  | .tickB => putB n n.toB (tick n.b now)
  | .checkA h => putA n n.toA (checkExpiring n.a now h)
  | .checkB h => putB n n.toB (checkExpiring n.b now h)
  | .arriveA => match n.toA with
    | [] => some (n, [], [])
    | (d, p) :: q => putA n q (incoming n.a now n.b.addr d 0 p)
  | .arriveB => match n.toB with
    | [] => some (n, [], [])
    | (d, p) :: q => putB n q (incoming n.b now n.a.addr d 0 p)

/-- A history of the network. -/
def nrun (n : Net) : List (Nat × NAct) → Option (Net × List Ev × List Ev)
  | [] => some (n, [], [])
  | (now, x) :: xs =>
    match nstep n now x with
    | none => none
    | some (n', ea, eb) => (nrun n' xs).map (fun r => (r.1, ea ++ r.2.1, eb ++ r.2.2))

end Verif.Br
