import Verif.Ll.Rpa
import Verif.Conn.Model
/-!
# LE link layer: reception of packets

Model of what `LeController` does with the packets it receives: scanning,
initiating, accepting connections, periodic synchronization and the dispatch of
the packets of a connection (`model/controller/le_controller.cc` 4072-5340,
5525-5860, 5980-6327).

Simplifications, on top of those of `Verif.Le.Basic`:

* all the LE events concerned are unmasked (masks are the subject of `Verif.Mask`);
  either of the two connection complete events is one output;
* RSSI and transmit power are dropped: they are copied into reports and never read;
* `ScheduleTask` with no delay is a direct call (see `Verif.Task`); timers of
  the connection supervision are not modelled;
* a packet is the content of a well-formed link layer packet
  (`packets/link_layer_packets.pdl` 164-230);
* the handlers of connected packets other than ACL data and disconnection are not
  part of this model: reaching one of them is an output;
* `synchronized_[h].timeout` is not refreshed when a report is sent: only
  `LeSynchronization` reads it, and nothing calls it;
* the APCF scanner (le_controller.h 886) is not part of this model.
-/

namespace Verif.Ll
open Verif.Le

/-- `PhyType` (link_layer_packets.pdl 176-182). -/
inductive PhyType where
  | noPackets | le1m | le2m | codedS8 | codedS2
  deriving DecidableEq, Repr

/-- `LegacyAdvertisingType` (link_layer_packets.pdl 157-162). -/
inductive PduType where
  | advInd | advDirectInd | advScanInd | advNonconnInd
  deriving DecidableEq, Repr

/-- `LeLegacyAdvertisingPdu` (link_layer_packets.pdl 164-169). -/
structure LegacyPdu where
  adv : AddressWithType
  target : AddressWithType
  type : PduType
  data : List UInt8
  deriving DecidableEq, Repr

/-- `LeExtendedAdvertisingPdu` (link_layer_packets.pdl 184-197). -/
structure ExtPdu where
  adv : AddressWithType
  target : AddressWithType
  connectable : Bool
  scannable : Bool
  directed : Bool
  sid : Nat
  primary : PhyType
  secondary : PhyType
  interval : Nat
  data : List UInt8
  deriving DecidableEq, Repr

/-- `LePeriodicAdvertisingPdu` (link_layer_packets.pdl 199-205). -/
structure PeriodicPdu where
  adv : AddressWithType
  sid : Nat
  interval : Nat
  data : List UInt8
  deriving DecidableEq, Repr

/-- The three parameters of `LeConnect` and `LeConnectComplete`
(link_layer_packets.pdl 210-212, 218-220). -/
structure LinkParams where
  interval : Nat
  latency : Nat
  timeout : Nat
  deriving DecidableEq, Repr

/-- Content of a packet that belongs to a connection. `other` stands for the packet
types of le_controller.cc 4137-4232 but ACL and DISCONNECT. -/
inductive Body where
  | acl (pb bc : Nat) (data : List UInt8)
  | disconnect (reason : Nat)
  | other (type : Nat) (payload : List UInt8)
  deriving DecidableEq, Repr

/-- `LinkLayerPacket`: addresses with their types where the packet has them. -/
inductive Packet where
  | legacyAdv (p : LegacyPdu)
  | extAdv (p : ExtPdu)
  | periodic (p : PeriodicPdu)
  | connect (init adv : AddressWithType) (params : LinkParams)
  | connectComplete (init adv : AddressWithType) (params : LinkParams)
  | scan (scanner adv : AddressWithType)
  | scanResponse (adv : AddressWithType) (scanner : Address) (data : List UInt8)
  | link (source destination : Address) (body : Body)
  deriving DecidableEq, Repr

/-- `Scanner::ScanRequest` (le_controller.h 851-858). -/
structure ScanRequest where
  connectable : Bool
  extended : Bool
  primary : PhyType
  secondary : PhyType
  timeout : Nat
  deriving DecidableEq, Repr

/-- `bluetooth::hci::Role`. -/
abbrev Role := Conn.Role

/-- `LeAclConnection` (le_acl_connection.h 63-): addresses, role and the connection
parameters it is created with. -/
structure LeConn where
  address : AddressWithType
  own : AddressWithType
  resolved : AddressWithType
  role : Role
  params : LinkParams
  deriving DecidableEq, Repr

/-- An `LeExtendedAdvertisingResponse` (hci_packets.pdl). `complete` is the data
status: COMPLETE or CONTINUING. `direct` is `none` for NO_ADDRESS_PROVIDED. -/
structure ExtReport where
  connectable : Bool
  scannable : Bool
  directed : Bool
  scanResponse : Bool
  legacy : Bool
  address : AddressWithType
  primary : PhyType
  secondary : PhyType
  sid : Nat
  interval : Nat
  direct : Option AddressWithType
  complete : Bool
  data : List UInt8
  deriving DecidableEq, Repr

/-- Event type of an LE Advertising Report: the PDU type or SCAN_RESPONSE. -/
inductive ReportType where
  | pdu (t : PduType)
  | scanResponse
  deriving DecidableEq, Repr

/-- What the controller sends to its host and to the air. -/
inductive Out where
  | directedReport (address : AddressWithType) (direct : Address)
  | legacyReport (type : ReportType) (address : AddressWithType) (data : List UInt8)
  | extReport (r : ExtReport)
  | scanTimeout
  | syncEstablished (handle sid : Nat) (address : AddressWithType) (interval : Nat)
  | periodicReport (handle : Nat) (complete : Bool) (data : List UInt8)
  | connected (handle : Nat) (c : LeConn)
  | channelSelection (handle : Nat)
  | setTerminated (adv : UInt8) (handle : Option Nat) (numEvents : Nat)
  | directedTimeout
  | acl (handle : Nat) (pb bc : Nat) (data : List UInt8)
  | completedPackets (handle : Nat)
  | disconnected (handle : Nat) (reason : Nat)
  | dispatched (handle : Nat) (type : Nat) (payload : List UInt8)
  | send (p : Packet)
  deriving DecidableEq, Repr

/-- The state of `LeController` concerned: the command layer, the parts of `Scanner`
that `Verif.Le` leaves out (le_controller.h 860-886), the LE connections
(acl_connection_handler.h) and the links of the Rust link layer
(rust/src/llcp/manager.rs 27-31). -/
structure State where
  le : Le.State := {}
  history : List Packet := []
  pending : List (AddressWithType × ScanRequest) := []
  conns : Conn.Table LeConn := []
  lastHandle : Nat := Conn.leStart
  links : List Nat := []
  deriving Repr

/-- Outcome of a handler: `abort` is a failed `ASSERT` or `FATAL`, `hang` an endless
loop, `ub` undefined behaviour. -/
inductive Res (α : Type) where
  | ok (a : α)
  | abort
  | hang
  | ub
  deriving Repr

/-- Sequencing. -/
def Res.bind {α β : Type} (r : Res α) (f : α → Res β) : Res β :=
  match r with
  | .ok a => f a
  | .abort => .abort
  | .hang => .hang
  | .ub => .ub

/-! ### Scanning -/

/-- `kScanRequestTimeout` (le_controller.cc 63), microseconds. -/
def scanRequestTimeout : Nat := 200000

/-- Properties of the legacy PDU types (le_controller.cc 4362-4371). -/
def PduType.scannable (t : PduType) : Bool := t == .advInd || t == .advScanInd
def PduType.directed (t : PduType) : Bool := t == .advDirectInd
def PduType.connectable (t : PduType) : Bool := t == .advInd || t == .advDirectInd

/-- The two filters of the scanner: the advertiser and the target of a directed PDU
(le_controller.cc 4390-4404 with 4415-4452, 4850-4864 with 4866-4900). `r` is the
resolved address of the advertiser. -/
def scanAccepts (ah : Hash) (cfg : Config) (s : Le.State) (directed : Bool)
    (r target : AddressWithType) : Bool :=
  match s.scanner.filterPolicy with
  | .acceptAll => !directed || validateTarget ah cfg s target r
  | .filterAcceptListOnly => falContains s r && (!directed || validateTarget ah cfg s target r)
  | .checkInitiatorsIdentity => !directed || isLocal cfg s target || isRpa target
  | .filterAcceptListAndInitiatorsIdentity =>
    falContains s r && (!directed || isLocal cfg s target || isRpa target)

/-- `should_send_directed_advertising_report` (le_controller.cc 4413-4452). -/
def wantsDirectedReport (ah : Hash) (s : Le.State) (directed : Bool) (r target : AddressWithType) :
    Bool :=
  match s.scanner.filterPolicy with
  | .acceptAll | .filterAcceptListOnly => false
  | .checkInitiatorsIdentity | .filterAcceptListAndInitiatorsIdentity =>
    directed && isRpa target && !resolveTarget ah s target r

/-- Whether a report is due for the packet (le_controller.cc 4454-4461, 4902-4909,
6185-6192). -/
def notDuplicate (s : State) (p : Packet) : Bool :=
  s.le.scanner.filterDuplicates == .disabled || !s.history.contains p

/-- `AddPacketToHistory` when filtering (le_controller.cc 4459, 4907, 6190). -/
def remember (s : State) (p : Packet) : State :=
  if s.le.scanner.filterDuplicates == .disabled || s.history.contains p then s
  else { s with history := p :: s.history }

/-- The do-while loop that splits data (le_controller.cc 4943-4955, 5318-5333,
6228-6242): fragments with their data status. `fuel` bounds the number of
iterations; the caller passes the size of the data, which is enough. -/
def fragmentLoop (max : Nat) (data : List UInt8) : Nat → Nat → List (Bool × List UInt8)
  | 0, offset =>
    [(decide (data.length - offset ≤ max), (data.drop offset).take (min max (data.length - offset)))]
  | fuel + 1, offset =>
    (decide (data.length - offset ≤ max), (data.drop offset).take (min max (data.length - offset))) ::
      (if offset + min max (data.length - offset) < data.length then
        fragmentLoop max data fuel (offset + min max (data.length - offset))
      else [])

/-- All fragments of some data. -/
def fragments (max : Nat) (data : List UInt8) : List (Bool × List UInt8) :=
  fragmentLoop max data data.length 0

/-- `max_fragment_size` of extended reports (le_controller.cc 4943, 6228). -/
def maxExtFragment : Nat := 229

/-- `max_fragment_size` of periodic reports (le_controller.cc 5318). -/
def maxPeriodicFragment : Nat := 247

/-- `active_scanning` (le_controller.cc 4541-4544, 4959-4962). -/
def activeScanning (s : Le.State) : Bool :=
  (s.scanner.le1m.enabled && s.scanner.le1m.scanType == .active) ||
  (s.scanner.leCoded.enabled && s.scanner.leCoded.scanType == .active)

/-- Choice of the device's own address (le_controller.cc 4585-4604, 4734-4753,
5004-5023, 5150-5169); `none` is a failed `ASSERT`. -/
def ownAddress (cfg : Config) (s : Le.State) (own : OwnAddressType) (rpa : Option AddressWithType) :
    Option AddressWithType :=
  match own with
  | .pub => some ⟨cfg.publicAddress, .publicDevice⟩
  | .random => if s.randomAddress = 0 then none else some ⟨s.randomAddress, .randomDevice⟩
  | .resolvableOrPublic => some (rpa.getD ⟨cfg.publicAddress, .publicDevice⟩)
  | .resolvableOrRandom =>
    if s.randomAddress = 0 then none else some (rpa.getD ⟨s.randomAddress, .randomDevice⟩)

/-- The state after `GenerateResolvablePrivateAddress(r, Local)` for the resolved
address `r`. -/
def generated (rnd : Irk → Address) (s : Le.State) (r : AddressWithType) : Le.State :=
  { s with resolvingList := (generateRpa rnd r .loc s.resolvingList).1 }

/-- The scan request (le_controller.cc 4549-4628, 4967-5047). `fresh` is
`should_send_advertising_report`. -/
def scanRequest (cfg : Config) (rnd : Irk → Address) (s : State) (adv r : AddressWithType)
    (scannable fresh : Bool) (req : ScanRequest) : Res (State × List Out) :=
  if scannable = false then .ok (s, [])
  else if activeScanning s.le = false then .ok (s, [])
  else if (mapFind s.pending adv).isSome then .ok (s, [])
  else if fresh = false then .ok (s, [])
  else
    match ownAddress cfg s.le s.le.scanner.ownAddressType (generateRpa rnd r .loc s.le.resolvingList).2 with
    | none => .abort
    | some own =>
      .ok ({ s with le := generated rnd s.le r, pending := mapSet s.pending adv req },
        [.send (.scan own adv)])

/-- The reports for a legacy PDU (le_controller.cc 4463-4538). -/
def legacyReports (ah : Hash) (s : Le.State) (p : LegacyPdu) (r : AddressWithType) : List Out :=
  (if s.legacyInUse && wantsDirectedReport ah s p.type.directed r p.target then
    [.directedReport r p.target.address] else []) ++
  (if s.legacyInUse && !wantsDirectedReport ah s p.type.directed r p.target then
    [.legacyReport (.pdu p.type) r p.data] else []) ++
  (if s.extendedInUse then
    [.extReport { connectable := p.type.connectable, scannable := p.type.scannable, directed := p.type.directed, scanResponse := false, legacy := true, address := r, primary := .le1m, secondary := .noPackets, sid := 0xff, interval := 0, direct := if p.type.directed then some p.target else none, complete := true, data := p.data }]
   else [])

/-- `ScanIncomingLeLegacyAdvertisingPdu` (le_controller.cc 4347-4629). -/
def scanLegacy (ah : Hash) (cfg : Config) (rnd : Irk → Address) (now : Nat) (s : State)
    (p : LegacyPdu) : Res (State × List Out) :=
  if s.le.scanner.enable = false then .ok (s, [])
  else
    let r := resolved ah s.le p.adv
    let s := { s with le := resolveUpdate ah s.le p.adv }
    if scanAccepts ah cfg s.le p.type.directed r p.target = false then .ok (s, [])
    else
      let fresh := notDuplicate s (.legacyAdv p)
      (scanRequest cfg rnd (remember s (.legacyAdv p)) p.adv r p.type.scannable fresh
        ⟨p.type.connectable, false, .le1m, .noPackets, now + scanRequestTimeout⟩).bind fun q =>
        .ok (q.1, (if fresh then legacyReports ah s.le p r else []) ++ q.2)

/-- The PHY filters of extended PDUs (le_controller.cc 4809-4832). -/
def phyAccepts (cfg : Config) (s : Le.State) (p : ExtPdu) : Bool :=
  !((p.primary == .le1m && !s.scanner.le1m.enabled) ||
    (p.primary == .codedS8 && !s.scanner.leCoded.enabled)) &&
  !((p.secondary == .le2m && !cfg.supports2mPhy) ||
    (p.secondary == .codedS8 && !cfg.supportsCodedPhy) ||
    (p.secondary == .codedS2 && !cfg.supportsCodedPhy))

/-- The reports for an extended PDU (le_controller.cc 4911-4956). -/
def extReports (p : ExtPdu) (r : AddressWithType) : List Out :=
  (fragments maxExtFragment p.data).map fun f =>
    .extReport { connectable := p.connectable, scannable := p.scannable, directed := p.directed, scanResponse := false, legacy := false, address := r, primary := p.primary, secondary := p.secondary, sid := p.sid, interval := p.interval, direct := if p.directed then some p.target else none, complete := f.1, data := f.2 }

/-- `ScanIncomingLeExtendedAdvertisingPdu` (le_controller.cc 4785-5048). -/
def scanExtended (ah : Hash) (cfg : Config) (rnd : Irk → Address) (now : Nat) (s : State)
    (p : ExtPdu) : Res (State × List Out) :=
  if s.le.scanner.enable = false then .ok (s, [])
  else if s.le.extendedInUse = false then .ok (s, [])
  else if phyAccepts cfg s.le p = false then .ok (s, [])
  else
    let r := resolved ah s.le p.adv
    let s := { s with le := resolveUpdate ah s.le p.adv }
    if scanAccepts ah cfg s.le p.directed r p.target = false then .ok (s, [])
    else
      let fresh := notDuplicate s (.extAdv p)
      (scanRequest cfg rnd (remember s (.extAdv p)) p.adv r p.scannable fresh
        ⟨p.connectable, true, p.primary, p.secondary, now + scanRequestTimeout⟩).bind fun q =>
        .ok (q.1, (if fresh then extReports p r else []) ++ q.2)

/-- The reports for a scan response (le_controller.cc 6194-6243). -/
def responseReports (s : Le.State) (req : ScanRequest) (r : AddressWithType) (data : List UInt8) :
    List Out :=
  (if s.legacyInUse then [.legacyReport .scanResponse r data] else []) ++
  (if s.extendedInUse then
    (fragments maxExtFragment data).map fun f =>
      .extReport { connectable := req.connectable, scannable := true, directed := false, scanResponse := true, legacy := !req.extended, address := r, primary := req.primary, secondary := req.secondary, sid := 0xff, interval := 0, direct := none, complete := f.1, data := f.2 }
   else [])

/-- `IncomingLeScanResponsePacket` (le_controller.cc 6146-6244). The destination
of the response is not looked at. -/
def scanResponse (ah : Hash) (s : State) (adv : AddressWithType) (scanner : Address)
    (data : List UInt8) : State × List Out :=
  if s.le.scanner.enable = false then (s, [])
  else
    match mapFind s.pending adv with
    | none => (s, [])
    | some req =>
      let r := resolved ah s.le adv
      let s := { s with le := resolveUpdate ah s.le adv, pending := mapErase s.pending adv }
      let fresh := notDuplicate s (.scanResponse adv scanner data)
      (remember s (.scanResponse adv scanner data), if fresh then responseReports s.le req r data else [])

/-! ### Initiating -/

/-- The filters of the initiator (le_controller.cc 4670-4723, 5086-5139). -/
def initiatorAccepts (ah : Hash) (cfg : Config) (s : Le.State) (directed : Bool)
    (r target : AddressWithType) : Bool :=
  (match s.initiator.filterPolicy with
   | .usePeerAddress => r == s.initiator.peerAddress
   | .useFilterAcceptListWithPeerAddress => falContains s r
   | .useDecisionPdus | .useFilterAcceptListWithDecisionPdus => false) &&
  (!directed ||
    (validateTarget ah cfg s target r &&
      (isRpa target || !(s.initiator.ownAddressType == .resolvableOrPublic ||
        s.initiator.ownAddressType == .resolvableOrRandom))))

/-- The connection parameters of a connect request (le_controller.cc 4771-4772,
5187-5188). -/
def requestParams (s : Le.State) : LinkParams :=
  ⟨s.initiator.le1m.params.intervalMax, s.initiator.le1m.params.maxLatency,
   s.initiator.le1m.params.supervisionTimeout⟩

/-- `ConnectIncomingLeLegacyAdvertisingPdu` (le_controller.cc 4631-4773) and
`ConnectIncomingLeExtendedAdvertisingPdu` (5050-5189) after the tests that differ. -/
def initiate (ah : Hash) (cfg : Config) (rnd : Irk → Address) (s : State)
    (adv target : AddressWithType) (connectable directed : Bool) : Res (State × List Out) :=
  if connectable = false then .ok (s, [])
  else if s.le.initiator.pendingConnectRequest.isSome then .ok (s, [])
  else
    let r := resolved ah s.le adv
    let s := { s with le := resolveUpdate ah s.le adv }
    if initiatorAccepts ah cfg s.le directed r target = false then .ok (s, [])
    else
      match ownAddress cfg s.le s.le.initiator.ownAddressType (generateRpa rnd r .loc s.le.resolvingList).2 with
      | none => .abort
      | some own =>
        let le := generated rnd s.le r
        .ok ({ s with le := { le with initiator := { le.initiator with pendingConnectRequest := some adv, initiatingAddress := own.address } } },
          [.send (.connect own adv (requestParams s.le))])

/-- `ConnectIncomingLeLegacyAdvertisingPdu` (le_controller.cc 4631-4773). -/
def connectLegacy (ah : Hash) (cfg : Config) (rnd : Irk → Address) (s : State) (p : LegacyPdu) :
    Res (State × List Out) :=
  if s.le.initiator.enable = false then .ok (s, [])
  else initiate ah cfg rnd s p.adv p.target p.type.connectable p.type.directed

/-- `ConnectIncomingLeExtendedAdvertisingPdu` (le_controller.cc 5050-5189). -/
def connectExtended (ah : Hash) (cfg : Config) (rnd : Irk → Address) (s : State) (p : ExtPdu) :
    Res (State × List Out) :=
  if s.le.initiator.enable = false then .ok (s, [])
  else if s.le.extendedInUse = false then .ok (s, [])
  else initiate ah cfg rnd s p.adv p.target p.connectable p.directed

/-! ### Connections -/

/-- `HandleLeConnection` (le_controller.cc 5525-5595), with the handle search of
acl_connection_handler.cc 91-102 and `add_link` (rust/src/llcp/manager.rs 51-66). -/
def handleConnection (s : State) (c : LeConn) (chsel : Bool) : Res (Nat × State × List Out) :=
  match Conn.getUnusedHandle s.conns Conn.leStart Conn.leEnd s.lastHandle with
  | none => .hang
  | some (h, last) =>
    if s.links.contains h then .abort
    else
      .ok (h,
        { s with conns := (h, c) :: s.conns, lastHandle := last, links := h :: s.links, le := { s.le with initiator := { s.le.initiator with initiatingAddress := if c.own.address = s.le.initiator.initiatingAddress then 0 else s.le.initiator.initiatingAddress } } },
        .connected h c :: (if chsel then [.channelSelection h] else []))

/-- `LegacyAdvertiser::IsScannable`, `IsConnectable`, `IsDirected` (le_advertiser.h
68-82). -/
def legacyScannable (a : LegacyAdv) : Bool :=
  a.type != .advNonconnInd && a.type != .advDirectIndHigh && a.type != .advDirectIndLow
def legacyConnectable (a : LegacyAdv) : Bool := a.type != .advNonconnInd && a.type != .advScanInd
def legacyDirected (a : LegacyAdv) : Bool := a.type == .advDirectIndHigh || a.type == .advDirectIndLow

/-- Who may connect to an advertiser (le_controller.cc 5643-5671, 5743-5771). -/
def connectAccepts (s : Le.State) (directed : Bool) (peer : Address) (peerType : PeerAddressType)
    (policy : AdvertisingFilterPolicy) (r : AddressWithType) : Bool :=
  if directed then r == peerDeviceAddress peer peerType
  else
    match policy with
    | .allDevices | .listedScan => true
    | .listedConnect | .listedScanAndConnect => falContains s r

/-- `resolved != address ? resolved : AddressWithType{}` (le_controller.cc 5680, 5782). -/
def resolvedOrEmpty (r a : AddressWithType) : AddressWithType :=
  if r ≠ a then r else ⟨0, .publicDevice⟩

/-- `ProcessIncomingLegacyConnectRequest` (le_controller.cc 5598-5694); the flag says
whether the request was accepted. -/
def legacyConnect (ah : Hash) (s : State) (init adv : AddressWithType) (q : LinkParams) :
    Res (Bool × State × List Out) :=
  let a := s.le.legacyAdv
  if a.enable = false then .ok (false, s, [])
  else if legacyConnectable a = false then .ok (false, s, [])
  else if a.advertisingAddress ≠ adv then .ok (false, s, [])
  else
    let r := resolved ah s.le init
    let s := { s with le := resolveUpdate ah s.le init }
    if connectAccepts s.le (legacyDirected a) a.peerAddress a.peerAddressType a.filterPolicy r = false then
      .ok (false, s, [])
    else
      (handleConnection s ⟨init, adv, resolvedOrEmpty r init, .peripheral, q⟩ false).bind fun x =>
        .ok (true, { x.2.1 with le := { x.2.1.le with legacyAdv := { x.2.1.le.legacyAdv with enable := false } } },
          x.2.2 ++ [.send (.connectComplete init adv q)])

/-- `ProcessIncomingExtendedConnectRequest` (le_controller.cc 5697-5807). -/
def extConnect (ah : Hash) (s : State) (h : UInt8) (a : ExtAdv) (init adv : AddressWithType)
    (q : LinkParams) : Res (Bool × State × List Out) :=
  if a.enable = false then .ok (false, s, [])
  else if a.properties.connectable = false then .ok (false, s, [])
  else if a.advertisingAddress ≠ adv then .ok (false, s, [])
  else
    let r := resolved ah s.le init
    let s := { s with le := resolveUpdate ah s.le init }
    if connectAccepts s.le a.properties.directed a.peerAddress a.peerAddressType a.filterPolicy r = false then
      .ok (false, s, [])
    else
      (handleConnection { s with le := { s.le with extAdv := mapSet s.le.extAdv h { a with enable := false } } }
        ⟨init, adv, resolvedOrEmpty r init, .peripheral, q⟩ false).bind fun x =>
        .ok (true, x.2.1, x.2.2 ++ [.send (.connectComplete init adv q), .setTerminated h (some x.1) a.numCompletedEvents])

/-- The loop over the advertising sets (le_controller.cc 5817-5821). -/
def extConnectAll (ah : Hash) (init adv : AddressWithType) (q : LinkParams) :
    List (UInt8 × ExtAdv) → State → Res (State × List Out)
  | [], s => .ok (s, [])
  | (h, a) :: l, s =>
    (extConnect ah s h a init adv q).bind fun x =>
      if x.1 then .ok x.2 else extConnectAll ah init adv q l x.2.1

/-- `IncomingLeConnectPacket` (le_controller.cc 5809-5822). -/
def incomingConnect (ah : Hash) (s : State) (init adv : AddressWithType) (q : LinkParams) :
    Res (State × List Out) :=
  (legacyConnect ah s init adv q).bind fun x =>
    if x.1 then .ok x.2 else extConnectAll ah init adv q x.2.1.le.extAdv x.2.1

/-- `IncomingLeConnectCompletePacket` (le_controller.cc 5824-5860). -/
def incomingConnectComplete (ah : Hash) (s : State) (init adv : AddressWithType) (q : LinkParams) :
    Res (State × List Out) :=
  if s.le.initiator.pendingConnectRequest ≠ some adv ∧ s.le.initiator.initiatingAddress ≠ init.address then
    .ok (s, [])
  else
    (handleConnection { s with le := resolveUpdate ah s.le adv }
      ⟨adv, init, if isRpa adv then (resolvePrivate ah s.le adv).getD ⟨0, .publicDevice⟩ else ⟨0, .publicDevice⟩,
       .central, q⟩ s.le.extendedInUse).bind fun x =>
      .ok ({ x.2.1 with le := { x.2.1.le with initiator := { x.2.1.le.initiator with pendingConnectRequest := none, enable := false } } }, x.2.2)

/-! ### Scan requests -/

/-- Who may scan an advertiser (le_controller.cc 6007-6021, 6060-6074). -/
def scanPolicyAccepts (s : Le.State) (policy : AdvertisingFilterPolicy) (r : AddressWithType) : Bool :=
  match policy with
  | .allDevices | .listedConnect => true
  | .listedScan | .listedScanAndConnect => falContains s r

/-- `ProcessIncomingLegacyScanRequest` (le_controller.cc 5982-6038). -/
def legacyScanned (s : Le.State) (scanner r adv : AddressWithType) : List Out :=
  if s.legacyAdv.enable && legacyScannable s.legacyAdv && adv == s.legacyAdv.advertisingAddress &&
      scanPolicyAccepts s s.legacyAdv.filterPolicy r then
    [.send (.scanResponse adv scanner.address s.legacyAdv.scanResponse)]
  else []

/-- `ProcessIncomingExtendedScanRequest` (le_controller.cc 6040-6110). -/
def extScanned (s : Le.State) (a : ExtAdv) (scanner r adv : AddressWithType) : List Out :=
  if a.enable && a.properties.scannable && adv == a.advertisingAddress &&
      scanPolicyAccepts s a.filterPolicy r && !(a.properties.directed && a.targetAddress != r) then
    [.send (.scanResponse adv scanner.address a.scanResponse)]
  else []

/-- `IncomingLeScanPacket` (le_controller.cc 6112-6144). -/
def incomingScan (ah : Hash) (s : State) (scanner adv : AddressWithType) : State × List Out :=
  let r := resolved ah s.le scanner
  let s := { s with le := resolveUpdate ah s.le scanner }
  (s, legacyScanned s.le scanner r adv ++ s.le.extAdv.flatMap (fun e => extScanned s.le e.2 scanner r adv))

/-! ### Periodic advertising -/

/-- `matches_synchronizing` (le_controller.cc 5246-5257). -/
def matchesSynchronizing (s : Le.State) (e : PalEntry) : Bool :=
  match s.synchronizing with
  | none => false
  | some y => if y.options.useList then s.periodicAdvertiserList.contains e else y.advertiser == e

/-- `IncomingLePeriodicAdvertisingPdu` (le_controller.cc 5200-5339). `sync_handle` is
a `uint16_t`: the search for a free handle does not end when all 65536 are used. -/
def periodicPdu (ah : Hash) (now : Nat) (s : State) (p : PeriodicPdu) : Res (State × List Out) :=
  if s.le.scanner.enable = false then .ok (s, [])
  else if s.le.extendedInUse = false then .ok (s, [])
  else
    let r := resolved ah s.le p.adv
    let s := { s with le := resolveUpdate ah s.le p.adv }
    let e : PalEntry := ⟨r.toPeerType, r.address, p.sid⟩
    if matchesSynchronizing s.le e then
      match s.le.synchronizing with
      | none => .ok (s, [])
      | some y =>
        let h := freeSyncHandle s.le.synchronized (s.le.synchronized.length + 1) 0
        if h ≥ 65536 then .hang
        else
          .ok ({ s with le := { s.le with synchronizing := none, synchronized := mapSet s.le.synchronized h ⟨e, y.syncTimeout, now + y.syncTimeout⟩ } },
            [.syncEstablished h p.sid r p.interval])
    else
      .ok (s, (s.le.synchronized.filter (fun x => x.2.advertiser == e)).flatMap (fun x =>
        (fragments maxPeriodicFragment p.data).map (fun f => .periodicReport x.1 f.1 f.2)))

/-! ### Packets of a connection -/

/-- `Disconnect(handle)` of the connection handler and `remove_link`
(rust/src/llcp/manager.rs 68-82), as called at le_controller.cc 4299-4306 and
6374-6380; `none` when the link is unknown, which fails an `ASSERT`. -/
def removeConnection (s : State) (h : Nat) : Option State :=
  if s.links.contains h then
    some { s with conns := Conn.erase s.conns h, links := s.links.filter (· ≠ h) }
  else none

/-- The second part of `IncomingPacket` (le_controller.cc 4119-4237), with
`IncomingLeAclPacket` (4239-4262) and `IncomingLeDisconnectPacket` (4291-4308). -/
def incomingLink (s : State) (source destination : Address) (b : Body) : Res (State × List Out) :=
  match Conn.firstWith (fun c : LeConn => c.address.address = source && c.own.address = destination) s.conns with
  | none => .ok (s, [])
  | some (h, _) =>
    match b with
    | .acl pb bc d => .ok (s, [.acl h (if pb = 0 then 2 else pb) bc d])
    | .disconnect reason =>
      match removeConnection s h with
      | none => .abort
      | some s => .ok (s, [.disconnected h reason])
    | .other t d => .ok (s, [.dispatched h t d])

/-- `IncomingPacket` (le_controller.cc 4092-4237). `rnd` gives the address that
`generate_rpa` returns for each key in this step. -/
def receive (ah : Hash) (cfg : Config) (rnd : Irk → Address) (now : Nat) (s : State) :
    Packet → Res (State × List Out)
  | .legacyAdv p =>
    (scanLegacy ah cfg rnd now s p).bind fun x =>
      (connectLegacy ah cfg rnd x.1 p).bind fun y => .ok (y.1, x.2 ++ y.2)
  | .extAdv p =>
    (scanExtended ah cfg rnd now s p).bind fun x =>
      (connectExtended ah cfg rnd x.1 p).bind fun y => .ok (y.1, x.2 ++ y.2)
  | .periodic p => periodicPdu ah now s p
  | .connect init adv q => incomingConnect ah s init adv q
  | .connectComplete init adv q => incomingConnectComplete ah s init adv q
  | .scan scanner adv => .ok (incomingScan ah s scanner adv)
  | .scanResponse adv scanner d => .ok (scanResponse ah s adv scanner d)
  | .link src dst b => incomingLink s src dst b

/-! ### Host side and timers -/

/-- `HandleAcl` (le_controller.cc 5398-5431). -/
def handleAcl (s : State) (h pb bc : Nat) (data : List UInt8) : Res (State × List Out) :=
  if bc ≠ 0 then .abort
  else
    match Conn.find s.conns h with
    | some c => .ok (s, [.send (.link c.own.address c.address.address (.acl pb bc data)), .completedPackets h])
    | none => .ok (s, [.completedPackets h])

/-- `LeController::Disconnect` (le_controller.cc 6368-6385); the flag is the status:
success or unknown connection. -/
def disconnect (s : State) (h hostReason controllerReason : Nat) : Res (Bool × State × List Out) :=
  match Conn.find s.conns h with
  | none => .ok (false, s, [])
  | some c =>
    match removeConnection s h with
    | none => .abort
    | some s' =>
      .ok (true, s', [.send (.link c.own.address c.address.address (.disconnect hostReason)),
        .disconnected h controllerReason])

/-- `DisconnectAll` (le_controller.cc 6568-6575). -/
def disconnectAll (s : State) (reason : Nat) : List Out :=
  s.conns.map (fun e => .send (.link e.2.own.address e.2.address.address (.disconnect reason)))

/-- `ErrorCode::REMOTE_USER_TERMINATED_CONNECTION`. -/
def remoteUserTerminated : Nat := 0x13

/-- The PHY types of extended advertising PDUs (le_advertiser.cc 1750-1766). -/
def primaryType : PrimaryPhy → PhyType
  | .le1m => .le1m
  | .leCoded => .codedS8
def secondaryType : SecondaryPhy → PhyType
  | .noPackets => .noPackets
  | .le1m => .le1m
  | .le2m => .le2m
  | .leCoded => .codedS8

/-- The PDU type of a legacy advertising type (le_advertiser.cc 1583-1602, 1712-1737). -/
def pduType : AdvertisingType → PduType
  | .advInd => .advInd
  | .advDirectIndHigh | .advDirectIndLow => .advDirectInd
  | .advScanInd => .advScanInd
  | .advNonconnInd => .advNonconnInd

/-- What `LeAdvertising` sends, as packets and events of this model. `m` are the
advertising sets. -/
def advOut (m : List (UInt8 × ExtAdv)) : AdvOut → Out
  | .legacyPdu _ t adv target d => .send (.legacyAdv ⟨adv, target, pduType t, d⟩)
  | .extendedPdu h adv target c sc di sid i d =>
    let a := (mapFind m h).getD {}
    .send (.extAdv ⟨adv, target, c, sc, di, sid, primaryType a.primaryPhy, secondaryType a.secondaryPhy, i, d⟩)
  | .periodicPdu _ adv sid i d => .send (.periodic ⟨adv, sid, i, d⟩)
  | .directedTimeout => .directedTimeout
  | .setTerminated h n => .setTerminated h none n

/-- What `LeScanning` does to the fields of the scanner outside of `Verif.Le`
(le_controller.cc 6264-6266, 6281-6283, 6291-6303). -/
def scanTimers (now : Nat) (s : State) : State :=
  if s.le.scanner.enable = false then s
  else
    let expired (t : Option Nat) : Bool := t.any (fun t => decide (now ≥ t))
    let stop := expired s.le.scanner.timeout && s.le.scanner.periodicalTimeout.isNone
    let periodEnd := s.le.scanner.periodicalTimeout.isSome && (s.le.scanner.timeout.isNone || expired s.le.scanner.timeout) && expired s.le.scanner.periodicalTimeout
    { s with
      history := if stop || (periodEnd && s.le.scanner.filterDuplicates == .resetEachPeriod) then [] else s.history
      pending := if stop then [] else s.pending.filter (fun e => !decide (now ≥ e.2.timeout)) }

/-- `Tick` (le_controller.cc 6323-6327). -/
def tick (now : Nat) (s : State) : Res (State × List Out) :=
  match advertising now s.le with
  | none => .abort
  | some (le, out) =>
    .ok ({ scanTimers now { s with le := le } with le := (scanning now le).1 },
      out.map (advOut s.le.extAdv) ++ (if (scanning now le).2 then [.scanTimeout] else []))

/-- A successful LE Set Scan Enable or LE Set Extended Scan Enable clears the history
and the pending requests (le_controller.cc 1286-1287, 1310-1313, 1448-1449,
1490-1496). -/
def clearsScan : Cmd → Bool
  | .setScanEnable .. => true
  | .setExtendedScanEnable .. => true
  | _ => false

/-- Run a command of `Verif.Le`. -/
def command (cfg : Config) (s : State) (c : Cmd) : Res (State × Status) :=
  match runCmd cfg s.le c with
  | .ub => .ub
  | .ret le e =>
    if clearsScan c && e == .success then .ok ({ s with le := le, history := [], pending := [] }, e)
    else .ok ({ s with le := le }, e)

/-- `Reset` (le_controller.cc 6577-6621). -/
def reset (s : State) : State × List Out := ({}, disconnectAll s remoteUserTerminated)

/-- What can happen to the controller. -/
inductive Op where
  | cmd (c : Cmd)
  | receive (rnd : Irk → Address) (now : Nat) (p : Packet)
  | tick (now : Nat)
  | sendAcl (h pb bc : Nat) (data : List UInt8)
  | disconnect (h hostReason controllerReason : Nat)
  | reset

/-- What the host sees: a status, and events and packets. -/
structure Obs where
  status : Option Status := none
  out : List Out := []
  deriving Repr, DecidableEq

/-- One step of the controller. -/
def step (ah : Hash) (cfg : Config) (s : State) : Op → Res (State × Obs)
  | .cmd c => (command cfg s c).bind fun x => .ok (x.1, ⟨some x.2, []⟩)
  | .receive rnd now p => (receive ah cfg rnd now s p).bind fun x => .ok (x.1, ⟨none, x.2⟩)
  | .tick now => (tick now s).bind fun x => .ok (x.1, ⟨none, x.2⟩)
  | .sendAcl h pb bc d => (handleAcl s h pb bc d).bind fun x => .ok (x.1, ⟨none, x.2⟩)
  | .disconnect h r c => (disconnect s h r c).bind fun x => .ok (x.2.1, ⟨none, x.2.2⟩)
  | .reset => .ok ((reset s).1, ⟨none, (reset s).2⟩)

/-- Run a list of operations: the final state and what was seen at each of them. -/
def run (ah : Hash) (cfg : Config) : List Op → State → Res (State × List Obs)
  | [], s => .ok (s, [])
  | o :: os, s =>
    (step ah cfg s o).bind fun x =>
      (run ah cfg os x.1).bind fun y => .ok (y.1, x.2 :: y.2)

/-- The state after construction. -/
def initial (defaultRandomAddress : Option Address) : State :=
  { le := Le.initial defaultRandomAddress }

/-- States reachable from construction. -/
def Reachable (ah : Hash) (cfg : Config) (s : State) : Prop :=
  ∃ a ops obs, run ah cfg ops (initial a) = .ok (s, obs)

end Verif.Ll
