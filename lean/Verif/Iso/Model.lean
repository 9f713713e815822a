import Verif.Le.Basic
/-!
# The isochronous channel manager

Models `/repo/rust/src/llcp/iso.rs` (`IsoManager`) and the parts of `/repo/rust/src/llcp/manager.rs` and
`/repo/rust/src/ffi.rs` that lead to it.

* Numbers are natural numbers. The widths of the fields matter in three places, which are modelled: the
  arithmetic on `u32` (`Fault.overflow`, a panic in a debug build and a wrap-around in a release build), the
  explicit casts, and the encoding of packets, which panics if a field is wider than its place in the packet.
* Maps whose entries contain their key (`cis_connections`, `bis_connections`, `big_config`) are lists of the
  entries. The order of the list is the iteration order of the map, which `Op.rehash` changes arbitrarily.
* Logging is omitted, as are the parameters that are stored but never read.
-/

namespace Verif.Iso

open Verif.Le (mapFind mapSet mapErase)

/-- How the model of a function can fail: `panic` stands for a Rust panic or a failed C++ `ASSERT`,
`overflow` for an arithmetic overflow. -/
inductive Fault where
  | panic | overflow
  deriving DecidableEq, Repr

/-- `hci::Role`. -/
inductive Role where
  | central | peripheral
  deriving DecidableEq, Repr

/-- `hci::ErrorCode`, packets/hci_packets.pdl:919-969. -/
abbrev ErrorCode := Nat

def success : ErrorCode := 0x00
def unknownConnection : ErrorCode := 0x02
def connectionAlreadyExists : ErrorCode := 0x0B
def commandDisallowed : ErrorCode := 0x0C
def unsupportedParameter : ErrorCode := 0x11
def invalidParameters : ErrorCode := 0x12
def remoteUserTerminated : ErrorCode := 0x13
def terminatedByLocalHost : ErrorCode := 0x16
def unknownAdvertisingIdentifier : ErrorCode := 0x42

/-- The values of the enumeration `ErrorCode`, packets/hci_packets.pdl:919-969: the octets for which
`hci::ErrorCode::try_from` succeeds. -/
def errorCodes : List Nat :=
  List.range' 0x00 0x24 ++
    [0x25, 0x2F, 0x35, 0x38, 0x3A, 0x3C, 0x3E, 0x42, 0x43, 0x44, 0x45, 0x48, 0xFF]

/-- `CigConfig`, iso.rs:66-77; the default is iso.rs:165-178. -/
structure CigConfig where
  isoInterval : Nat := 0
  sduIntervalC : Nat := 0
  sduIntervalP : Nat := 0
  ftC : Nat := 0
  ftP : Nat := 0
  framed : Bool := false
  configurable : Bool := true
  deriving DecidableEq, Repr

/-- `CisConfig`, iso.rs:97-111. The suffixes `C` and `P` stand for the directions central to peripheral and
peripheral to central. -/
structure CisConfig where
  maxSduC : Nat
  maxSduP : Nat
  phyC : Nat
  phyP : Nat
  nse : Option Nat := none
  bnC : Option Nat := none
  bnP : Option Nat := none
  maxPduC : Option Nat := none
  maxPduP : Option Nat := none
  deriving DecidableEq, Repr

/-- `BigConfig`, iso.rs:79-95, without the parameters that are never read. -/
structure BigConfig where
  bigHandle : Nat
  advertisingHandle : Nat
  numBis : Nat
  deriving DecidableEq, Repr

/-- `Bis`, iso.rs:113-123. The role is always Central. -/
structure Bis where
  handle : Nat
  bigHandle : Nat
  bisId : Nat
  maxSdu : Nat
  dataPath : Bool := false
  deriving DecidableEq, Repr

/-- `CisRequest`, iso.rs:125-132. -/
structure CisRequest where
  cigId : Nat
  cisId : Nat
  acl : Nat
  handle : Nat
  deriving DecidableEq, Repr

/-- `CisState`, iso.rs:134-141. -/
inductive CisState where
  | configuration | pendingRsp | pendingAccept | pendingInd | connected
  deriving DecidableEq, Repr

/-- `CisParameters`, iso.rs:143-163. -/
structure CisParameters where
  cigSyncDelay : Nat
  cisSyncDelay : Nat
  phyC : Nat
  phyP : Nat
  nse : Nat
  bnC : Nat
  bnP : Nat
  ftC : Nat
  ftP : Nat
  maxPduC : Nat
  maxPduP : Nat
  maxSduC : Nat
  maxSduP : Nat
  sduIntervalC : Nat
  sduIntervalP : Nat
  isoInterval : Nat
  subInterval : Nat
  framed : Bool
  deriving DecidableEq, Repr

/-- `Cis`, iso.rs:266-279. The two data paths are either absent or over HCI. -/
structure Cis where
  handle : Nat
  cigId : Nat
  cisId : Nat
  role : Role
  acl : Option Nat := none
  state : CisState := .configuration
  params : Option CisParameters := none
  pathC : Bool := false
  pathP : Bool := false
  deriving DecidableEq, Repr

/-- `IsoManager`, iso.rs:290-316. `acls` is `acl_connections` and also `LinkLayer::links` (manager.rs:27-31),
which always has the same content. `requests` is in the order in which the requests are started: the Rust
vector is reversed and popped from its end. -/
structure State where
  cigs : List (Nat × CigConfig) := []
  bigs : List BigConfig := []
  cisConfigs : List ((Nat × Nat) × CisConfig) := []
  bises : List Bis := []
  acls : List (Nat × Role) := []
  cises : List Cis := []
  requests : List CisRequest := []
  deriving DecidableEq, Repr

/-- What the callbacks of `ControllerOps` (ffi.rs) return: the PHYs and the host support bit in
`get_le_features`, and `get_advertiser_info`, whose result says whether the advertising set exists and whether
its periodic advertising is enabled. -/
structure Env where
  le2m : Bool
  leCoded : Bool
  hostSupport : Bool
  advertiser : Nat → Option Bool

/-- The fields of an `LL_CIS_REQ`, rust/llcp_packets.pdl:228-254, without the constant ones. -/
structure CisReq where
  cigId : Nat
  cisId : Nat
  phyC : Nat
  phyP : Nat
  framed : Nat
  maxSduC : Nat
  maxSduP : Nat
  sduIntervalC : Nat
  sduIntervalP : Nat
  maxPduC : Nat
  maxPduP : Nat
  nse : Nat
  subInterval : Nat
  bnC : Nat
  bnP : Nat
  ftC : Nat
  ftP : Nat
  isoInterval : Nat
  deriving DecidableEq, Repr

/-- The link layer control PDUs, rust/llcp_packets.pdl. `other` is any PDU with an opcode that is not listed
here, `malformed` a payload that does not decode. -/
inductive Pdu where
  | cisReq (r : CisReq)
  | cisRsp
  | cisInd (cigSyncDelay cisSyncDelay : Nat)
  | rejectExtInd (opcode error : Nat)
  | terminateInd (cigId cisId error : Nat)
  | other
  | malformed
  deriving DecidableEq, Repr

/-- `LeCisEstablishedV1`, packets/hci_packets.pdl:6155-6177. -/
structure Established where
  status : ErrorCode
  handle : Nat
  cigSyncDelay : Nat
  cisSyncDelay : Nat
  latencyC : Nat
  latencyP : Nat
  phyC : Nat
  phyP : Nat
  nse : Nat
  bnC : Nat
  bnP : Nat
  ftC : Nat
  ftP : Nat
  maxPduC : Nat
  maxPduP : Nat
  isoInterval : Nat
  deriving DecidableEq, Repr

/-- The HCI events that the manager sends. -/
inductive Event where
  | disconnectStatus (status : ErrorCode)
  | setCigComplete (status : ErrorCode) (cigId : Nat) (handles : List Nat)
  | setCigTestComplete (status : ErrorCode) (cigId : Nat) (handles : List Nat)
  | removeCigComplete (status : ErrorCode) (cigId : Nat)
  | createCisStatus (status : ErrorCode)
  | acceptCisStatus (status : ErrorCode)
  | rejectCisComplete (status : ErrorCode) (handle : Nat)
  | setupPathComplete (status : ErrorCode) (handle : Nat)
  | removePathComplete (status : ErrorCode) (handle : Nat)
  | createBigStatus (status : ErrorCode)
  | terminateBigStatus (status : ErrorCode)
  | disconnectionComplete (handle : Nat) (reason : ErrorCode)
  | cisEstablished (e : Established)
  | cisRequest (acl handle cigId cisId : Nat)
  | createBigComplete (bigHandle : Nat) (handles : List Nat)
  | terminateBigComplete (bigHandle : Nat) (reason : ErrorCode)
  deriving DecidableEq, Repr

/-- A packet given to the host or sent to the peer. -/
inductive Out where
  | event (e : Event)
  | llcp (acl : Nat) (p : Pdu)
  deriving DecidableEq, Repr

abbrev Result := Except Fault (State × List Out)

/-! ### Encoding

`send_hci_event` and `send_llcp_packet` (iso.rs:480-493) call `encode_to_vec().unwrap()`. The generated encoder
returns an error if a field does not fit in its width. The fields that are as wide as their Rust type, and the
handles and constants that always fit, are not checked again. -/

/-- Field widths of rust/llcp_packets.pdl:228-254. -/
def CisReq.encodable (r : CisReq) : Bool :=
  r.framed < 2 && r.maxSduC < 2 ^ 12 && r.maxSduP < 2 ^ 12 && r.sduIntervalC < 2 ^ 20 &&
    r.sduIntervalP < 2 ^ 20 && r.subInterval < 2 ^ 24 && r.bnC < 2 ^ 4 && r.bnP < 2 ^ 4

/-- Field widths of packets/hci_packets.pdl:6155-6177. -/
def Established.encodable (e : Established) : Bool :=
  e.cigSyncDelay < 2 ^ 24 && e.cisSyncDelay < 2 ^ 24 && e.latencyC < 2 ^ 24 && e.latencyP < 2 ^ 24 &&
    e.bnC < 2 ^ 4 && e.bnP < 2 ^ 4

/-- The field widths of the other packets. -/
def Out.encodable : Out → Bool
  | .event (.cisEstablished e) => e.encodable
  | .llcp _ (.cisReq r) => r.encodable
  | .llcp _ (.cisInd a b) => a < 2 ^ 24 && b < 2 ^ 24
  | _ => true

/-- End a handler that sends the packets `outs`. A panic while encoding any of them ends the program, so it
does not matter that the check is made once for all of them. -/
def send (s : State) (outs : List Out) : Result :=
  if outs.all Out.encodable then .ok (s, outs) else .error .panic

/-- A handler that only answers the command. -/
def answer (s : State) (e : Event) : Result := .ok (s, [.event e])

/-! ### Intervals -/

def u32 : Nat := 2 ^ 32

/-- `num_integer::lcm` for `u32`. -/
def lcmU32 (a b : Nat) : Except Fault Nat :=
  if Nat.lcm a b < u32 then .ok (Nat.lcm a b) else .error .overflow

/-- `u32::div_ceil`. -/
def divCeil (a b : Nat) : Nat := (a + b - 1) / b

/-- The end of `iso_interval` for unframed CIGs, iso.rs:1924-1933. `interval` is in microseconds. -/
def unframedInterval (interval sduC sduP latencyC latencyP : Nat) : Except Fault (Option Nat) :=
  if u32 ≤ 2 * interval ∨ 2 * interval < sduC ∨ 2 * interval < sduP then .error .overflow
  else if interval / 1250 ≤ 65535 ∧ (sduC = 0 ∨ 2 * interval - sduC ≤ latencyC) ∧
      (sduP = 0 ∨ 2 * interval - sduP ≤ latencyP) then .ok (some (interval / 1250))
  else .ok none

/-- The interval that has to be a multiple of the SDU intervals, iso.rs:1918-1923. -/
def commonSduInterval (sduC sduP : Nat) : Except Fault Nat :=
  if sduC = 0 ∧ sduP = 0 then .error .panic
  else if sduC = 0 then .ok sduP
  else if sduP = 0 then .ok sduC
  else lcmU32 sduC sduP

/-- `iso_interval`, iso.rs:1901-1935. The result is in units of 1.25 ms. -/
def isoInterval (sduC sduP : Nat) (framed : Bool) (latencyC latencyP : Nat) : Except Fault (Option Nat) :=
  if framed then .ok (some (divCeil (max sduC sduP) 1250 % 65536))
  else
    match commonSduInterval sduC sduP with
    | .error f => .error f
    | .ok sdu =>
      match lcmU32 1250 sdu with
      | .error f => .error f
      | .ok interval => unframedInterval interval sduC sduP latencyC latencyP

/-- `transport_latency`, iso.rs:1940-1953. -/
def transportLatency (syncDelay iso ft sdu : Nat) (framed : Bool) : Except Fault Nat :=
  if u32 ≤ ft * (iso * 1250) ∨ u32 ≤ syncDelay + ft * (iso * 1250) then .error .overflow
  else if framed then
    if u32 ≤ syncDelay + ft * (iso * 1250) + sdu then .error .overflow
    else .ok (syncDelay + ft * (iso * 1250) + sdu)
  else if syncDelay + ft * (iso * 1250) < sdu then .error .overflow
  else .ok (syncDelay + ft * (iso * 1250) - sdu)

/-! ### CIS parameters -/

/-- `select_phy`, iso.rs:201-211. -/
def selectPhy (phys : Nat) : Except Fault Nat :=
  if phys = 2 ∨ phys = 3 ∨ phys = 6 ∨ phys = 7 then .ok 2
  else if phys = 1 ∨ phys = 5 then .ok 1
  else if phys = 4 then .ok 4
  else .error .panic

/-- The burst number of one direction, iso.rs:182-187. -/
def burstNumber (configured : Option Nat) (maxSdu : Nat) : Except Fault Nat :=
  match configured with
  | some n => .ok n
  | none => if divCeil maxSdu 251 < 256 then .ok (divCeil maxSdu 251) else .error .panic

/-- `CisParameters::new`, iso.rs:181-237. -/
def cisParameters (g : CigConfig) (c : CisConfig) : Except Fault CisParameters :=
  match burstNumber c.bnC c.maxSduC, burstNumber c.bnP c.maxSduP, selectPhy c.phyC, selectPhy c.phyP with
  | .ok bnC, .ok bnP, .ok phyC, .ok phyP =>
    if c.nse.getD (max bnC bnP) = 0 then .error .panic
    else .ok {
      cigSyncDelay := g.isoInterval * 1250
      cisSyncDelay := g.isoInterval * 1250
      phyC := phyC
      phyP := phyP
      nse := c.nse.getD (max bnC bnP)
      bnC := bnC
      bnP := bnP
      ftC := g.ftC
      ftP := g.ftP
      maxPduC := c.maxPduC.getD 251
      maxPduP := c.maxPduP.getD 251
      maxSduC := c.maxSduC
      maxSduP := c.maxSduP
      sduIntervalC := g.sduIntervalC
      sduIntervalP := g.sduIntervalP
      isoInterval := g.isoInterval
      subInterval := g.isoInterval * 1250 / c.nse.getD (max bnC bnP)
      framed := g.framed }
  | _, _, _, _ => .error .panic

/-- `CisParameters::phy_c_to_p` and `phy_p_to_c`, iso.rs:225-241: the value of `SecondaryPhyType`. -/
def phyType (phy : Nat) : Except Fault Nat :=
  if phy = 1 then .ok 1 else if phy = 2 then .ok 2 else if phy = 4 then .ok 3 else .error .panic

/-- The event for a CIS that could not be established, e.g. iso.rs:364-381. -/
def Established.failed (status : ErrorCode) (handle : Nat) : Established :=
  ⟨status, handle, 0, 0, 0, 0, 0, 0, 0, 0, 0, 0, 0, 0, 0, 0⟩

/-- The event for an established CIS on the central, iso.rs:1500-1517. -/
def centralEvent (handle : Nat) (p : CisParameters) : Except Fault Established :=
  match transportLatency p.cigSyncDelay p.isoInterval p.ftC p.sduIntervalC p.framed,
    transportLatency p.cigSyncDelay p.isoInterval p.ftP p.sduIntervalP p.framed,
    phyType p.phyC, phyType p.phyP with
  | .ok latencyC, .ok latencyP, .ok phyC, .ok phyP => .ok {
      status := success
      handle := handle
      cigSyncDelay := p.cigSyncDelay
      cisSyncDelay := p.cisSyncDelay
      latencyC := latencyC
      latencyP := latencyP
      phyC := phyC
      phyP := phyP
      nse := p.nse
      bnC := p.bnC
      bnP := p.bnP
      ftC := p.ftC
      ftP := p.ftP
      maxPduC := p.maxPduC % 256
      maxPduP := p.maxPduP % 256
      isoInterval := p.isoInterval }
  | .error f, _, _, _ => .error f
  | _, .error f, _, _ => .error f
  | _, _, _, _ => .error .panic

/-- The event for an established CIS on the peripheral, iso.rs:1586-1603. The burst numbers, flush timeouts and
PDU sizes are assigned to the fields of the other direction. -/
def peripheralEvent (handle : Nat) (p : CisParameters) : Except Fault Established :=
  match transportLatency p.cigSyncDelay p.isoInterval p.ftC p.sduIntervalC p.framed,
    transportLatency p.cigSyncDelay p.isoInterval p.ftP p.sduIntervalP p.framed,
    phyType p.phyC, phyType p.phyP with
  | .ok latencyC, .ok latencyP, .ok phyC, .ok phyP => .ok {
      status := success
      handle := handle
      cigSyncDelay := p.cigSyncDelay
      cisSyncDelay := p.cisSyncDelay
      latencyC := latencyC
      latencyP := latencyP
      phyC := phyC
      phyP := phyP
      nse := p.nse
      bnP := p.bnC
      bnC := p.bnP
      ftP := p.ftC
      ftC := p.ftP
      maxPduP := p.maxPduC % 256
      maxPduC := p.maxPduP % 256
      isoInterval := p.isoInterval }
  | .error f, _, _, _ => .error f
  | _, .error f, _, _ => .error f
  | _, _, _, _ => .error .panic

/-! ### Handles -/

/-- `new_cis_connection_handle`, iso.rs:436-440: the range `0xe00..0xefe` excludes its end. -/
def newCisHandle (cises : List Cis) : Option Nat :=
  (List.range' 0xe00 0xfe).find? (fun h => !cises.any (fun c => c.handle = h))

/-- `new_bis_connection_handle`, iso.rs:443-447. -/
def newBisHandle (bises : List Bis) : Option Nat :=
  (List.range' 0xd00 0xff).find? (fun h => !bises.any (fun b => b.handle = h))

/-- `HashMap::get` on `cis_connections`. -/
def findCis (cises : List Cis) (h : Nat) : Option Cis := cises.find? (fun c => c.handle = h)

/-- `HashMap::get_mut` on `cis_connections`, followed by an assignment. -/
def updateCis (cises : List Cis) (h : Nat) (f : Cis → Cis) : List Cis :=
  cises.map (fun c => if c.handle = h then f c else c)

/-- `HashMap::remove` on `cis_connections`. -/
def eraseCis (cises : List Cis) (h : Nat) : List Cis := cises.filter (fun c => ¬ c.handle = h)

/-- `new_cis_connection`, iso.rs:451-478. -/
def newCis (cises : List Cis) (cigId cisId : Nat) (role : Role) : Except Fault (List Cis × Nat) :=
  match cises.find? (fun c => c.cigId = cigId ∧ c.cisId = cisId ∧ c.role = role) with
  | some c => .ok (cises, c.handle)
  | none =>
    match newCisHandle cises with
    | none => .error .panic
    | some h => .ok (cises ++ [{ handle := h, cigId := cigId, cisId := cisId, role := role }], h)

/-! ### Configuration of CIGs -/

/-- `supported_phys`, iso.rs:499-509. -/
def supportedPhys (env : Env) : Nat :=
  (if env.le2m then 2 else 0) + (if env.leCoded then 4 else 0) + 1

/-- One CIS of `LE Set CIG Parameters`, after the conversion at iso.rs:741-752, or of
`LE Set CIG Parameters Test`, after the conversion at iso.rs:910-921. -/
structure NewCis where
  cisId : Nat
  config : CisConfig
  deriving DecidableEq, Repr

/-- The checks for one CIS, iso.rs:604-674 and 806-876. A PHY bit outside `supported` is
`phy & !supported != 0`. -/
def checkCis (env : Env) (s : State) (cigId : Nat) (c : NewCis) : Option ErrorCode :=
  let old := s.cises.find? (fun o => o.cisId = c.cisId ∧ o.cigId = cigId ∧ o.role = .central)
  if c.config.phyC = 0 ∨ c.config.phyP = 0 then some unsupportedParameter
  else if c.config.phyC &&& supportedPhys env ≠ c.config.phyC ∨
      c.config.phyP &&& supportedPhys env ≠ c.config.phyP then some unsupportedParameter
  else if c.config.maxSduC = 0 ∧ (old.map (·.pathC)).getD false then some commandDisallowed
  else if c.config.maxSduP = 0 ∧ (old.map (·.pathP)).getD false then some commandDisallowed
  else if 0xfff < c.config.maxSduC ∨ 0xfff < c.config.maxSduP then some invalidParameters
  else none

/-- `configures_c_to_p` and `configures_p_to_c`, iso.rs:676-687 and 878-889: whether some CIS of the CIG has a
non-zero SDU size after the command. -/
def configures (s : State) (cigId : Nat) (cs : List NewCis) (size : CisConfig → Nat) : Bool :=
  cs.any (fun c => size c.config ≠ 0) ||
    s.cisConfigs.any (fun e => e.1.1 = cigId && size e.2 ≠ 0 && cs.all (fun c => c.cisId ≠ e.1.2))

/-- The update of the CISes of a CIG, iso.rs:739-758 and 908-928. -/
def configureCises (cigId : Nat) : List NewCis → State → Except Fault (State × List Nat)
  | [], s => .ok (s, [])
  | c :: cs, s =>
    match newCis s.cises cigId c.cisId .central with
    | .error f => .error f
    | .ok (cises, h) =>
      match configureCises cigId cs
        { s with cisConfigs := mapSet s.cisConfigs (cigId, c.cisId) c.config, cises := cises } with
      | .error f => .error f
      | .ok (s', hs) => .ok (s', h :: hs)

/-- The checks that both commands share, iso.rs:592-702 and 794-904. -/
def checkCig (env : Env) (s : State) (cigId sduC sduP : Nat) (cs : List NewCis) : Option ErrorCode :=
  if ¬ ((mapFind s.cigs cigId).map (·.configurable)).getD true then some commandDisallowed
  else
    match cs.findSome? (checkCis env s cigId) with
    | some e => some e
    | none =>
      if (configures s cigId cs (·.maxSduC) ∧ ¬ (0xff ≤ sduC ∧ sduC ≤ 0xfffff)) ∨
          (configures s cigId cs (·.maxSduP) ∧ ¬ (0xff ≤ sduP ∧ sduP ≤ 0xfffff)) then
        some invalidParameters
      else none

/-- `hci_le_set_cig_parameters`, iso.rs:577-768. -/
def setCig (env : Env) (s : State) (cigId sduC sduP : Nat) (framed : Bool) (latencyC latencyP : Nat)
    (cs : List NewCis) : Result :=
  match checkCig env s cigId sduC sduP cs with
  | some e => answer s (.setCigComplete e cigId [])
  | none =>
    if (configures s cigId cs (·.maxSduC) ∧ ¬ (0x5 ≤ latencyC ∧ latencyC ≤ 0xfa0)) ∨
        (configures s cigId cs (·.maxSduP) ∧ ¬ (0x5 ≤ latencyP ∧ latencyP ≤ 0xfa0)) then
      answer s (.setCigComplete invalidParameters cigId [])
    else
      match isoInterval sduC sduP framed (latencyC * 1000) (latencyP * 1000) with
      | .error f => .error f
      | .ok none => answer s (.setCigComplete unsupportedParameter cigId [])
      | .ok (some iso) =>
        let cig := { (mapFind s.cigs cigId).getD {} with
          isoInterval := iso, sduIntervalC := sduC, sduIntervalP := sduP, ftC := 1, ftP := 1, framed := framed }
        match configureCises cigId cs { s with cigs := mapSet s.cigs cigId cig } with
        | .error f => .error f
        | .ok (s', hs) => answer s' (.setCigComplete success cigId hs)

/-- `hci_le_set_cig_parameters_test`, iso.rs:770-938. -/
def setCigTest (env : Env) (s : State) (cigId sduC sduP ftC ftP iso : Nat) (framed : Bool)
    (cs : List NewCis) : Result :=
  match checkCig env s cigId sduC sduP cs with
  | some e => answer s (.setCigTestComplete e cigId [])
  | none =>
    let cig := { (mapFind s.cigs cigId).getD {} with
      isoInterval := iso, sduIntervalC := sduC, sduIntervalP := sduP, ftC := ftC, ftP := ftP, framed := framed }
    match configureCises cigId cs { s with cigs := mapSet s.cigs cigId cig } with
    | .error f => .error f
    | .ok (s', hs) => answer s' (.setCigTestComplete success cigId hs)

/-- `hci_le_remove_cig`, iso.rs:940-974. -/
def removeCig (s : State) (cigId : Nat) : Result :=
  if (mapFind s.cigs cigId).isNone then answer s (.removeCigComplete unknownConnection cigId)
  else if s.cises.any (fun c => c.role = .central && c.cigId = cigId && c.state ≠ .configuration) then
    answer s (.removeCigComplete commandDisallowed cigId)
  else
    answer { s with
      cigs := mapErase s.cigs cigId
      cisConfigs := s.cisConfigs.filter (fun e => e.1.1 ≠ cigId)
      cises := s.cises.filter (fun c => c.role ≠ .central ∨ c.cigId ≠ cigId) }
      (.removeCigComplete success cigId)

/-! ### Creation of CISes -/

/-- `deque_cis_connection_request`, iso.rs:531-575. -/
def dequeue (s : State) : Result :=
  match s.requests with
  | [] => .ok (s, [])
  | r :: rest =>
    match mapFind s.cisConfigs (r.cigId, r.cisId), mapFind s.cigs r.cigId with
    | some c, some g =>
      match cisParameters g c with
      | .error f => .error f
      | .ok p =>
        if (findCis s.cises r.handle).isNone then .error .panic
        else
          send { s with
              requests := rest
              cises := updateCis s.cises r.handle (fun c =>
                { c with acl := some r.acl, state := .pendingRsp, params := some p }) }
            [.llcp r.acl (.cisReq {
              cigId := r.cigId
              cisId := r.cisId
              phyC := p.phyC
              phyP := p.phyP
              framed := if g.framed then 1 else 0
              maxSduC := c.maxSduC
              maxSduP := c.maxSduP
              sduIntervalC := g.sduIntervalC
              sduIntervalP := g.sduIntervalP
              maxPduC := p.maxPduC
              maxPduP := p.maxPduP
              nse := p.nse
              subInterval := p.subInterval
              bnC := p.bnC
              bnP := p.bnP
              ftC := g.ftC
              ftP := g.ftP
              isoInterval := g.isoInterval })]
    | _, _ => .error .panic

/-- The checks for one CIS of `LE Create CIS`, iso.rs:983-1042: the error, or the request. `earlier` are the
requests made from the preceding elements. -/
def checkCreate (s : State) (earlier : List CisRequest) (cis acl : Nat) : Except ErrorCode CisRequest :=
  match mapFind s.acls acl with
  | none => .error unknownConnection
  | some .peripheral => .error invalidParameters
  | some .central =>
    match findCis s.cises cis with
    | none => .error unknownConnection
    | some c =>
      if c.state ≠ .configuration then .error connectionAlreadyExists
      else if earlier.any (fun r => r.handle = cis) then .error invalidParameters
      else .ok { handle := cis, acl := acl, cigId := c.cigId, cisId := c.cisId }

/-- The loop over the CISes, iso.rs:982-1050. An element is a pair of a CIS handle and an ACL handle. -/
def checkCreates (s : State) : List CisRequest → List (Nat × Nat) → Except ErrorCode (List CisRequest)
  | earlier, [] => .ok earlier
  | earlier, (cis, acl) :: rest =>
    match checkCreate s earlier cis acl with
    | .error e => .error e
    | .ok r => checkCreates s (earlier ++ [r]) rest

/-- The loop that marks the CIGs as no longer configurable, iso.rs:1069-1074. -/
def lockCigs : List CisRequest → List (Nat × CigConfig) → Option (List (Nat × CigConfig))
  | [], cigs => some cigs
  | r :: rs, cigs =>
    match mapFind cigs r.cigId with
    | none => none
    | some g => lockCigs rs (mapSet cigs r.cigId { g with configurable := false })

/-- `hci_le_create_cis`, iso.rs:976-1085. -/
def createCis (env : Env) (s : State) (cs : List (Nat × Nat)) : Result :=
  match checkCreates s [] cs with
  | .error e => answer s (.createCisStatus e)
  | .ok rs =>
    if s.requests ≠ [] then answer s (.createCisStatus commandDisallowed)
    else if ¬ env.hostSupport then answer s (.createCisStatus commandDisallowed)
    else
      match lockCigs rs s.cigs with
      | none => .error .panic
      | some cigs =>
        match dequeue { s with cigs := cigs, requests := rs } with
        | .error f => .error f
        | .ok (s', outs) => .ok (s', outs ++ [.event (.createCisStatus success)])

/-- `hci_le_accept_cis_request`, iso.rs:1087-1140. -/
def acceptCis (s : State) (h : Nat) : Result :=
  match findCis s.cises h with
  | none => answer s (.acceptCisStatus unknownConnection)
  | some c =>
    if c.role = .central then answer s (.acceptCisStatus commandDisallowed)
    else if c.state ≠ .pendingAccept then answer s (.acceptCisStatus commandDisallowed)
    else
      match c.acl with
      | none => .error .panic
      | some acl =>
        .ok ({ s with cises := updateCis s.cises h (fun c => { c with state := .pendingInd }) },
          [.llcp acl .cisRsp, .event (.acceptCisStatus success)])

/-- The opcode of `LL_CIS_REQ`, rust/llcp_packets.pdl:35. -/
def opcodeCisReq : Nat := 0x1F

/-- `hci_le_reject_cis_request`, iso.rs:1142-1206. -/
def rejectCis (s : State) (h : Nat) (reason : ErrorCode) : Result :=
  match findCis s.cises h with
  | none => answer s (.rejectCisComplete unknownConnection h)
  | some c =>
    if c.role = .central then answer s (.rejectCisComplete commandDisallowed h)
    else if c.state ≠ .pendingAccept then answer s (.rejectCisComplete commandDisallowed h)
    else
      match c.acl with
      | none => .error .panic
      | some acl =>
        .ok ({ s with cises := eraseCis s.cises h },
          [.llcp acl (.rejectExtInd opcodeCisReq (if reason = success then remoteUserTerminated else reason)),
            .event (.rejectCisComplete success h)])

/-! ### Data paths -/

/-- `hci::DataPathDirection`, packets/hci_packets.pdl: input is host to controller. -/
inductive Direction where
  | input | output
  deriving DecidableEq, Repr

/-- `c_to_p_direction`, iso.rs:1229-1233. -/
def toPeripheral : Role → Direction
  | .central => .output
  | .peripheral => .input

/-- `p_to_c_direction`, iso.rs:1229-1233. -/
def toCentral : Role → Direction
  | .central => .input
  | .peripheral => .output

/-- `remove_c_to_p`, iso.rs:1345-1349. -/
def removesToPeripheral (input output : Bool) : Role → Bool
  | .central => output
  | .peripheral => input

/-- `remove_p_to_c`, iso.rs:1345-1349. -/
def removesToCentral (input output : Bool) : Role → Bool
  | .central => input
  | .peripheral => output

/-- `hci_le_setup_iso_data_path`, iso.rs:1208-1327. `codecId` and the length of the codec configuration are
the only other parameters that are read. -/
def setupPath (s : State) (h : Nat) (dir : Direction) (codecId configLength : Nat) : Result :=
  if configLength ≠ 0 ∧ codecId = 3 then answer s (.setupPathComplete invalidParameters h)
  else
    match findCis s.cises h with
    | some c =>
      if c.pathC ∧ dir = toPeripheral c.role then answer s (.setupPathComplete commandDisallowed h)
      else if c.pathP ∧ dir = toCentral c.role then answer s (.setupPathComplete commandDisallowed h)
      else if c.role = .peripheral ∧ c.state = .pendingAccept then
        answer s (.setupPathComplete commandDisallowed h)
      else
        answer { s with cises := updateCis s.cises h (fun c =>
            if dir = toPeripheral c.role then { c with pathC := true } else { c with pathP := true }) }
          (.setupPathComplete success h)
    | none =>
      match s.bises.find? (fun b => b.handle = h) with
      | some b =>
        if dir = .output then answer s (.setupPathComplete commandDisallowed h)
        else if b.dataPath then answer s (.setupPathComplete commandDisallowed h)
        else
          answer { s with bises := s.bises.map (fun b =>
              if b.handle = h then { b with dataPath := true } else b) } (.setupPathComplete success h)
      | none => answer s (.setupPathComplete unknownConnection h)

/-- `hci_le_remove_iso_data_path`, iso.rs:1329-1384. -/
def removePath (s : State) (h : Nat) (input output : Bool) : Result :=
  match findCis s.cises h with
  | some c =>
    if ¬ c.pathC ∧ removesToPeripheral input output c.role then answer s (.removePathComplete commandDisallowed h)
    else if ¬ c.pathP ∧ removesToCentral input output c.role then answer s (.removePathComplete commandDisallowed h)
    else
      answer { s with cises := updateCis s.cises h (fun c =>
          { c with pathC := c.pathC && !removesToPeripheral input output c.role,
                   pathP := c.pathP && !removesToCentral input output c.role }) }
        (.removePathComplete success h)
  | none =>
    match s.bises.find? (fun b => b.handle = h) with
    | some b =>
      if ¬ b.dataPath ∨ output then answer s (.removePathComplete commandDisallowed h)
      else
        answer { s with bises := s.bises.map (fun b =>
            if b.handle = h then { b with dataPath := b.dataPath && !input } else b) }
          (.removePathComplete success h)
    | none => answer s (.removePathComplete unknownConnection h)

/-! ### Disconnection -/

/-- `hci_disconnect`, iso.rs:1386-1431. `reason` is the octet of the open enumeration `DisconnectReason`. -/
def disconnect (s : State) (h : Nat) (reason : Nat) : Result :=
  match findCis s.cises h with
  | none => answer s (.disconnectStatus unknownConnection)
  | some c =>
    if c.state ≠ .connected ∧ c.state ≠ .pendingRsp then answer s (.disconnectStatus commandDisallowed)
    else
      match c.acl with
      | none => .error .panic
      | some acl =>
        .ok ({ s with cises :=
            if c.role = .central then
              updateCis s.cises h (fun c => { c with state := .configuration })
            else eraseCis s.cises h },
          [.llcp acl (.terminateInd c.cigId c.cisId reason), .event (.disconnectStatus success),
            .event (.disconnectionComplete h terminatedByLocalHost)])

/-- `LinkLayer::add_link`, manager.rs:52-67, with the `ASSERT` of le_controller.cc:5576. -/
def addLink (s : State) (acl : Nat) (role : Role) : Result :=
  if (mapFind s.acls acl).isSome then .error .panic
  else .ok ({ s with acls := mapSet s.acls acl role }, [])

/-- The event for one CIS when its ACL connection is removed, iso.rs:346-387. -/
def lostEvent (acl : Nat) (reason : ErrorCode) (c : Cis) : Option Out :=
  if c.acl = some acl then
    match c.state with
    | .connected => some (.event (.disconnectionComplete c.handle reason))
    | .pendingRsp => some (.event (.cisEstablished (.failed reason c.handle)))
    | .pendingInd => some (.event (.cisEstablished (.failed reason c.handle)))
    | _ => none
  else none

/-- `IsoManager::remove_acl_connection`, iso.rs:341-433. -/
def removeAcl (s : State) (acl : Nat) (reason : ErrorCode) : State × List Out :=
  ({ s with
      acls := mapErase s.acls acl
      cises := (s.cises.filter (fun c => c.role = .central ∨ c.acl ≠ some acl)).map (fun c =>
        if c.acl = some acl then { c with acl := none, state := .configuration } else c)
      requests := s.requests.filter (fun r => r.acl ≠ acl) },
    s.cises.filterMap (lostEvent acl reason) ++
      (s.requests.filter (fun r => r.acl = acl)).map (fun r =>
        .event (.cisEstablished (.failed reason r.handle))))

/-- `LinkLayer::remove_link`, manager.rs:69-83, with the `ASSERT`s of le_controller.cc:4306 and 6380. -/
def removeLink (s : State) (acl : Nat) (reason : Nat) : Result :=
  if (mapFind s.acls acl).isNone then .error .panic
  else .ok (removeAcl s acl (if reason ∈ errorCodes then reason else remoteUserTerminated))

/-! ### PDUs from the peer -/

/-- `ll_cis_req`, iso.rs:1433-1475. -/
def cisReq (s : State) (acl : Nat) (r : CisReq) : Result :=
  match newCisHandle s.cises with
  | none => .error .panic
  | some h =>
    .ok ({ s with cises := s.cises ++ [{
        handle := h
        cigId := r.cigId
        cisId := r.cisId
        role := .peripheral
        acl := some acl
        state := .pendingAccept
        params := some {
          cigSyncDelay := 0
          cisSyncDelay := 0
          phyC := r.phyC
          phyP := r.phyP
          nse := r.nse
          bnC := r.bnC
          bnP := r.bnP
          ftC := r.ftC
          ftP := r.ftP
          maxPduC := r.maxPduC
          maxPduP := r.maxPduP
          maxSduC := r.maxSduC
          maxSduP := r.maxSduP
          sduIntervalC := r.sduIntervalC
          sduIntervalP := r.sduIntervalP
          isoInterval := r.isoInterval
          subInterval := r.subInterval
          framed := r.framed ≠ 0 } }] },
      [.event (.cisRequest acl h r.cigId r.cisId)])

/-- Replace the CIS connections. -/
def setCises (s : State) (cises : List Cis) : State := { s with cises := cises }

/-- The CIS that an `LL_CIS_RSP` or `LL_REJECT_EXT_IND` answers, iso.rs:1478-1482 and 1530-1534. -/
def awaitingRsp (s : State) (acl : Nat) : Option Cis :=
  s.cises.find? (fun c => c.acl = some acl ∧ c.role = .central ∧ c.state = .pendingRsp)

/-- `ll_cis_rsp`, iso.rs:1477-1523. -/
def cisRsp (s : State) (acl : Nat) : Result :=
  match awaitingRsp s acl with
  | none => .ok (s, [])
  | some c =>
    match c.params with
    | none => .error .panic
    | some p =>
      match centralEvent c.handle p with
      | .error f => .error f
      | .ok e =>
        match dequeue (setCises s (updateCis s.cises c.handle (fun c => { c with state := .connected }))) with
        | .error f => .error f
        | .ok (s', outs) =>
          send s' ([.llcp acl (.cisInd p.cigSyncDelay p.cisSyncDelay), .event (.cisEstablished e)] ++ outs)

/-- `ll_reject_ext_ind`, iso.rs:1525-1566, with the dispatch of manager.rs:118-123. -/
def rejectExtInd (s : State) (acl opcode : Nat) : Result :=
  if opcode ≠ opcodeCisReq then .error .panic
  else
    match awaitingRsp s acl with
    | none => .ok (s, [])
    | some c =>
      match dequeue (setCises s (updateCis s.cises c.handle (fun c =>
          { c with state := .configuration, params := none }))) with
      | .error f => .error f
      | .ok (s', outs) =>
        .ok (s', .event (.cisEstablished (.failed remoteUserTerminated c.handle)) :: outs)

/-- The CIS that an `LL_CIS_IND` completes, iso.rs:1569-1573. -/
def awaitingInd (s : State) (acl : Nat) : Option Cis :=
  s.cises.find? (fun c => c.acl = some acl ∧ c.role = .peripheral ∧ c.state = .pendingInd)

/-- `ll_cis_ind`, iso.rs:1568-1607. -/
def cisInd (s : State) (acl cigSyncDelay cisSyncDelay : Nat) : Result :=
  match awaitingInd s acl with
  | none => .ok (s, [])
  | some c =>
    match c.params with
    | none => .error .panic
    | some p =>
      let p' := { p with cigSyncDelay := cigSyncDelay, cisSyncDelay := cisSyncDelay }
      match peripheralEvent c.handle p' with
      | .error f => .error f
      | .ok e =>
        send { s with cises := updateCis s.cises c.handle (fun c =>
            { c with state := .connected, params := some p' }) } [.event (.cisEstablished e)]

/-- `ll_cis_terminate_ind`, iso.rs:1609-1630. -/
def terminateInd (s : State) (acl cigId cisId error : Nat) : Result :=
  match s.cises.find? (fun c => c.acl = some acl ∧ c.cigId = cigId ∧ c.cisId = cisId) with
  | none => .ok (s, [])
  | some c =>
    if error ∈ errorCodes then
      .ok ({ s with cises := eraseCis s.cises c.handle }, [.event (.disconnectionComplete c.handle error)])
    else .error .panic

/-! ### Broadcast groups -/

/-- The loop that allocates the BISes, iso.rs:1811-1827. -/
def allocateBises (bigHandle maxSdu : Nat) : List Nat → List Bis → Option (List Bis × List Nat)
  | [], bises => some (bises, [])
  | i :: is, bises =>
    match newBisHandle bises with
    | none => none
    | some h =>
      match allocateBises bigHandle maxSdu is
        (bises ++ [{ handle := h, bigHandle := bigHandle, bisId := i, maxSdu := maxSdu }]) with
      | none => none
      | some (bises', hs) => some (bises', h :: hs)

/-- `hci_le_create_big`, iso.rs:1632-1858. The checks 9 to 13 (1725-1784) cannot fail: RTN is four bits wide,
PHY, packing, framing and encryption are enumerations, except that the PHY may be `NO_PACKETS`. The NSE check
at 1838 cannot fail either. The parameters of the complete event other than the handles are constants or are
copied from the command. -/
def createBig (env : Env) (s : State) (bigHandle advHandle numBis sduInterval maxSdu latency phy : Nat) : Result :=
  if 0xef < bigHandle then answer s (.createBigStatus invalidParameters)
  else if s.bigs.any (fun b => b.bigHandle = bigHandle) then answer s (.createBigStatus commandDisallowed)
  else if 0xef < advHandle then answer s (.createBigStatus invalidParameters)
  else if env.advertiser advHandle ≠ some true then answer s (.createBigStatus unknownAdvertisingIdentifier)
  else if s.bigs.any (fun b => b.advertisingHandle = advHandle) then
    answer s (.createBigStatus unknownAdvertisingIdentifier)
  else if ¬ (1 ≤ numBis ∧ numBis ≤ 0x1f) then answer s (.createBigStatus invalidParameters)
  else if ¬ (0xff ≤ sduInterval ∧ sduInterval ≤ 0xfffff) then answer s (.createBigStatus invalidParameters)
  else if ¬ (1 ≤ maxSdu ∧ maxSdu ≤ 0xfff) then answer s (.createBigStatus invalidParameters)
  else if ¬ (5 ≤ latency ∧ latency ≤ 0xfa0) then answer s (.createBigStatus invalidParameters)
  else if phy = 0 then answer s (.createBigStatus invalidParameters)
  else
    match allocateBises bigHandle maxSdu (List.range' 1 numBis) s.bises with
    | none => .error .panic
    | some (bises, hs) =>
      .ok ({ s with bigs := s.bigs ++ [⟨bigHandle, advHandle, numBis⟩], bises := bises },
        [.event (.createBigStatus success), .event (.createBigComplete bigHandle hs)])

/-- `hci_le_terminate_big`, iso.rs:1860-1895. -/
def terminateBig (s : State) (bigHandle : Nat) (reason : ErrorCode) : Result :=
  if 0xef < bigHandle then answer s (.terminateBigStatus invalidParameters)
  else if ¬ s.bigs.any (fun b => b.bigHandle = bigHandle) then
    answer s (.terminateBigStatus unknownAdvertisingIdentifier)
  else
    .ok ({ s with
        bigs := s.bigs.filter (fun b => b.bigHandle ≠ bigHandle)
        bises := s.bises.filter (fun b => b.bigHandle ≠ bigHandle) },
      [.event (.terminateBigStatus success), .event (.terminateBigComplete bigHandle reason)])

/-! ### The link layer -/

/-- The HCI commands that the controller passes to the link layer, dual_mode_controller.cc:2124 and 4443-4456.
`malformed` is a command that does not decode, for instance because the value of an enumeration is not
defined. -/
inductive Cmd where
  | setCig (cigId sduC sduP : Nat) (framed : Bool) (latencyC latencyP : Nat) (cs : List NewCis)
  | setCigTest (cigId sduC sduP ftC ftP iso : Nat) (framed : Bool) (cs : List NewCis)
  | removeCig (cigId : Nat)
  | createCis (cs : List (Nat × Nat))
  | acceptCis (handle : Nat)
  | rejectCis (handle : Nat) (reason : ErrorCode)
  | setupPath (handle : Nat) (dir : Direction) (codecId configLength : Nat)
  | removePath (handle : Nat) (input output : Bool)
  | disconnect (handle : Nat) (reason : Nat)
  | createBig (bigHandle advHandle numBis sduInterval maxSdu latency phy : Nat)
  | terminateBig (bigHandle : Nat) (reason : ErrorCode)
  | malformed
  deriving DecidableEq, Repr

/-- `LinkLayer::ingest_hci`, manager.rs:87-108, with the `ASSERT` of le_controller.cc:6356. -/
def runCmd (env : Env) (s : State) : Cmd → Result
  | .setCig cigId sduC sduP framed latencyC latencyP cs => setCig env s cigId sduC sduP framed latencyC latencyP cs
  | .setCigTest cigId sduC sduP ftC ftP iso framed cs => setCigTest env s cigId sduC sduP ftC ftP iso framed cs
  | .removeCig cigId => removeCig s cigId
  | .createCis cs => createCis env s cs
  | .acceptCis h => acceptCis s h
  | .rejectCis h reason => rejectCis s h reason
  | .setupPath h dir codecId configLength => setupPath s h dir codecId configLength
  | .removePath h input output => removePath s h input output
  | .disconnect h reason => disconnect s h reason
  | .createBig b a n i m l p => createBig env s b a n i m l p
  | .terminateBig b reason => terminateBig s b reason
  | .malformed => .error .panic

/-- `LinkLayer::ingest_llcp`, manager.rs:110-135, with the `ASSERT` of le_controller.cc:5355. -/
def runPdu (s : State) (acl : Nat) : Pdu → Result
  | .cisReq r => cisReq s acl r
  | .cisRsp => cisRsp s acl
  | .cisInd a b => cisInd s acl a b
  | .rejectExtInd opcode _ => rejectExtInd s acl opcode
  | .terminateInd cigId cisId error => terminateInd s acl cigId cisId error
  | .other => .error .panic
  | .malformed => .error .panic

/-- What can happen to the link layer. `rehash` changes the iteration order of the CIS connections, to any
order: the iteration order of a Rust `HashMap` is unspecified. -/
inductive Op where
  | addLink (acl : Nat) (role : Role)
  | removeLink (acl : Nat) (reason : Nat)
  | hci (c : Cmd)
  | llcp (acl : Nat) (p : Pdu)
  | rehash (order : List Cis)
  deriving DecidableEq, Repr

/-- One step. -/
def step (env : Env) (s : State) : Op → Result
  | .addLink acl role => addLink s acl role
  | .removeLink acl reason => removeLink s acl reason
  | .hci c => runCmd env s c
  | .llcp acl p => runPdu s acl p
  | .rehash order => .ok (if order.isPerm s.cises then { s with cises := order } else s, [])

/-- A history: the environment may be different at every step. The result contains all packets sent. -/
def run : State → List (Env × Op) → Result
  | s, [] => .ok (s, [])
  | s, (env, op) :: ops =>
    match step env s op with
    | .error f => .error f
    | .ok (s', outs) =>
      match run s' ops with
      | .error f => .error f
      | .ok (s'', outs') => .ok (s'', outs ++ outs')

/-- The states that the link layer can reach. -/
def Reachable (s : State) : Prop := ∃ ops outs, run {} ops = .ok (s, outs)

end Verif.Iso
