import Verif.Iso.Model

/-!
# When an isochronous command is refused

Core Specification 5.3, Vol 4, Part E, 7.1.6, 7.8.97 to 7.8.110: for each command the reasons to refuse it, each with its error code.
The first that applies counts. The codes: 0x02 unknown connection, 0x0B connection already exists, 0x0C command disallowed, 0x11
unsupported feature or parameter value, 0x12 invalid parameters, 0x42 unknown advertising identifier. -/
namespace Verif.Iso

open Verif.Le (mapFind)

/-- A reason and its code. -/
abbrev Reason := Bool × Nat

/-- The code of the first reason that applies. -/
def firstOf : List Reason → Option Nat
  | [] => none
  | (b, code) :: rest => if b then some code else firstOf rest

/-- The masks of PHYs a controller can be asked to choose from: 1 is LE 1M, 2 is LE 2M, 4 is LE Coded, and the sums. -/
def phyChoices : Bool → Bool → List Nat
  | false, false => [1]
  | true, false => [1, 2, 3]
  | false, true => [1, 4, 5]
  | true, true => [1, 2, 3, 4, 5, 6, 7]

/-- The stream `cisId` of the group `cigId` the controller holds as a central. -/
def State.stream (s : State) (cigId cisId : Nat) : Option Cis :=
  s.cises.find? (fun c => c.cisId = cisId ∧ c.cigId = cigId ∧ c.role = .central)

/-- The stream with a handle. -/
def State.cis (s : State) (h : Nat) : Option Cis := s.cises.find? (fun c => c.handle = h)

/-- The broadcast stream with a handle. -/
def State.bis (s : State) (h : Nat) : Option Bis := s.bises.find? (fun b => b.handle = h)

/-- The reasons to refuse one of the streams of a group: a PHY that is not there, a direction without data that has a data path, or
SDUs that are too large. -/
def cisReasons (env : Env) (s : State) (k : Nat) (c : NewCis) : List Reason :=
  [(!(c.config.phyC ∈ phyChoices env.le2m env.leCoded) || !(c.config.phyP ∈ phyChoices env.le2m env.leCoded), 0x11),
    (c.config.maxSduC == 0 && (s.stream k c.cisId).elim false (·.pathC) || c.config.maxSduP == 0 && (s.stream k c.cisId).elim false (·.pathP), 0x0C),
    (4096 ≤ c.config.maxSduC || 4096 ≤ c.config.maxSduP, 0x12)]

/-- Whether a direction of the group carries data after the command: in a stream of the command, or in one configured before that
the command does not mention. -/
def carries (s : State) (k : Nat) (cs : List NewCis) (size : CisConfig → Nat) : Bool :=
  cs.any (fun c => size c.config != 0) || s.cisConfigs.any (fun e => e.1.1 == k && size e.2 != 0 && cs.all (fun c => c.cisId != e.1.2))

/-- The reasons both commands share that configure a group. -/
def groupReasons (env : Env) (s : State) (k sduC sduP : Nat) (cs : List NewCis) : List Reason :=
  [((mapFind s.cigs k).elim false (fun g => !g.configurable), 0x0C)] ++ cs.flatMap (cisReasons env s k) ++
    [(carries s k cs (·.maxSduC) && !(255 ≤ sduC && sduC < 1048576) || carries s k cs (·.maxSduP) && !(255 ≤ sduP && sduP < 1048576), 0x12)]

/-- The shortest interval, in microseconds, that is a multiple of 1.25 ms and of the SDU intervals in use. -/
def shortest (sduC sduP : Nat) : Nat := Nat.lcm 1250 (Nat.lcm (if sduC = 0 then 1 else sduC) (if sduP = 0 then 1 else sduP))

/-- Without framing, no interval fits: it has more than 65535 units, or a transport latency (milliseconds) is too small for it. -/
def noInterval (sduC sduP : Nat) (framed : Bool) (latencyC latencyP : Nat) : Bool :=
  !framed && (65535 < shortest sduC sduP / 1250 || sduC != 0 && decide (1000 * latencyC < 2 * shortest sduC sduP - sduC) ||
    sduP != 0 && decide (1000 * latencyP < 2 * shortest sduC sduP - sduP))

/-- The reasons to refuse the creation of streams, one after the other: pairs of a stream's handle and a connection's. -/
def createReasons (s : State) : List Nat → List (Nat × Nat) → List Reason
  | _, [] => []
  | earlier, (h, acl) :: rest =>
    [((mapFind s.acls acl).isNone, 0x02), (mapFind s.acls acl == some .peripheral, 0x12), ((s.cis h).isNone, 0x02),
      ((s.cis h).elim false (·.state != .configuration), 0x0B), (earlier.contains h, 0x12)] ++ createReasons s (earlier ++ [h]) rest

/-- Which direction of a stream a data path serves: the controller takes the host's input for data of the peripheral if it is the
central (C25). -/
def serves (c : Cis) (input : Bool) : Bool := if input = (c.role == .peripheral) then c.pathC else c.pathP

/-- The reasons. -/
def reasons (env : Env) (s : State) : Cmd → List Reason
  | .setCig k sduC sduP framed latC latP cs =>
    groupReasons env s k sduC sduP cs ++
      [(carries s k cs (·.maxSduC) && !(5 ≤ latC && latC ≤ 4000) || carries s k cs (·.maxSduP) && !(5 ≤ latP && latP ≤ 4000), 0x12),
        (noInterval sduC sduP framed latC latP, 0x11)]
  | .setCigTest k sduC sduP _ _ _ _ cs => groupReasons env s k sduC sduP cs
  | .removeCig k =>
    [((mapFind s.cigs k).isNone, 0x02), (s.cises.any (fun c => c.role == .central && c.cigId == k && c.state != .configuration), 0x0C)]
  | .createCis cs => createReasons s [] cs ++ [(!s.requests.isEmpty, 0x0C), (!env.hostSupport, 0x0C)]
  | .acceptCis h | .rejectCis h _ =>
    [((s.cis h).isNone, 0x02), ((s.cis h).elim false (fun c => c.role == .central || c.state != .pendingAccept), 0x0C)]
  | .setupPath h dir codec len =>
    [(len != 0 && codec == 3, 0x12),
      ((s.cis h).elim false (fun c => serves c (dir == .input) || (c.role == .peripheral && c.state == .pendingAccept)), 0x0C),
      ((s.cis h).isNone && (s.bis h).elim false (fun b => dir == .output || b.dataPath), 0x0C),
      ((s.cis h).isNone && (s.bis h).isNone, 0x02)]
  | .removePath h input output =>
    [((s.cis h).elim false (fun c => (input && !serves c true) || (output && !serves c false)), 0x0C),
      ((s.cis h).isNone && (s.bis h).elim false (fun b => !b.dataPath || output), 0x0C),
      ((s.cis h).isNone && (s.bis h).isNone, 0x02)]
  | .disconnect h _ => [((s.cis h).isNone, 0x02), ((s.cis h).elim false (fun c => !(c.state ∈ [.connected, .pendingRsp])), 0x0C)]
  | .createBig b a n i m l p =>
    [(240 ≤ b, 0x12), (s.bigs.any (fun x => x.bigHandle == b), 0x0C), (240 ≤ a, 0x12), (env.advertiser a != some true, 0x42),
      (s.bigs.any (fun x => x.advertisingHandle == a), 0x42),
      (!(1 ≤ n && n < 32) || !(255 ≤ i && i < 1048576) || !(1 ≤ m && m < 4096) || !(5 ≤ l && l ≤ 4000) || p == 0, 0x12)]
  | .terminateBig b _ => [(240 ≤ b, 0x12), (s.bigs.all (fun x => x.bigHandle != b), 0x42)]
  | .malformed => []

/-- The event that answers a command. -/
def reply (code : Nat) : Cmd → Event
  | .setCig k _ _ _ _ _ _ => .setCigComplete code k []
  | .setCigTest k _ _ _ _ _ _ _ => .setCigTestComplete code k []
  | .removeCig k => .removeCigComplete code k
  | .createCis _ => .createCisStatus code
  | .acceptCis _ => .acceptCisStatus code
  | .rejectCis h _ => .rejectCisComplete code h
  | .setupPath h _ _ _ => .setupPathComplete code h
  | .removePath h _ _ => .removePathComplete code h
  | .disconnect _ _ | .malformed => .disconnectStatus code
  | .createBig _ _ _ _ _ _ _ => .createBigStatus code
  | .terminateBig _ _ => .terminateBigStatus code

/-- The streams after one of them has changed. -/
def State.change (s : State) (h : Nat) (f : Cis → Cis) : State := { s with cises := s.cises.map (fun c => if c.handle = h then f c else c) }

/-- The streams after one of them is gone. -/
def State.drop (s : State) (h : Nat) : State := { s with cises := s.cises.filter (fun c => c.handle ≠ h) }

/-- A stream after a path in a direction is there, or not. -/
def Cis.path (c : Cis) (input on : Bool) : Cis := if input = (c.role == .peripheral) then { c with pathC := on } else { c with pathP := on }

/-- What an accepted command does. What it does to groups and their streams is C26, C27 and C29's. -/
def Accepted (s : State) : Cmd → State → List Out → Prop
  | .setCig k _ _ _ _ _ _, _, outs => ∃ hs, outs = [.event (.setCigComplete 0 k hs)]
  | .setCigTest k _ _ _ _ _ _ _, _, outs => ∃ hs, outs = [.event (.setCigTestComplete 0 k hs)]
  | .removeCig k, s', outs =>
    s' = { s with cigs := s.cigs.filter (fun e => e.1 ≠ k), cisConfigs := s.cisConfigs.filter (fun e => e.1.1 ≠ k), cises := s.cises.filter (fun c => ¬(c.role = .central ∧ c.cigId = k)) } ∧
      outs = [.event (.removeCigComplete 0 k)]
  | .createCis cs, _, outs => match cs with
    | [] => outs = [.event (.createCisStatus 0)]
    | (h, acl) :: _ => ∃ q c, outs = [.llcp acl (.cisReq q), .event (.createCisStatus 0)] ∧ s.cis h = some c ∧ q.cigId = c.cigId ∧ q.cisId = c.cisId
  | .acceptCis h, s', outs => ∃ c acl, s.cis h = some c ∧ c.acl = some acl ∧ s' = s.change h (fun c => { c with state := .pendingInd }) ∧
      outs = [.llcp acl .cisRsp, .event (.acceptCisStatus 0)]
  | .rejectCis h reason, s', outs => ∃ c acl, s.cis h = some c ∧ c.acl = some acl ∧ s' = s.drop h ∧
      outs = [.llcp acl (.rejectExtInd 31 (if reason = 0 then 0x13 else reason)), .event (.rejectCisComplete 0 h)]
  | .setupPath h dir _ _, s', outs => outs = [.event (.setupPathComplete 0 h)] ∧
      ((s.cis h).isSome → s' = s.change h (fun c => c.path (dir == .input) true)) ∧
      (s.cis h = none → s' = { s with bises := s.bises.map (fun b => if b.handle = h then { b with dataPath := true } else b) })
  | .removePath h input output, s', outs => outs = [.event (.removePathComplete 0 h)] ∧
      ((s.cis h).isSome → s' = s.change h (fun c =>
        let c := if input then c.path true false else c
        if output then c.path false false else c)) ∧
      (s.cis h = none → s' = { s with bises := s.bises.map (fun b => if b.handle = h ∧ input then { b with dataPath := false } else b) })
  | .disconnect h reason, s', outs => ∃ c acl, s.cis h = some c ∧ c.acl = some acl ∧
      s' = (if c.role = .central then s.change h (fun c => { c with state := .configuration }) else s.drop h) ∧
      outs = [.llcp acl (.terminateInd c.cigId c.cisId reason), .event (.disconnectStatus 0), .event (.disconnectionComplete h 0x16)]
  | .createBig b _ n _ _ _ _, _, outs => ∃ hs, hs.length = n ∧ outs = [.event (.createBigStatus 0), .event (.createBigComplete b hs)]
  | .terminateBig b reason, s', outs =>
    s' = { s with bigs := s.bigs.filter (fun x => x.bigHandle ≠ b), bises := s.bises.filter (fun x => x.bigHandle ≠ b) } ∧
      outs = [.event (.terminateBigStatus 0), .event (.terminateBigComplete b reason)]
  | .malformed, _, _ => False

/-- The error codes that have a name, packets/hci_packets.pdl:919-969. -/
def known : List Nat :=
  [0x00, 0x01, 0x02, 0x03, 0x04, 0x05, 0x06, 0x07, 0x08, 0x09, 0x0A, 0x0B, 0x0C, 0x0D, 0x0E, 0x0F, 0x10, 0x11, 0x12, 0x13, 0x14, 0x15, 0x16,
    0x17, 0x18, 0x19, 0x1A, 0x1B, 0x1C, 0x1D, 0x1E, 0x1F, 0x20, 0x21, 0x22, 0x23, 0x25, 0x2F, 0x35, 0x38, 0x3A, 0x3C, 0x3E, 0x42, 0x43, 0x44,
    0x45, 0x48, 0xFF]

/-- The event of a stream that could not be established: every parameter is zero. -/
def notEstablished (code h : Nat) : Out :=
  .event (.cisEstablished { status := code, handle := h, cigSyncDelay := 0, cisSyncDelay := 0, latencyC := 0, latencyP := 0, phyC := 0, phyP := 0, nse := 0, bnC := 0, bnP := 0, ftC := 0, ftP := 0, maxPduC := 0, maxPduP := 0, isoInterval := 0 })

/-- What the host is told of a stream whose connection is lost. -/
def lost (code : Nat) (c : Cis) : List Out :=
  match c.state with
  | .connected => [.event (.disconnectionComplete c.handle code)]
  | .pendingRsp | .pendingInd => [notEstablished code c.handle]
  | .configuration | .pendingAccept => []

/-- The burst number of a direction: as configured, or as many PDUs of 251 octets as the largest SDU needs. -/
def burst (configured : Option Nat) (sdu : Nat) : Nat := configured.getD ((sdu + 250) / 251)

/-- The PHY chosen from a mask: LE 2M, or else LE 1M, or else LE Coded. -/
def preferred (mask : Nat) : Nat := if mask / 2 % 2 = 1 then 2 else if mask % 2 = 1 then 1 else 4

/-- The number of subevents. -/
def subevents (c : CisConfig) : Nat := c.nse.getD (max (burst c.bnC c.maxSduC) (burst c.bnP c.maxSduP))

/-- The request for a stream. -/
def request (k i : Nat) (g : CigConfig) (c : CisConfig) : CisReq :=
  { cigId := k, cisId := i, phyC := preferred c.phyC, phyP := preferred c.phyP, framed := if g.framed then 1 else 0,
    maxSduC := c.maxSduC, maxSduP := c.maxSduP, sduIntervalC := g.sduIntervalC, sduIntervalP := g.sduIntervalP,
    maxPduC := c.maxPduC.getD 251, maxPduP := c.maxPduP.getD 251, nse := subevents c, subInterval := g.isoInterval * 1250 / subevents c,
    bnC := burst c.bnC c.maxSduC, bnP := burst c.bnP c.maxSduP, ftC := g.ftC, ftP := g.ftP, isoInterval := g.isoInterval }

/-- The request can be sent: there is a PHY and a subevent, and the fields are wide enough. -/
def Fits (g : CigConfig) (c : CisConfig) : Prop :=
  c.phyC ∈ [1, 2, 3, 4, 5, 6, 7] ∧ c.phyP ∈ [1, 2, 3, 4, 5, 6, 7] ∧ subevents c ≠ 0 ∧ c.maxSduC < 4096 ∧ c.maxSduP < 4096 ∧
    g.sduIntervalC < 1048576 ∧ g.sduIntervalP < 1048576 ∧ g.isoInterval * 1250 / subevents c < 16777216 ∧
    burst c.bnC c.maxSduC < 16 ∧ burst c.bnP c.maxSduP < 16

/-- The time from the start of an event until the data are out, in microseconds, before the SDU interval is taken into account. -/
def sent (p : CisParameters) (ft : Nat) : Nat := p.cigSyncDelay + ft * p.isoInterval * 1250

/-- The transport latency of a direction, in microseconds: with framing the SDU interval comes on top, without it is included. -/
def latency (p : CisParameters) (ft sdu : Nat) : Int := if p.framed then (sent p ft : Int) + sdu else (sent p ft : Int) - sdu

/-- The code of a PHY in an event. -/
def phyCode (phy : Nat) : Nat := if phy = 4 then 3 else phy

/-- The parameters of a stream fit the event that reports it: the PHYs are single ones, the latencies can be computed in 32 bits, and
the fields of 24 and 4 bits are wide enough. -/
def Reportable (p : CisParameters) : Prop :=
  p.phyC ∈ [1, 2, 4] ∧ p.phyP ∈ [1, 2, 4] ∧ sent p p.ftC < 4294967296 ∧ sent p p.ftP < 4294967296 ∧
    0 ≤ latency p p.ftC p.sduIntervalC ∧ latency p p.ftC p.sduIntervalC < 16777216 ∧
    0 ≤ latency p p.ftP p.sduIntervalP ∧ latency p p.ftP p.sduIntervalP < 16777216 ∧
    p.cigSyncDelay < 16777216 ∧ p.cisSyncDelay < 16777216 ∧ p.bnC < 16 ∧ p.bnP < 16

/-- The event that reports a stream to the central. -/
def report (h : Nat) (p : CisParameters) : Established :=
  { status := 0, handle := h, cigSyncDelay := p.cigSyncDelay, cisSyncDelay := p.cisSyncDelay,
    latencyC := (latency p p.ftC p.sduIntervalC).toNat, latencyP := (latency p p.ftP p.sduIntervalP).toNat,
    phyC := phyCode p.phyC, phyP := phyCode p.phyP, nse := p.nse, bnC := p.bnC, bnP := p.bnP, ftC := p.ftC, ftP := p.ftP,
    maxPduC := p.maxPduC % 256, maxPduP := p.maxPduP % 256, isoInterval := p.isoInterval }

/-- The event that reports it to the peripheral: three pairs of fields are exchanged (C30). -/
def reportPeripheral (h : Nat) (p : CisParameters) : Established :=
  { report h p with bnC := p.bnP, bnP := p.bnC, ftC := p.ftP, ftP := p.ftC, maxPduC := p.maxPduP % 256, maxPduP := p.maxPduC % 256 }

end Verif.Iso
