import Verif.Br.Model
/-!
# The commands about a connection

The commands that name a connection and that the other components leave out: link policy, role, hold and sniff mode,
quality of service, RSSI, key size, packet types, data length and transmit power, and the out of band data. They act on the
controller of the `Br` component, to which the LE connections and the RSSI are added.
-/
namespace Verif.Pol
open Verif.Br (Ctl Cmd Ev Act Pkt Res Role)
open Verif.Conn (Table find erase)

/-- The part of `LeAclConnection` these commands use, le_acl_connection.h. -/
structure Le where
  rssi : Nat
  tx : Nat
  rx : Nat
  deriving DecidableEq, Repr

/-- The controller. `rssi`: `AclConnection::rssi_` (acl_connection.h:73) of the connections that have received data, by
handle; the byte of the `int8_t`. `oob`: `oob_id_`, bredr_controller.h:416. -/
structure P where
  c : Ctl
  rssi : Table Nat
  le : Table Le
  oob : Nat
  deriving DecidableEq, Repr

/-- After construction. -/
def P.fresh (c : Ctl) : P := ⟨c, [], [], 1⟩

/-- The commands: those of `Br`, and the ones of this file. The fields are numbers as in the packet. -/
inductive PCmd
  | base (c : Cmd)
  | packetType (h types : Nat)
  | changeKey (h : Nat)
  | centralKey (flag : Nat)
  | hold (h max min : Nat)
  | sniff (h max min attempt timeout : Nat)
  | exitSniff (h : Nat)
  | qos (h service rate bandwidth latency variation : Nat)
  | role (h : Nat)
  | readPolicy (h : Nat)
  | readDefault
  | flow (h direction service rate bucket bandwidth latency : Nat)
  | subrating (h latency remote loc : Nat)
  | readRssi (h : Nat)
  | keySize (h : Nat)
  | supervision (h timeout : Nat)
  | oob
  | oobExtended
  | lePhy (h : Nat)
  | leDataLength (h octets time : Nat)
  | lePower (h phy : Nat)
  | leReporting (h loc remote : Nat)
  deriving DecidableEq, Repr

/-- What the Command Complete or Command Status event says: the status and the values. -/
structure Reply where
  status : Nat
  vals : List Nat
  deriving DecidableEq, Repr

/-- The events: those of `Br`, and the ones of this file. -/
inductive PEv
  | base (e : Ev)
  | packetType (status h types : Nat)
  | qos (status h service rate bandwidth latency variation : Nat)
  | power (status h phy : Nat)
  deriving DecidableEq, Repr

/-- The result of a step. -/
structure Out where
  p : P
  reply : Reply
  out : List (Nat × Pkt)
  ev : List PEv
  deriving DecidableEq, Repr

/-- A command that only answers. -/
def say (p : P) (st : Nat) (vals : List Nat) : Option Out := some ⟨p, ⟨st, vals⟩, [], []⟩

/-- `if (!connections_.HasAclHandle(handle)) return UNKNOWN_CONNECTION`, then `k`. `vals`: what the reply holds in the case of
an error, besides the status. -/
def onAcl (p : P) (h : Nat) (vals : List Nat) (k : Br.Acl → Option Out) : Option Out :=
  match find p.c.acl h with
  | none => say p 0x02 vals
  | some c => k c

/-- The same for `HasLeAclHandle`. -/
def onLe (p : P) (h : Nat) (vals : List Nat) (k : Le → Option Out) : Option Out :=
  match find p.le h with
  | none => say p 0x02 vals
  | some c => k c

/-- `Role` in packets: hci_packets.pdl. -/
def roleCode : Role → Nat
  | .central => 0
  | .peripheral => 1

/-- ChangeConnectionPacketType, bredr_controller.cc:357-371. The task of the event has no delay. -/
def packetType (p : P) (h types : Nat) : Option Out :=
  onAcl p h [] fun _ => some ⟨p, ⟨0, []⟩, [], if Br.unmasked p.c 0x1d then [.packetType 0 h types] else []⟩

/-- HoldMode, bredr_controller.cc:851-863. -/
def hold (p : P) (h max min : Nat) : Option Out :=
  onAcl p h [] fun _ => if max < min then say p 0x12 [] else say p 0x0c []

/-- SniffMode, bredr_controller.cc:866-880. -/
def sniff (p : P) (h max min attempt timeout : Nat) : Option Out :=
  onAcl p h [] fun _ =>
    if max < min ∨ attempt < 0x0001 ∨ attempt > 0x7FFF ∨ timeout > 0x7FFF then say p 0x12 [] else say p 0x0c []

/-- `x == 0 || x == 0xffffffff ? d : x`, bredr_controller.cc:916-924. -/
def selected (x d : Nat) : Nat := if x = 0 ∨ x = 0xffffffff then d else x

/-- QosSetup, bredr_controller.cc:893-936. -/
def qos (p : P) (h service rate bandwidth latency variation : Nat) : Option Out :=
  onAcl p h [] fun _ =>
    if service > 0x02 then say p 0x12 []
    else
      some ⟨p, ⟨0, []⟩, [],
        if Br.unmasked p.c 0x0d then
          [.qos 0 h service (selected rate 100000) (selected bandwidth 200000) (selected latency 50000) (selected variation 10000)]
        else []⟩

/-- FlowSpecification, bredr_controller.cc:1037-1052. -/
def flow (p : P) (h direction service : Nat) : Option Out :=
  onAcl p h [] fun _ => if direction > 0x01 ∨ service > 0x02 then say p 0x12 [] else say p 0x0c []

/-- SniffSubrating, bredr_controller.cc:1055-1068; the reply holds the handle (dual_mode_controller.cc:1106-1119). -/
def subrating (p : P) (h latency remote loc : Nat) : Option Out :=
  onAcl p h [h] fun _ =>
    if latency < 0x2 ∨ latency > 0xfffe ∨ remote > 0xfffe ∨ loc > 0xfffe then say p 0x12 [h] else say p 0 [h]

/-- ReadRssi, dual_mode_controller.cc:378-395, with the ranges of connection_handle.h:57-72. -/
def readRssi (p : P) (h : Nat) : Option Out :=
  if h ≤ 0xff then onAcl p h [h, 0] fun _ => say p 0 [h, (find p.rssi h).getD 0]
  else if 0x200 ≤ h ∧ h ≤ 0x2ff then onLe p h [h, 0] fun c => say p 0 [h, c.rssi]
  else say p 0x02 [h, 0]

/-- The bytes of one array of out of band data, bredr_controller.cc:1153-1185: a text and two bytes of the counter. -/
def oobBytes (prefix_ : List Nat) (id : Nat) : List Nat := prefix_ ++ [id % 0x10000 / 256, id % 0x100]

/-- `c array 000000`, `r array 000000` and the four of ReadLocalOobExtendedData, as bytes; bredr_controller.cc:1154-1183. -/
def cText : List Nat := [0x63, 0x20, 0x61, 0x72, 0x72, 0x61, 0x79, 0x20, 0x30, 0x30, 0x30, 0x30, 0x30, 0x30]
def rText : List Nat := [0x72, 0x20, 0x61, 0x72, 0x72, 0x61, 0x79, 0x20, 0x30, 0x30, 0x30, 0x30, 0x30, 0x30]
def c192Text : List Nat := [0x63, 0x20, 0x61, 0x72, 0x72, 0x61, 0x79, 0x20, 0x31, 0x39, 0x32, 0x30, 0x30, 0x30]
def r192Text : List Nat := [0x72, 0x20, 0x61, 0x72, 0x72, 0x61, 0x79, 0x20, 0x31, 0x39, 0x32, 0x30, 0x30, 0x30]
def c256Text : List Nat := [0x63, 0x20, 0x61, 0x72, 0x72, 0x61, 0x79, 0x20, 0x32, 0x35, 0x36, 0x30, 0x30, 0x30]
def r256Text : List Nat := [0x72, 0x20, 0x61, 0x72, 0x72, 0x61, 0x79, 0x20, 0x32, 0x35, 0x36, 0x30, 0x30, 0x30]

/-- `oob_id_ += 1` on a `uint32_t`. -/
def nextOob (id : Nat) : Nat := (id + 1) % 0x100000000

/-- ReadLocalOobData, bredr_controller.cc:1153-1162. -/
def oob (p : P) : Option Out :=
  some ⟨{ p with oob := nextOob p.oob }, ⟨0, oobBytes cText p.oob ++ oobBytes rText p.oob⟩, [], []⟩

/-- ReadLocalOobExtendedData, bredr_controller.cc:1165-1185. -/
def oobExtended (p : P) : Option Out :=
  some ⟨{ p with oob := nextOob p.oob },
    ⟨0, oobBytes c192Text p.oob ++ oobBytes r192Text p.oob ++ oobBytes c256Text p.oob ++ oobBytes r256Text p.oob⟩, [], []⟩

/-- LeSetDataLength, le_controller.cc:644-672: the values are checked and forgotten. -/
def leDataLength (p : P) (h octets time : Nat) : Option Out :=
  onLe p h [h] fun _ =>
    if octets < 0x001B ∨ octets > 0x00FB then say p 0x12 [h]
    else if time < 0x0148 ∨ time > 0x4290 then say p 0x12 [h]
    else say p 0 [h]

/-- LeReadRemoteTransmitPowerLevel, le_controller.cc:1933-1957: the event is sent whatever the event masks, and its power is
always -30 dBm, with no flag and an unknown delta. -/
def lePower (p : P) (h phy : Nat) : Option Out :=
  onLe p h [] fun _ => some ⟨p, ⟨0, []⟩, [], [.power 0 h phy]⟩

/-- The RSSI of the connections after a step of the rest of the controller: a connection that is gone is forgotten, and ACL
data from a peer is noted (IncomingAclPacket, bredr_controller.cc:1485-1493). -/
def rssiAfter (p : P) (c' : Ctl) : Act → Table Nat
  | .packet src dst rssi (.acl _ _ _) =>
    if dst ≠ 0 ∧ dst ≠ p.c.addr then p.rssi
    else
      match Br.aclOf p.c src with
      | none => p.rssi
      | some (h, _) => (h, rssi) :: erase p.rssi h
  | _ => p.rssi.filter (fun e => (find c'.acl e.1).isSome)

/-- A step of the rest of the controller. Reset drops the LE connections (le_controller.cc, `Reset`) and restarts the counter
(bredr_controller.cc:1108). -/
def rest (p : P) (now : Nat) (a : Act) : Option Out :=
  match Br.step p.c now a with
  | .ok st c' out ev =>
    some ⟨⟨c', rssiAfter p c' a, if a = .cmd .reset then [] else p.le, if a = .cmd .reset then 1 else p.oob⟩, ⟨st, []⟩, out, ev.map .base⟩
  | _ => none

/-- What the controller does for a command. CentralLinkKey: bredr_controller.cc:2132-2135; ChangeConnectionLinkKey: 374-381;
ExitSniffMode: 883-890; RoleDiscovery: 939-946; ReadLinkPolicySettings: 994-1002; ReadDefaultLinkPolicySettings: 1020-1024;
ReadEncryptionKeySize: 1204-1214; WriteLinkSupervisionTimeout: 2201-2206; LeReadPhy: le_controller.cc:393-405;
LeSetTransmitPowerReportingEnable: le_controller.cc:1960-1972. The values of a failed command: dual_mode_controller.cc. -/
def command (p : P) (now : Nat) : PCmd → Option Out
  | .base c => rest p now (.cmd c)
  | .packetType h t => packetType p h t
  | .changeKey h => onAcl p h [] fun _ => say p 0x0c []
  | .centralKey _ => say p 0x0c []
  | .hold h a b => hold p h a b
  | .sniff h a b c d => sniff p h a b c d
  | .exitSniff h => onAcl p h [] fun _ => say p 0x0c []
  | .qos h s a b c d => qos p h s a b c d
  | .role h => onAcl p h [h, 0] fun c => say p 0 [h, roleCode c.role]
  | .readPolicy h => onAcl p h [h, 0] fun c => say p 0 [h, c.policy]
  | .readDefault => say p 0 [p.c.policy]
  | .flow h d s _ _ _ _ => flow p h d s
  | .subrating h a b c => subrating p h a b c
  | .readRssi h => readRssi p h
  | .keySize h => onAcl p h [h, 0] fun _ => say p 0 [h, 16]
  | .supervision h _ => onAcl p h [h] fun _ => say p 0 [h]
  | .oob => oob p
  | .oobExtended => oobExtended p
  | .lePhy h => onLe p h [h, 0, 0] fun c => say p 0 [h, c.tx, c.rx]
  | .leDataLength h a b => leDataLength p h a b
  | .lePower h phy => lePower p h phy
  | .leReporting h _ _ => onLe p h [h] fun _ => say p 0 [h]

/-- What happens to the LE connections; the components `Ll` and `Link` say when. `data`: IncomingLeAclPacket,
le_controller.cc:4239-4262. -/
inductive LeAct
  | up (h tx rx : Nat)
  | down (h : Nat)
  | phys (h tx rx : Nat)
  | data (h rssi : Nat)
  deriving DecidableEq, Repr

/-- Their effect. A new connection has a handle that is free, in the range of connection_handle.h:69-72. -/
def leAfter (t : Table Le) : LeAct → Table Le
  | .up h tx rx => if 0x200 ≤ h ∧ h ≤ 0x2ff ∧ find t h = none then (h, ⟨0, tx, rx⟩) :: t else t
  | .down h => erase t h
  | .phys h tx rx => Br.update t h ⟨((find t h).map (·.rssi)).getD 0, tx, rx⟩
  | .data h rssi => Br.update t h ⟨rssi, ((find t h).map (·.tx)).getD 0, ((find t h).map (·.rx)).getD 0⟩

/-- What can happen: a command of the host, something in the BR/EDR controller, something to the LE connections. -/
inductive PAct
  | host (c : PCmd)
  | bredr (a : Act)
  | le (a : LeAct)
  deriving DecidableEq, Repr

/-- One step at time `now`; nothing if the controller failed. -/
def pstep (p : P) (now : Nat) : PAct → Option Out
  | .host c => command p now c
  | .bredr a => rest p now a
  | .le a => some ⟨{ p with le := leAfter p.le a }, ⟨0, []⟩, [], []⟩

/-- A step as it looks from outside. -/
structure PSeen where
  now : Nat
  act : PAct
  reply : Reply
  out : List (Nat × Pkt)
  ev : List PEv
  deriving DecidableEq, Repr

/-- A history: the state at its end, and what was seen. -/
def prun (p : P) : List (Nat × PAct) → Option (P × List PSeen)
  | [] => some (p, [])
  | (now, a) :: as =>
    match pstep p now a with
    | none => none
    | some o => (prun o.p as).map (fun r => (r.1, ⟨now, a, o.reply, o.out, o.ev⟩ :: r.2))

end Verif.Pol
