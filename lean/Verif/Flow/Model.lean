import Verif.Pdl.Declared
/-!
# Data packets at the host controller interface

Models `HandleAcl`, `HandleSco` and the loopback of `HandleCommand` of `DualModeController`
(/repo/model/controller/dual_mode_controller.cc 135-191, 219-228), `HandleAcl` of the two controllers
(bredr_controller.cc 1915-1948, le_controller.cc 5398-5431), `SendScoToRemote` (bredr_controller.cc 1341-1358) and the
reception of data (bredr_controller.cc 1360-1387, 1469-1518, le_controller.cc 4092-4135, 4239-4265), octet for octet: packets
are read and written with the layouts of `Verif.Pdl`.

* When connections begin and end is an input (`links`): see `Verif.Br`, `Verif.Ll` and `Verif.Conn`.
* Of the commands only the effect on the loopback mode, the flow control of synchronous data and the connections is here; which
  commands are answered and how is in `Verif.Hci`. The command is one that the controller supports, and the quirk that
  asks for a Reset first is off.
* Tasks scheduled without delay are run by the next tick, in the order in which they were scheduled (see `Verif.Task`); only
  the tasks that report completed packets are here.
* Link timers, RSSI values and transmission powers are not here.
-/
namespace Verif.Flow
open Pdl

/-- `Acl` and `Sco` of packets/hci_packets.pdl 23-29, 40-46. -/
def hciAcl : Packet := ⟨"Acl", [⟨Hci.bodyAcl, []⟩]⟩
def hciSco : Packet := ⟨"Sco", [⟨Hci.bodySco, []⟩]⟩
/-- `Command` of packets/hci_packets.pdl 768. -/
def hciCommand : Packet := ⟨"Command", [⟨Hci.bodyCommand, []⟩]⟩
/-- `NumberOfCompletedPackets` and `LoopbackCommand` of packets/hci_packets.pdl 5533-5542, 5574. -/
def completed : Packet := ⟨"NumberOfCompletedPackets", [⟨Hci.bodyEvent, [(0, 19)]⟩, ⟨Hci.bodyNumberOfCompletedPackets, []⟩]⟩
def loopbackCommand : Packet := ⟨"LoopbackCommand", [⟨Hci.bodyEvent, [(0, 25)]⟩, ⟨Hci.bodyLoopbackCommand, []⟩]⟩
/-- `LinkLayerPacket`, `Acl` and `Sco` of packets/link_layer_packets.pdl 80-95. -/
def airPacket : Packet := ⟨"LinkLayerPacket", [⟨LinkLayer.bodyLinkLayerPacket, []⟩]⟩
def airAcl : Packet := ⟨"Acl", [⟨LinkLayer.bodyLinkLayerPacket, [(0, 1)]⟩, ⟨LinkLayer.bodyAcl, []⟩]⟩
def airSco : Packet := ⟨"Sco", [⟨LinkLayer.bodyLinkLayerPacket, [(0, 2)]⟩, ⟨LinkLayer.bodySco, []⟩]⟩

/-- The values of an array of octets. -/
def values (l : List Nat) : List (Fmt.uint 8 .done).T := l.map (fun x => (x, ()))
def octetsOf (l : List (Fmt.uint 8 .done).T) : List Nat := l.map (fun x => x.1)

/-- Number Of Completed Packets with one packet of one connection (dual_mode_controller.cc 146-151, 164-166). -/
def credit (h : Nat) : List Nat := serialize completed ((19, ()), ([(h, 1, ())], ()), ()) []

/-- The members that matter: the address (device.h), `loopback_mode_` (dual_mode_controller.h 626), `sco_flow_control_enable_`
(bredr_controller.h 372), the connections of the two handlers with the peer, for LE with the own address before it, and the
reports that wait in the task queues of the BR/EDR and the LE controller. -/
structure Ctl where
  addr : Nat
  loopback : Nat
  scoFlow : Bool
  acl : List (Nat × Nat)
  sco : List (Nat × Nat)
  le : List (Nat × Nat × Nat)
  brTasks : List Nat
  leTasks : List Nat
  deriving DecidableEq, Repr

/-- What the controller hands out: ACL and SCO data and events to the host, packets to the BR/EDR or the LE phy, or a report of
an invalid packet (dual_mode_controller.h 607-616; the handler installed by default aborts). -/
inductive Out where
  | acl (l : List Nat)
  | sco (l : List Nat)
  | event (l : List Nat)
  | brAir (l : List Nat)
  | leAir (l : List Nat)
  | invalid
  deriving DecidableEq, Repr

/-- `IsAclConnectionHandle`, `IsLeAclConnectionHandle`, connection_handle.h 56-72. -/
def isAclHandle (h : Nat) : Bool := h ≤ 0x0ff
def isLeHandle (h : Nat) : Bool := 0x200 ≤ h && h ≤ 0x2ff

/-- `BrEdrController::HandleAcl`, bredr_controller.cc 1915-1948; `none` is `FATAL`. -/
def brHandleAcl (c : Ctl) (h pb bc : Nat) (data : List Nat) : Option (Ctl × List Out) :=
  if bc ≠ 0 then none
  else
    let c' := { c with brTasks := c.brTasks ++ [h] }
    match c.acl.find? (fun e => e.1 = h) with
    | some e => some (c', [.brAir (serialize airAcl ((1, c.addr, e.2, ()), (pb, bc, values data, ()), ()) [])])
    | none => some (c', [])

/-- `LeController::HandleAcl`, le_controller.cc 5398-5431. -/
def leHandleAcl (c : Ctl) (h pb bc : Nat) (data : List Nat) : Option (Ctl × List Out) :=
  if bc ≠ 0 then none
  else
    let c' := { c with leTasks := c.leTasks ++ [h] }
    match c.le.find? (fun e => e.1 = h) with
    | some e => some (c', [.leAir (serialize airAcl ((1, e.2.1, e.2.2, ()), (pb, bc, values data, ()), ()) [])])
    | none => some (c', [])

/-- `DualModeController::HandleAcl`, dual_mode_controller.cc 135-167. -/
def handleAcl (c : Ctl) (l : List Nat) : Option (Ctl × List Out) :=
  match parse hciAcl l with
  | none => some (c, [.invalid])
  | some (((h, pb, bc, ()), ()), data) =>
    if c.loopback = 1 then
      some (c, [.acl (serialize hciAcl ((h, pb, bc, ()), ()) data), .event (credit h)])
    else if isAclHandle h then brHandleAcl c h pb bc data
    else if isLeHandle h then leHandleAcl c h pb bc data
    else some (c, [.event (credit h)])

/-- `SendScoToRemote`, bredr_controller.cc 1341-1358. -/
def sendSco (c : Ctl) (h : Nat) (data : List Nat) : List Out :=
  match c.sco.find? (fun e => e.1 = h) with
  | none => []
  | some e => [.brAir (serialize airSco ((2, c.addr, e.2, ()), (), ()) data)]

/-- `DualModeController::HandleSco`, dual_mode_controller.cc 169-191. -/
def handleSco (c : Ctl) (l : List Nat) : Ctl × List Out :=
  match parse hciSco l with
  | none => (c, [.invalid])
  | some (((h, status, data, ()), ()), _) =>
    if c.loopback = 1 then
      (c, .sco (serialize hciSco ((h, status, data, ()), ()) []) :: if c.scoFlow then [.event (credit h)] else [])
    else (c, sendSco c h (octetsOf data))

/-- The commands that are executed in the local loopback mode: Reset, Set Controller To Host Flow Control, Host Buffer Size, Host
Number Of Completed Packets, Read Buffer Size, Read and Write Loopback Mode (dual_mode_controller.cc 221-225). -/
def executed (op : Nat) : Bool :=
  op == 0x0c03 || op == 0x0c31 || op == 0x0c33 || op == 0x0c35 || op == 0x1005 || op == 0x1801 || op == 0x1802

/-- What a command that is executed changes: Reset (dual_mode_controller.cc 319-331, bredr_controller.cc 1075-1122,
le_controller.cc 6577-6624; the task queues are not emptied; the packets that tell the peers are in `Verif.Br` and
`Verif.Ll`), Write Loopback Mode (3487-3508) and Write Synchronous Flow Control Enable (1408-1420). -/
def execute (c : Ctl) (op : Nat) (parameters : List Nat) : Ctl × List Out :=
  if op = 0x0c03 then ({ c with loopback := 0, scoFlow := false, acl := [], sco := [], le := [] }, [])
  else if op = 0x1802 then
    match parameters with
    | [] => (c, [.invalid])
    | m :: _ => ({ c with loopback := m }, [])
  else if op = 0x0c2f then
    match parameters with
    | [] => (c, [.invalid])
    | m :: _ => ({ c with scoFlow := m = 1 }, [])
  else (c, [])

/-- `HandleCommand` as far as it matters here, dual_mode_controller.cc 199-228. -/
def handleCommand (c : Ctl) (l : List Nat) : Ctl × List Out :=
  match parse hciCommand l with
  | none => (c, [.invalid])
  | some (((op, ()), ()), parameters) =>
    if c.loopback = 1 ∧ executed op = false then (c, [.event (serialize loopbackCommand ((25, ()), (), ()) l)])
    else execute c op parameters

/-- A first fragment that is not flushable arrives as a flushable one (bredr_controller.cc 1478-1481, le_controller.cc
4248-4251). -/
def arriving (pb : Nat) : Nat := if pb = 0 then 2 else pb

/-- `BrEdrController::IncomingPacket`, `IncomingAclPacket` and `IncomingScoPacket` (bredr_controller.cc 1360-1387, 1469-1518)
for data; other packets have no output here. `none` is a failed `ASSERT`. -/
def brReceive (c : Ctl) (l : List Nat) : Option (List Out) :=
  match parse airPacket l with
  | none => none
  | some (((type, src, dst, ()), ()), _) =>
    if dst ≠ 0 ∧ dst ≠ c.addr then some []
    else if type = 1 then
      match parse airAcl l with
      | none => none
      | some ((_, (pb, bc, data, ()), ()), _) =>
        match c.acl.find? (fun e => e.2 = src) with
        | none => some []
        | some e => some [.acl (serialize hciAcl ((e.1, arriving pb, bc, ()), ()) (octetsOf data))]
    else if type = 2 then
      match c.sco.find? (fun e => e.2 = src) with
      | none => some []
      | some e =>
        match parse airSco l with
        | none => none
        | some (_, data) => some [.sco (serialize hciSco ((e.1, 0, values data, ()), ()) [])]
    else some []

/-- `LeController::IncomingPacket` and `IncomingLeAclPacket` (le_controller.cc 4092-4135, 4239-4265) for data. -/
def leReceive (c : Ctl) (l : List Nat) : Option (List Out) :=
  match parse airPacket l with
  | none => none
  | some (((type, src, dst, ()), ()), _) =>
    if type = 1 then
      match c.le.find? (fun e => e.2 = (dst, src)) with
      | none => some []
      | some e =>
        match parse airAcl l with
        | none => none
        | some ((_, (pb, bc, data, ()), ()), _) =>
          some [.acl (serialize hciAcl ((e.1, arriving pb, bc, ()), ()) (octetsOf data))]
    else some []

/-- What happens to a controller. -/
inductive In where
  /-- the host hands over ACL data, SCO data or a command -/
  | acl (l : List Nat)
  | sco (l : List Nat)
  | command (l : List Nat)
  /-- a packet arrives over the air -/
  | brAir (l : List Nat)
  | leAir (l : List Nat)
  /-- connections begin and end -/
  | links (acl sco : List (Nat × Nat)) (le : List (Nat × Nat × Nat))
  /-- `Tick`, dual_mode_controller.cc 88-91: the BR/EDR controller first -/
  | tick
  deriving DecidableEq, Repr

/-- One step. -/
def step (c : Ctl) : In → Option (Ctl × List Out)
  | .acl l => handleAcl c l
  | .sco l => some (handleSco c l)
  | .command l => some (handleCommand c l)
  | .brAir l => (brReceive c l).map (c, ·)
  | .leAir l => (leReceive c l).map (c, ·)
  | .links acl sco le => some ({ c with acl := acl, sco := sco, le := le }, [])
  | .tick => some ({ c with brTasks := [], leTasks := [] }, (c.brTasks ++ c.leTasks).map (fun h => .event (credit h)))

/-- A history: the state and everything that was handed out. -/
def run (c : Ctl) : List In → Option (Ctl × List Out)
  | [] => some (c, [])
  | i :: is => match step c i with
    | none => none
    | some (c', o) => match run c' is with
      | none => none
      | some (c'', o') => some (c'', o ++ o')

/-- After construction. -/
def fresh (addr : Nat) : Ctl := ⟨addr, 0, false, [], [], [], [], []⟩

end Verif.Flow
