import Verif.Phy.Model
/-!
# The servers of the desktop program

Models `/repo/desktop/test_environment.cc` (100-259) with the parts of `/repo/net/posix/posix_async_socket_server.cc`,
`/repo/model/setup/test_model.cc`, `test_channel_transport.cc` and `test_command_handler.cc` that it puts together: who
accepts a client, on which thread, what is done for it, and what happens when it leaves.

Three threads are represented: the main thread in `TestEnvironment::initialize`, the thread of the descriptor watcher, and
the thread that runs the tasks. A piece of work of a thread has a beginning and an end, so that works of two threads can
overlap; two that overlap and use the same object, of which nothing is protected by a lock, are a data race.

Simplifications. All the servers could be opened. The tasks without delay run in the order in which they were scheduled
(C09). A client is named by its rank among those that connected. What the clients send is represented only for the test
channel, as commands already decoded (C42), and so is the end of the stream. A response to a client that has gone can abort
the process (C47); this is not represented again here. `add_remote`, `set_device_configuration` and the sniffers' files are
left out.
-/

namespace Verif.Env
open Verif.Phy (PhyType Op Config)
open Verif.Addr (Address)

abbrev Client := Nat

/-- The sockets that listen: one per controller of the configuration, the two for link-layer packets, the test channel. -/
inductive Port
  | hci (i : Nat)
  | link
  | ble
  | test
  deriving DecidableEq, Repr

/-- The commands of the test channel, test_command_handler.cc:41-54 and test_environment.cc:153. `other` stands for those
that only answer. -/
inductive Cmd
  | add (a : Address)
  | del (d : Nat)
  | addPhy (t : PhyType)
  | delPhy (p : Nat)
  | attach (d p : Nat)
  | detach (d p : Nat)
  | setAddress (d : Nat) (a : Address)
  | startTimer
  | stopTimer
  | reset
  | endSimulation
  | other
  deriving DecidableEq, Repr

/-- The steps of `initialize` (143-185), in the main thread: those of `SetUpTestChannel` (221-259) go through the command
handler. -/
inductive Boot
  | listen (p : Port)
  | command (c : Cmd)
  | sniffer
  deriving DecidableEq, Repr

/-- The tasks that are scheduled without delay. -/
inductive Task
  /-- lines 108-135: a controller for a client -/
  | hci (c : Client)
  /-- test_model.cc:181-182 and 209-210 -/
  | closed (d : Nat)
  /-- lines 151-158: a command a client has sent -/
  | command (c : Client) (k : Cmd)
  /-- test_model.cc:268-274 -/
  | clear
  deriving DecidableEq, Repr

/-- What a thread is in the middle of. `noticed`: the devices that find the end of their stream in this tick. -/
inductive Work
  | boot (b : Boot)
  | accept (p : Port) (c : Client)
  | task (t : Task)
  | tick (noticed : List Nat)
  deriving DecidableEq, Repr

inductive Thread | main | watcher | tasks
  deriving DecidableEq, Repr

/-- What the clients can observe. -/
inductive Out
  | accepted (p : Port) (c : Client)
  /-- the client has a controller, which is this device -/
  | controller (c : Client) (d : Nat)
  /-- the client is represented by this device on the phys of a type -/
  | joined (c : Client) (d : Nat) (t : PhyType)
  /-- "RegisterSendResponse called" -/
  | greeted (c : Client)
  /-- "The connection is broken" -/
  | refused (c : Client)
  /-- the answer to a command, the sender of the command, if it has one, and whom the answer goes to -/
  | answer (from_ : Option Client) (to : Client)
  | ended
  deriving DecidableEq, Repr

/-- A device that stands for a client, and whether it is a controller. -/
structure Sock where
  dev : Nat
  client : Client
  hci : Bool
  deriving DecidableEq, Repr

/-- The state. `ticking`: the periodic tasks that call Tick; `timer`: `timer_tick_task_` is the identifier of one of them.
`waiting`: the clients the kernel holds for `accept`. `gone`: the clients that have closed their end. `reading`: the clients
of the test channel whose commands are read. `answers`: `send_response_`. -/
structure Sys where
  model : Phy.Model
  boot : List Boot
  tasks : List Task
  ticking : Nat
  timer : Bool
  listening : List Port
  waiting : List (Port × Client)
  clients : Nat
  gone : List Client
  socks : List Sock
  testOpen : Bool
  reading : List Client
  answers : Option Client
  ended : Bool
  main : Option Work
  watcher : Option Work
  task : Option Work
  deriving DecidableEq, Repr

/-- What comes of an action. `hung`: the search for an address does not end (C12). -/
inductive Res
  | ok (s : Sys) (out : List Out)
  | race
  | hung
  | terminated
  | blocked
  deriving DecidableEq, Repr

/-- What can happen. `read` is a call of OnCommandReady (test_channel_transport.cc:46-92), in the watcher's thread, that
finds a command, or, with `none`, the request to close or the end of the stream. -/
inductive Act
  | connect (p : Port)
  | leave (c : Client)
  | boot
  | accept (p : Port)
  | read (c : Client) (k : Option Cmd)
  | task
  | tick (noticed : List Nat)
  | finish (t : Thread)
  deriving DecidableEq, Repr

/-- The addresses of test_environment.cc:247 and 249. -/
def beacon1 : Address := ⟨0x01, 0x00, 0x55, 0x01, 0xac, 0xbe⟩
def beacon2 : Address := ⟨0x02, 0x00, 0x55, 0x01, 0xac, 0xbe⟩

/-- `initialize`, lines 163-182, with SetUpTestChannel (221-259), SetUpLinkLayerServer and SetUpLinkBleLayerServer
(192-210), for `n` servers of controllers, and with or without `enable_baseband_sniffer_`. The period of the timer is not
represented. -/
def bootSteps (n : Nat) (sniffer : Bool) : List Boot :=
  [.listen .test, .command (.addPhy .brEdr), .command (.addPhy .lowEnergy), .command (.add beacon1),
    .command (.attach 0 1), .command (.add beacon2), .command (.attach 1 1), .command .startTimer, .listen .link,
    .listen .ble] ++ (List.range n).map (fun i => .listen (.hci i)) ++ (if sniffer then [.sniffer] else [])

/-- The program before `initialize`. -/
def Sys.init (n : Nat) (sniffer : Bool) : Sys :=
  ⟨Phy.Model.init, bootSteps n sniffer, [], 0, false, [], [], 0, [], [], false, [], none, false, none, none, none⟩

/-- The objects a work uses: the test model, and the command handler with its `send_response_`. -/
def usesModel : Work → Bool
  | .boot (.listen _) => false
  | .boot _ => true
  | .accept .link _ => true
  | .accept .ble _ => true
  | .accept _ _ => false
  | .task (.command _ .endSimulation) => false
  | .task _ => true
  | .tick _ => true

def usesHandler (s : Sys) : Work → Bool
  | .boot (.command _) => true
  | .boot _ => false
  | .accept .test _ => !s.testOpen
  | .accept _ _ => false
  | .task (.command _ k) => k ≠ .endSimulation
  | .task _ => false
  | .tick _ => false

/-- Two works that cannot overlap. -/
def clash (s : Sys) (v w : Work) : Bool := (usesModel v && usesModel w) || (usesHandler s v && usesHandler s w)

/-- The work of a thread. -/
def Sys.doing (s : Sys) : Thread → Option Work
  | .main => s.main
  | .watcher => s.watcher
  | .tasks => s.task

/-- The works of the threads. -/
def Sys.works (s : Sys) : List Work := s.main.toList ++ s.watcher.toList ++ s.task.toList

/-- A thread begins a work. -/
def begin_ (s : Sys) (t : Thread) (w : Work) (out : List Out) : Res :=
  if s.works.any (clash s w) then .race
  else match t with
    | .main => .ok { s with main := some w } out
    | .watcher => .ok { s with watcher := some w } out
    | .tasks => .ok { s with task := some w } out

/-- TestModel::AddHciConnection of a new HciDevice, lines 109-114 and test_model.cc:194-213. -/
def newController (cfg : Config) (m : Phy.Model) : Option Phy.Model :=
  Phy.run cfg m [.construct none, .addHci m.nextDev none]

/-- TestModel::AddLinkLayerConnection of a new device, test_model.cc:167-184. -/
def newLinkDevice (cfg : Config) (m : Phy.Model) (t : PhyType) : Option Phy.Model :=
  Phy.run cfg m [.construct none, .addLinkLayer m.nextDev t]

/-- What a command does to the devices and phys, test_command_handler.cc:100-262 with test_model.cc. -/
def Cmd.ops (m : Phy.Model) : Cmd → List Op
  | .add a => [.construct (some a), .addDevice m.nextDev]
  | .del d => [.removeDevice d]
  | .addPhy t => [.addPhy t]
  | .delPhy p => [.removePhy p]
  | .attach d p => [.addDeviceToPhy d p]
  | .detach d p => [.removeDeviceFromPhy d p]
  | .setAddress d a => [.setAddress d a]
  | _ => []

/-- TestModel::StopTimer, test_model.cc:78-82. -/
def stopTimer (s : Sys) : Sys := if s.timer then { s with ticking := s.ticking - 1, timer := false } else s

/-- TestModel::StartTimer, test_model.cc:72-76: the identifier of a timer that runs is overwritten. -/
def startTimer (s : Sys) : Sys := { s with ticking := s.ticking + 1, timer := true }

/-- The answer goes where `send_response_` says; before a client is there, nowhere (test_command_handler.cc:56). -/
def answer (s : Sys) (from_ : Option Client) : List Out :=
  match s.answers with
  | none => []
  | some c => [.answer from_ c]

/-- A command, TestCommandHandler::HandleCommand, test_command_handler.cc:85-92, on the main thread or in a task. -/
def command (cfg : Config) (s : Sys) (from_ : Option Client) (k : Cmd) : Res :=
  match Phy.run cfg s.model (k.ops s.model) with
  | none => .hung
  | some m =>
    let s := { s with model := m }
    let s := match k with
      | .startTimer => startTimer s
      | .stopTimer => stopTimer s
      | .reset => { stopTimer s with tasks := s.tasks ++ [.clear] }
      | _ => s
    .ok s (answer s from_)

/-- A task. A second END_SIMULATION sets the promise again (line 154): the exception ends the process. -/
def runTask (cfg : Config) (s : Sys) : Task → Res
  | .hci c =>
    match newController cfg s.model with
    | none => .hung
    | some m => .ok { s with model := m, socks := s.socks ++ [⟨s.model.nextDev, c, true⟩] } [.controller c s.model.nextDev]
  | .closed d =>
    if s.model.hasDev d then
      .ok { s with model := Phy.removeDevice s.model d, tasks := s.tasks.filter (· ≠ .closed d) } []
    else .ok s []
  | .command c .endSimulation => if s.ended then .terminated else .ok { s with ended := true } [.ended]
  | .command c k => command cfg s (some c) k
  | .clear =>
    match Phy.run cfg s.model [.reset] with
    | none => .hung
    | some m => .ok { s with model := m } []

/-- The link-layer servers, lines 192-210, on the thread of the watcher. -/
def acceptLink (cfg : Config) (s : Sys) (c : Client) (t : PhyType) : Res :=
  match newLinkDevice cfg s.model t with
  | none => .hung
  | some m => .ok { s with model := m, socks := s.socks ++ [⟨s.model.nextDev, c, false⟩] } [.joined c s.model.nextDev t]

/-- The callbacks of the servers, on the thread of the watcher: lines 101-141, 192-210 and 224-243, without StartListening. -/
def accept (cfg : Config) (s : Sys) (p : Port) (c : Client) : Res :=
  match p with
  | .hci _ => .ok { s with tasks := s.tasks ++ [.hci c] } []
  | .link => acceptLink cfg s c .brEdr
  | .ble => acceptLink cfg s c .lowEnergy
  | .test =>
    if s.testOpen then .ok s [.refused c]
    else .ok { s with testOpen := true, answers := some c, reading := s.reading ++ [c] } [.greeted c]

/-- What a work has done when it ends. -/
def effect (cfg : Config) (s : Sys) : Work → Res
  | .boot (.listen p) => .ok { s with listening := s.listening ++ [p] } []
  | .boot (.command k) => command cfg s none k
  | .boot .sniffer =>
    match newLinkDevice cfg s.model .brEdr with
    | none => .hung
    | some m => .ok { s with model := m } []
  | .accept p c =>
    match accept cfg s p c with
    | .ok s' out => .ok { s' with listening := s'.listening ++ [p] } out
    | r => r
  | .task t => runTask cfg s t
  | .tick noticed => .ok { s with tasks := s.tasks ++ noticed.map .closed } []

/-- The thread is free again. -/
def free (s : Sys) : Thread → Sys
  | .main => { s with main := none }
  | .watcher => { s with watcher := none }
  | .tasks => { s with task := none }

/-- The devices a tick (test_model.cc:260-264) can find at the end of their stream: those whose client has gone. -/
def deaf (s : Sys) (d : Nat) : Bool := s.socks.any (fun k => k.dev = d && s.model.hasDev d && k.client ∈ s.gone)

/-- Those it cannot miss: a controller reads all there is (h4_data_channel_packetizer.cc:62-92), a link-layer device one
packet per tick. -/
def mustNotice (s : Sys) (noticed : List Nat) : Bool :=
  s.socks.all (fun k => !(k.hci && s.model.hasDev k.dev && k.client ∈ s.gone) || k.dev ∈ noticed)

/-- One step. -/
def step (cfg : Config) (s : Sys) : Act → Res
  | .connect p => .ok { s with waiting := s.waiting ++ [(p, s.clients)], clients := s.clients + 1 } []
  | .leave c => if c < s.clients ∧ c ∉ s.gone then .ok { s with gone := s.gone ++ [c] } [] else .blocked
  | .boot =>
    match s.main, s.boot with
    | none, b :: bs => begin_ { s with boot := bs } .main (.boot b) []
    | _, _ => .blocked
  | .accept p =>
    if s.watcher = none ∧ p ∈ s.listening then
      match s.waiting.find? (fun e => e.1 = p) with
      | some e => begin_ { s with waiting := s.waiting.erase e, listening := s.listening.erase p } .watcher (.accept p e.2) [.accepted p e.2]
      | none => .blocked
    else .blocked
  | .read c k =>
    if s.watcher = none ∧ c ∈ s.reading then
      match k with
      | some k => .ok { s with tasks := s.tasks ++ [.command c k] } []
      | none => .ok { s with testOpen := false, reading := s.reading.erase c } []
    else .blocked
  | .task =>
    match s.task, s.tasks with
    | none, t :: ts => begin_ { s with tasks := ts } .tasks (.task t) []
    | _, _ => .blocked
  | .tick noticed =>
    if s.task = none ∧ 0 < s.ticking ∧ noticed.all (deaf s) ∧ mustNotice s noticed then begin_ s .tasks (.tick noticed) []
    else .blocked
  | .finish t =>
    match s.doing t with
    | some w => effect cfg (free s t) w
    | none => .blocked

/-- A history and what the clients observe. -/
def run (cfg : Config) (s : Sys) : List Act → Res
  | [] => .ok s []
  | a :: as =>
    match step cfg s a with
    | .ok s' out =>
      match run cfg s' as with
      | .ok s'' outs => .ok s'' (out ++ outs)
      | r => r
    | r => r

end Verif.Env
