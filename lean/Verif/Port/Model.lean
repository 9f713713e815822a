import Verif.H4.Model
import Verif.Pcap.Model
/-!
# The HCI port

A host is connected to a controller by a socket: model/hci/hci_socket_transport.cc with h4_data_channel_packetizer.cc and the
parser of `H4`; model/hci/hci_sniffer.cc, which writes a trace of the packets, with include/pcap.h and the filter of `Pcap`;
model/devices/hci_device.cc, which connects the controller to the transport; and AddHciConnection and OnConnectionClosed of
model/setup/test_model.cc.

Simplifications.
* The controller is any function of its state (`Ctl`): what it sends while it handles a packet is sent after it has handled it.
* The socket is described by what each call to it returns: the octets of each read, and for each write the number of octets
  taken (`Net.room`; an error takes none), and whether the socket is found connected before it (`Net.alive`).
* `none` is a call of `FATAL` or `ASSERT(false)`: the process ends.
-/
namespace Verif.Port

open H4 (Kind Parser)

abbrev Bytes := List UInt8

/-- A packet and its type. -/
abbrev Msg := Kind × Bytes

/-- The direction of a packet, hci_sniffer.h:32-35. -/
inductive Dir where
  | hostToController | controllerToHost
  deriving DecidableEq, Repr

/-- What a controller does: with a packet of the host, at a tick, and when it is closed. The result is the new state and the
packets for the host; `none` if it aborts. -/
structure Ctl (σ : Type) where
  handle : σ → Kind → Bytes → Option (σ × List Msg)
  tick : σ → Option (σ × List Msg)
  close : σ → Option (σ × List Msg)

/-- What the outside does: whether the socket is found connected the nth time, how many octets the nth write takes, and the time
(in microseconds since 1970) of the nth record. -/
structure Net where
  alive : Nat → Bool
  room : Nat → Nat
  clock : Nat → Nat

/-- The members of `HciSniffer` that matter: what has been written to the file, and the filter with its names. `count` is the
number of records. -/
structure Trace where
  file : Bytes
  filter : Option Pcap.Names
  count : Nat
  deriving DecidableEq, Repr

/-- `PacketType`, h4.h:24-31. -/
def idc : Kind → UInt8
  | .command => 1
  | .acl => 2
  | .sco => 3
  | .event => 4
  | .iso => 5

/-- The direction octet, hci_sniffer.h:32-35. -/
def Dir.octet : Dir → UInt8
  | .hostToController => 0
  | .controllerToHost => 1

/-- An unsigned integer of `n` octets, as it is in the memory of a little endian machine. -/
def le : Nat → Nat → Bytes
  | 0, _ => []
  | n + 1, x => UInt8.ofNat (x % 256) :: le n (x / 256)

/-- `pcap::WriteHeader`, pcap.h:28-46. -/
def fileHeader (linktype : Nat) : Bytes :=
  le 4 0xa1b2c3d4 ++ le 2 2 ++ le 2 4 ++ le 4 0 ++ le 4 0 ++ le 4 0xffffffff ++ le 4 linktype

/-- `pcap::WriteRecordHeader`, pcap.h:48-61: `time / 1s` and `(time % 1s) / 1ms`, as unsigned integers of 32 bits. -/
def recordHeader (time length : Nat) : Bytes :=
  le 4 (time / 1000000) ++ le 4 (time % 1000000 / 1000) ++ le 4 length ++ le 4 length

/-- `HciSniffer::SetOutputStream` and `SetPcapFilter`, hci_sniffer.cc:33-44. -/
def Trace.start (filtered : Bool) : Trace := ⟨fileHeader 201, if filtered then some [] else none, 0⟩

/-- `HciSniffer::AppendRecord` with an output stream, hci_sniffer.cc:46-79. -/
def Trace.append (t : Trace) (time : Nat) (d : Dir) (k : Kind) (p : Bytes) : Option Trace :=
  let head := recordHeader time (4 + 1 + p.length) ++ [0, 0, 0, d.octet] ++ [idc k]
  match t.filter with
  | none => some { t with file := t.file ++ head ++ p, count := t.count + 1 }
  | some m => match Pcap.filterPacket m p (idc k) with
    | none => none
    | some (m', q) => some { file := t.file ++ head ++ q, filter := some m', count := t.count + 1 }

/-- An HCI device with its transport. `up`: the descriptor of the socket is not -1. `writes` and `asks` count the calls of
`Send` and `Connected` of the socket. `wire` is what has been put on the socket. `closes` counts the calls of the close callback
(test_model.cc:189-193), each of which schedules a task, and `gone` says that the device has been removed by such a task.
`log` is not part of the program: the packets handed to the controller and to the transport, in order. -/
structure Dev (σ : Type) where
  ctl : σ
  parser : Parser
  up : Bool
  writes : Nat
  asks : Nat
  wire : Bytes
  closes : Nat
  gone : Bool
  trace : Option Trace
  log : List (Dir × Kind × Bytes)

variable {σ : Type}

/-- A new device on an open socket: AddHciConnection, test_model.cc:174-195, in the task of
desktop/test_environment.cc:113-145, with or without a sniffer (`trace`), which is there before the first tick. -/
def Dev.new (s : σ) (trace : Option Trace) : Dev σ := ⟨s, H4.init true, true, 0, 0, [], 0, false, trace, []⟩

/-- `HciSniffer::AppendRecord`, hci_sniffer.cc:46-51, and the note in `log`. -/
def Dev.note (net : Net) (s : Dev σ) (d : Dir) (k : Kind) (p : Bytes) : Option (Dev σ) := match s.trace with
  | none => some { s with log := s.log ++ [(d, k, p)] }
  | some t => match t.append (net.clock t.count) d k p with
    | none => none
    | some t' => some { s with trace := some t', log := s.log ++ [(d, k, p)] }

/-- `HciSocketTransport::Send`, hci_socket_transport.cc:57-64, and `H4DataChannelPacketizer::Send`,
h4_data_channel_packetizer.cc:44-60: the type octet and the packet are two writes, and what the socket does not take is lost.
`Connected` of a closed socket is false (posix_async_socket.cc:108-111). -/
def Dev.put (net : Net) (s : Dev σ) (k : Kind) (p : Bytes) : Dev σ :=
  if s.up && net.alive s.asks then
    { s with asks := s.asks + 1, writes := s.writes + 2, wire := s.wire ++ ([idc k].take (net.room s.writes)) ++ p.take (net.room (s.writes + 1)) }
  else { s with asks := s.asks + 1 }

/-- The channels of the controller: hci_device.cc:57-68, `HciSniffer::Send`, hci_sniffer.cc:92-95. -/
def Dev.send (net : Net) (s : Dev σ) : List Msg → Option (Dev σ)
  | [] => some s
  | (k, p) :: ms => match s.note net .controllerToHost k p with
    | none => none
    | some s' => (s'.put net k p).send net ms

/-- The new state of the controller, and what it sends. -/
def Dev.after (net : Net) (s : Dev σ) : Option (σ × List Msg) → Option (Dev σ)
  | none => none
  | some (c, ms) => { s with ctl := c }.send net ms

/-- A packet of the host: hci_socket_transport.cc:24-53, `HciSniffer::RegisterCallbacks`, hci_sniffer.cc:74-82, and
hci_device.cc:70-88. -/
def Dev.deliver (net : Net) (ctl : Ctl σ) (s : Dev σ) : List Msg → Option (Dev σ)
  | [] => some s
  | (k, p) :: ms =>
    if k = .event then none
    else match s.note net .hostToController k p with
      | none => none
      | some s' => match s'.after net (ctl.handle s'.ctl k p) with
        | none => none
        | some s'' => s''.deliver net ctl ms

/-- `HciDevice::Close`, hci_device.cc:107-110: the socket is closed, then the controller, and the close callback is called. -/
def Dev.close (net : Net) (ctl : Ctl σ) (s : Dev σ) : Option (Dev σ) :=
  match ({ s with up := false } : Dev σ).after net (ctl.close s.ctl) with
  | none => none
  | some s' => some { s' with closes := s'.closes + 1 }

/-- How a series of reads ends: nothing more to read, the connection was reset, or another error. -/
inductive Stop where
  | again | reset | fail
  deriving DecidableEq, Repr

/-- `H4DataChannelPacketizer::OnDataReady`, h4_data_channel_packetizer.cc:62-92. An empty read is a result of 0. -/
def Dev.read (net : Net) (ctl : Ctl σ) (s : Dev σ) : List Bytes → Stop → Option (Dev σ)
  | [], .again => some s
  | [], .reset => s.close net ctl
  | [], .fail => none
  | c :: cs, stop =>
    if c = [] then s.close net ctl
    else match H4.consume s.parser c with
      | .done _ p ev => match ({ s with parser := p } : Dev σ).deliver net ctl ev with
        | none => none
        | some s' => s'.read net ctl cs stop
      | _ => none

/-- What happens to a device. -/
inductive Op (σ : Type) where
  /-- A tick: the reads from the socket and how they end. -/
  | tick (reads : List Bytes) (stop : Stop)
  /-- Something else happens to the controller (link layer packets, timers). -/
  | work (next : σ) (ms : List Msg)
  /-- A task scheduled by the close callback runs. -/
  | remove

/-- `HciDevice::Tick`, hci_device.cc:102-105; `OnConnectionClosed`, test_model.cc:198-203. A read from a closed socket is 0
(posix_async_socket.cc:66-70). A device that is gone does nothing. -/
def Dev.step (net : Net) (ctl : Ctl σ) (s : Dev σ) (op : Op σ) : Option (Dev σ) :=
  if s.gone then some s
  else match op with
    | .tick reads stop => match (if s.up then s.read net ctl reads stop else s.close net ctl) with
      | none => none
      | some s' => s'.after net (ctl.tick s'.ctl)
    | .work next ms => s.after net (some (next, ms))
    | .remove => if s.closes = 0 then some s else some { s with gone := true }

/-- A history. -/
def Dev.run (net : Net) (ctl : Ctl σ) (s : Dev σ) : List (Op σ) → Option (Dev σ)
  | [] => some s
  | op :: ops => match s.step net ctl op with
    | none => none
    | some s' => s'.run net ctl ops

/-- `HciSniffer::Create`, hci_sniffer.h:44-48: the filter that is passed is not used. -/
def Trace.create (filter : Option Pcap.Names) : Trace := { Trace.start false with filter := filter.bind (fun _ => none) }

end Verif.Port
