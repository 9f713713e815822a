import Verif.Br.Model
import Verif.Ll.Model
/-!
# A device that leaves

Models `DualModeController::Close` (/repo/model/controller/dual_mode_controller.cc:93-97), which a host that closes its
transport causes (/repo/model/devices/hci_device.cc:97-110, 102-105).

Simplification. The packets are put into the task queue of the controller and sent by the tick in which the end of the stream
was found, before the device is taken out of the simulation (`HciDevice::Tick`, hci_device.cc:102-105). Here they are output at
once. The tables of the device that leaves are not looked at any more.
-/
namespace Verif.Bye

/-- `BrEdrController::Close`, bredr_controller.cc:2067-2069, with DisconnectAll (2212-2223). -/
def closeBr (s : Br.Ctl) : List (Nat × Br.Pkt) :=
  s.sco.map (fun e => (e.2.addr, .scoDisc 0x15)) ++ s.acl.map (fun e => (e.2.addr, .disconnect 0x15))

/-- `LeController::Close`, le_controller.cc:6329-6331, with DisconnectAll (6568-6575). -/
def closeLe (s : Ll.State) : List Ll.Out := Ll.disconnectAll s 0x15

end Verif.Bye
