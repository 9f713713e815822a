import Verif.Br.Model
import Verif.Ll.Model

/-!
# A device with both controllers

Models the two functions of `DualModeController` that look at a connection handle to find the controller it belongs to:
`Disconnect` (/repo/model/controller/dual_mode_controller.cc 2115-2135) and `HandleAcl` (135-168), with the ranges of
connection_handle.h 42-86, over the models of the two controllers.

Simplifications.
* The two controllers share nothing but the host; a history is any interleaving of steps of the two. A Reset of the device
  is a Reset of each.
* Disconnect of a handle of an isochronous stream is passed on (`forwarded`); `Verif.Iso` has what follows.
* The loopback of HandleAcl is in `Verif.Flow`.
* Of what `bredr_controller_.Disconnect` sends, packets are listed before events.
-/
namespace Verif.Both

/-- The two controllers, the members `bredr_controller_` and `le_controller_` of dual_mode_controller.h. -/
structure Dev where
  br : Br.Ctl
  le : Ll.State

/-- What a device sends, in order: packets and events of its two controllers, the status of a command, the credit for a data
packet to no connection. -/
inductive Sent
  | packet (to : Nat) (p : Br.Pkt)
  | event (e : Br.Ev)
  | le (o : Ll.Out)
  | status (n : Nat)
  | credit (h : Nat)
  | forwarded (h r : Nat)
  deriving DecidableEq

/-- connection_handle.h 57-86. -/
def isAcl (h : Nat) : Bool := decide (0x000 ≤ h ∧ h ≤ 0x0ff)
/-- connection_handle.h 62-66. -/
def isSco (h : Nat) : Bool := decide (0x100 ≤ h ∧ h ≤ 0x1ff)
/-- connection_handle.h 68-72. -/
def isLeAcl (h : Nat) : Bool := decide (0x200 ≤ h ∧ h ≤ 0x2ff)
/-- connection_handle.h 80-84. -/
def isCis (h : Nat) : Bool := decide (0xe00 ≤ h ∧ h ≤ 0xeff)

/-- What a call of the BR/EDR controller sends. -/
def sentBr (out : List (Nat × Br.Pkt)) (ev : List Br.Ev) : List Sent := out.map (fun p => .packet p.1 p.2) ++ ev.map .event

/-- `Disconnect`, dual_mode_controller.cc 2115-2135: the event of the end of the connection is sent by the controller that has
it; the status is sent after that. The controllers' own reason is CONNECTION_TERMINATED_BY_LOCAL_HOST, 0x16
(bredr_controller.h 79-81, le_controller.h 86-88). Nothing: the process ended. -/
def disconnect (d : Dev) (h r : Nat) : Option (Dev × List Sent) :=
  if isCis h then some (d, [.forwarded h r])
  else if isAcl h || isSco h then
    match Br.disconnect d.br h r 0x16 with
    | .ok st s out ev => some ({ d with br := s }, sentBr out ev ++ [.status st])
    | _ => none
  else if isLeAcl h then
    match Ll.disconnect d.le h r 0x16 with
    | .ok (b, s, out) => some ({ d with le := s }, out.map .le ++ [.status (if b then 0x00 else 0x02)])
    | _ => none
  else some (d, [.status 0x02])

/-- `HandleAcl`, dual_mode_controller.cc 155-167. -/
def handleAcl (d : Dev) (h pb bc : Nat) (data : List UInt8) : Option (Dev × List Sent) :=
  if isAcl h then
    match Br.sendAcl d.br h pb bc data with
    | .ok _ s out ev => some ({ d with br := s }, sentBr out ev)
    | _ => none
  else if isLeAcl h then
    match Ll.handleAcl d.le h pb bc data with
    | .ok (s, out) => some ({ d with le := s }, out.map .le)
    | _ => none
  else some (d, [.credit h])

/-- A step of one of the controllers. -/
inductive Act
  | br (now : Nat) (a : Br.Act)
  | le (o : Ll.Op)

/-- A history: the device, what was seen of the BR/EDR controller, and what the LE controller did. -/
def run (ah : Ll.Hash) (cfg : Le.Config) : List Act → Dev → Option (Dev × List Br.Seen × List Ll.Obs)
  | [], d => some (d, [], [])
  | .br now a :: as, d =>
    match Br.step d.br now a with
    | .ok st s out ev => (run ah cfg as { d with br := s }).map fun x => (x.1, ⟨now, a, st, out, ev⟩ :: x.2.1, x.2.2)
    | _ => none
  | .le o :: as, d =>
    match Ll.step ah cfg d.le o with
    | .ok x => (run ah cfg as { d with le := x.1 }).map fun y => (y.1, y.2.1, x.2 :: y.2.2)
    | _ => none

end Verif.Both
