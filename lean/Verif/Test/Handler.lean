import Verif.Phy.Model
/-!
# The commands of the test channel

Models `TestCommandHandler` (/repo/model/setup/test_command_handler.cc 34-305), the timer of `TestModel`
(test_model.cc 60-84, 265-274) and `DeviceBoutique::Create` with the two registered kinds of device
(device_boutique.cc 42-53, beacon.cc 47-55, sniffer.cc 33-37) on top of the test model of `Verif.Phy`.

Simplifications. Replies are represented by what they say, not by their text. Strings are lists of characters, one
per byte. The name `END_SIMULATION`, which test_environment.cc 150-151 handles, is not included.
-/

namespace Verif.Test
open Verif.Addr Verif.Phy

/-- A `std::string`. -/
abbrev Text := List Char

/-- The digits of a number in the base; the value and whether there is a digit. -/
def digitRun (base : Nat) : Text → Nat → Nat
  | [], acc => acc
  | c :: cs, acc =>
    match hexVal c with
    | none => acc
    | some v => if v < base then digitRun base cs (acc * base + v) else acc

/-- The base and the digits of a number with base 0: `0x` and `0` are prefixes. -/
def detectBase : Text → Nat × Text
  | '0' :: 'x' :: c :: cs => if (hexVal c).isSome then (16, c :: cs) else (8, '0' :: 'x' :: c :: cs)
  | '0' :: 'X' :: c :: cs => if (hexVal c).isSome then (16, c :: cs) else (8, '0' :: 'X' :: c :: cs)
  | '0' :: cs => (8, '0' :: cs)
  | cs => (10, cs)

/-- The sign in front of a number. -/
def signOf : Text → Bool × Text
  | '-' :: cs => (true, cs)
  | '+' :: cs => (false, cs)
  | cs => (false, cs)

/-- C library `strtoul(s, nullptr, 0)` with 64-bit `unsigned long`, as in `ParseIntParam`
(test_command_handler.cc 34-36): 0 without digits, the maximum on overflow, negation modulo 2^64. -/
def parseIntParam (s : Text) : Nat :=
  match signOf (s.drop (countSpaces s)) with
  | (neg, cs) =>
    match detectBase cs with
    | (base, ds) =>
      if digitRun base ds 0 ≥ 2 ^ 64 then 2 ^ 64 - 1
      else if neg then (2 ^ 64 - digitRun base ds 0) % 2 ^ 64
      else digitRun base ds 0

/-- The conversion of `size_t` to `PhyDevice::Identifier` and `PhyLayer::Identifier`, both `uint32_t`
(phy_device.h 32, phy_layer.h 32). -/
def parseId (s : Text) : Nat := parseIntParam s % 2 ^ 32

/-- C++ library `std::stoi(s)`: `none` is an exception. -/
def stoi (s : Text) : Option Int :=
  match signOf (s.drop (countSpaces s)) with
  | (neg, cs) =>
    match cs with
    | c :: _ =>
      if c.isDigit then
        let v : Int := if neg then - (digitRun 10 cs 0 : Int) else digitRun 10 cs 0
        if - 2 ^ 31 ≤ v ∧ v < 2 ^ 31 then some v else none
      else none
    | [] => none

/-- The controller presets of 'set_device_configuration' (test_command_handler.cc 230-238). -/
inductive Preset where
  | default
  | lairdBl654
  | csrRckPtsDongle
  | intelBe200
  deriving DecidableEq, Repr

/-- The timer of the test model: the period, the task in `timer_tick_task_`, and all periodic tick tasks that the
scheduler runs, each with its period. Identifiers are never reused here (`nextTask` grows). -/
structure Timer where
  period : Nat
  current : Option Nat
  live : List (Nat × Nat)
  nextTask : Nat
  deriving DecidableEq, Repr

/-- `TestModel::StartTimer` (test_model.cc 74-78): a task that is running is not cancelled. -/
def Timer.start (t : Timer) : Timer :=
  { t with current := some t.nextTask, live := t.live ++ [(t.nextTask, t.period)], nextTask := t.nextTask + 1 }

/-- `TestModel::StopTimer` (test_model.cc 80-84). -/
def Timer.stop (t : Timer) : Timer :=
  { t with live := t.live.filter (fun x => some x.1 ≠ t.current), current := none }

/-- `TestModel::SetTimerPeriod` (test_model.cc 62-72). -/
def Timer.setPeriod (t : Timer) (p : Nat) : Timer :=
  if t.current = none then { t with period := p }
  else Timer.start (Timer.stop { t with period := p })

/-- The test model, its timer, the number of scheduled reset tasks, and the calls of `SetDeviceConfiguration`. -/
structure State where
  model : Model
  timer : Timer
  pendingResets : Nat
  configured : List (Nat × Preset)
  deriving DecidableEq, Repr

/-- The state before the first command (test_model.h 135-136: no task, period zero). -/
def State.init : State := ⟨Model.init, ⟨0, none, [], 1⟩, 0, []⟩

/-- What a reply says. -/
inductive Reply where
  | unhandled
  /-- Wrong arguments. -/
  | usage
  /-- The command is reported as done. -/
  | done
  /-- Reply of 'list'. -/
  | listing
  deriving DecidableEq, Repr

/-- What a command does. -/
inductive Outcome where
  /-- `args[0]` of an empty vector is read. -/
  | undefined
  /-- An exception that nobody catches ends the process. -/
  | terminate
  | ok (s : State) (replies : List Reply)
  deriving DecidableEq, Repr

/-- An operation on the test model. None of those used here can loop. -/
def State.apply (s : State) (op : Op) : State :=
  { s with model := (Verif.Phy.step Config.default s.model op).getD s.model }

/-- The address given to a device by its argument: `Address::FromString(args[1], address_)` (beacon.cc 49,
sniffer.cc 35); a text that is no address gives the empty address. -/
def argAddress : List Text → Option Address
  | _ :: a :: _ => some (fromStringInto a defaultAddr).2
  | _ => none

/-- The device is constructed and added (test_command_handler.cc 111-123). -/
def State.addNew (s : State) (a : Option Address) : State :=
  (s.apply (.construct a)).apply (.addDevice s.model.nextDev)

/-- 'add' (test_command_handler.cc 105-124). -/
def addDevice (s : State) (args : List Text) : Outcome :=
  match args with
  | [] => .ok s [.usage]
  | kind :: rest =>
    if kind = "beacon".toList then
      match rest with
      | _ :: interval :: _ =>
        match stoi interval with
        | none => .terminate
        | some _ => .ok (s.addNew (argAddress args)) [.done]
      | _ => .ok (s.addNew (argAddress args)) [.done]
    else if kind = "sniffer".toList then .ok (s.addNew (argAddress args)) [.done]
    else .ok s [.usage]

/-- 'add_remote' (test_command_handler.cc 126-153, test_model.cc 186-192); `connects` tells whether a connection to
the server can be made. -/
def addRemote (connects : Bool) (s : State) (args : List Text) : Outcome :=
  match args with
  | server :: port :: type :: _ =>
    if parseIntParam port = 0 ∨ parseIntParam port > 0xffff ∨ server.length < 2 then .ok s [.usage]
    else if connects then
      .ok ((s.apply (.construct none)).apply
        (.addLinkLayer s.model.nextDev (if type = "LOW_ENERGY".toList then .lowEnergy else .brEdr))) [.done]
    else .ok s [.done]
  | _ => .ok s [.usage]

/-- 'del' (test_command_handler.cc 155-162). -/
def delDevice (s : State) (args : List Text) : Outcome :=
  match args with
  | [] => .undefined
  | d :: _ => .ok (s.apply (.removeDevice (parseId d))) [.done]

/-- 'add_phy' (test_command_handler.cc 164-177). -/
def addPhy (s : State) (args : List Text) : Outcome :=
  match args with
  | [t] =>
    if t = "LOW_ENERGY".toList then .ok (s.apply (.addPhy .lowEnergy)) [.done]
    else if t = "BR_EDR".toList then .ok (s.apply (.addPhy .brEdr)) [.done]
    else .ok s [.usage]
  | _ => .ok s [.usage]

/-- 'del_phy' (test_command_handler.cc 179-186). -/
def delPhy (s : State) (args : List Text) : Outcome :=
  match args with
  | [] => .undefined
  | p :: _ => .ok (s.apply (.removePhy (parseId p))) [.done]

/-- 'add_device_to_phy' (test_command_handler.cc 188-200). -/
def addDeviceToPhy (s : State) (args : List Text) : Outcome :=
  match args with
  | [d, p] => .ok (s.apply (.addDeviceToPhy (parseId d) (parseId p))) [.done]
  | _ => .ok s [.usage]

/-- 'del_device_from_phy' (test_command_handler.cc 202-214). -/
def delDeviceFromPhy (s : State) (args : List Text) : Outcome :=
  match args with
  | [d, p] => .ok (s.apply (.removeDeviceFromPhy (parseId d) (parseId p))) [.done]
  | _ => .ok s [.usage]

/-- 'list' (test_command_handler.cc 216-222): with arguments there is no reply. -/
def list (s : State) (args : List Text) : Outcome :=
  match args with
  | [] => .ok s [.listing]
  | _ => .ok s []

/-- 'set_device_address' (test_command_handler.cc 224-238). -/
def setDeviceAddress (s : State) (args : List Text) : Outcome :=
  match args with
  | [d, a] => .ok (s.apply (.setAddress (parseId d) (fromStringInto a Address.empty).2)) [.done]
  | _ => .ok s [.usage]

/-- The preset with a name (test_command_handler.cc 250-262). -/
def presetOf (t : Text) : Option Preset :=
  if t = "default".toList then some .default
  else if t = "laird_bl654".toList then some .lairdBl654
  else if t = "csr_rck_pts_dongle".toList then some .csrRckPtsDongle
  else if t = "intel_be200".toList then some .intelBe200
  else none

/-- 'set_device_configuration' (test_command_handler.cc 240-273). -/
def setDeviceConfiguration (s : State) (args : List Text) : Outcome :=
  match args with
  | [d, p] =>
    match presetOf p with
    | none => .ok s [.usage]
    | some p => .ok { s with configured := s.configured ++ [(parseId d, p)] } [.done]
  | _ => .ok s [.usage]

/-- 'set_timer_period' (test_command_handler.cc 275-289): the number of arguments is not enforced. The period is a
number of milliseconds in a signed 64-bit type; a negative one is represented by its value modulo 2^64. -/
def setTimerPeriod (s : State) (args : List Text) : Outcome :=
  match args with
  | [] => .undefined
  | p :: _ =>
    if parseIntParam p ≠ 0 then .ok { s with timer := s.timer.setPeriod (parseIntParam p) } [.done]
    else .ok s [.usage]

/-- 'start_timer' (test_command_handler.cc 291-298). -/
def startTimer (s : State) : Outcome := .ok { s with timer := s.timer.start } [.done]

/-- 'stop_timer' (test_command_handler.cc 300-307). -/
def stopTimer (s : State) : Outcome := .ok { s with timer := s.timer.stop } [.done]

/-- 'reset' (test_command_handler.cc 309-316, test_model.cc 265-274): the devices are removed by a task. -/
def resetCommand (s : State) : Outcome :=
  .ok { s with timer := s.timer.stop, pendingResets := s.pendingResets + 1 } [.done]

/-- `HandleCommand` with the table of the constructor (test_command_handler.cc 38-57, 90-97). -/
def handleCommand (connects : Bool) (s : State) (name : Text) (args : List Text) : Outcome :=
  if name = "add".toList then addDevice s args
  else if name = "add_remote".toList then addRemote connects s args
  else if name = "del".toList then delDevice s args
  else if name = "add_phy".toList then addPhy s args
  else if name = "del_phy".toList then delPhy s args
  else if name = "add_device_to_phy".toList then addDeviceToPhy s args
  else if name = "del_device_from_phy".toList then delDeviceFromPhy s args
  else if name = "list".toList then list s args
  else if name = "set_device_address".toList then setDeviceAddress s args
  else if name = "set_device_configuration".toList then setDeviceConfiguration s args
  else if name = "set_timer_period".toList then setTimerPeriod s args
  else if name = "start_timer".toList then startTimer s
  else if name = "stop_timer".toList then stopTimer s
  else if name = "reset".toList then resetCommand s
  else .ok s [.unhandled]

/-- The reset task runs (test_model.cc 268-274). -/
def runReset (s : State) : State :=
  if s.pendingResets = 0 then s
  else { s.apply .reset with pendingResets := s.pendingResets - 1 }

/-- What happens to the environment. -/
inductive Event where
  | command (connects : Bool) (name : Text) (args : List Text)
  | resetTask
  deriving DecidableEq, Repr

/-- A history; `none` when the process has ended. -/
def runEvents : List Event → State → Option State
  | [], s => some s
  | .command c n a :: es, s =>
    match handleCommand c s n a with
    | .ok s _ => runEvents es s
    | _ => none
  | .resetTask :: es, s => runEvents es (runReset s)

end Verif.Test
