import Verif.Task.Model
import Verif.Live.Spec
/-!
# Link supervision

`CheckExpiringConnection` of `LeController` (/repo/model/controller/le_controller.cc 6623-6645) and of
`BrEdrController` (bredr_controller.cc 2280-2302), which is the same, on the task queue of the `Task` component, with
`LeAclConnection` and `AclConnection` (le_acl_connection.cc 30-67, acl_connection.cc 26-64).

Times are in nanoseconds. The clock does not advance during a check, but may advance between any two other actions.
What the other tasks of the controller do is any sequence of actions between their `pick` and `finish`; the
controller cancels only tasks that it keeps the identifiers of, which are not checks (`cancel`).
-/
namespace Verif.Live
open Verif.Task (Task M)

/-- A connection: `handle`, `last_packet_timestamp_`, and the supervision timeout of the connection parameters in
units of 10 ms, which the supervision does not use. -/
structure Link where
  handle : Nat
  last : Int
  supervision : Nat
  deriving DecidableEq, Repr

/-- `timeout_`, le_acl_connection.cc 39 and acl_connection.cc 32, whatever the parameters of the connection. -/
def timeout (_supervision : Nat) : Int := 3000000000

/-- `TimeUntilNearExpiring`, le_acl_connection.cc 53-55. -/
def Link.untilNear (l : Link) (now : Int) : Int := l.last + timeout l.supervision / 2 - now

/-- `TimeUntilExpired`, le_acl_connection.cc 61-63. -/
def Link.untilExpired (l : Link) (now : Int) : Int := l.last + timeout l.supervision - now

/-- `duration_cast<milliseconds>`, which rounds towards zero, as a time in nanoseconds. -/
def toMs (d : Int) : Int := d.tdiv 1000000 * 1000000

/-- The task queue and the clock, the connections, and for the tasks that are checks, by their rank, the handle they
check. -/
structure S where
  m : M
  links : List Link
  checks : List (Nat × Nat)

/-- `ScheduleTask(delay, [this, handle] { CheckExpiringConnection(handle); })`. -/
def S.schedule (s : S) (delay : Int) (h : Nat) : Option S :=
  match Task.step s.m (.schedule delay none) with
  | none => none
  | some m => some { s with m := m, checks := (s.m.requests.length, h) :: s.checks }

/-- `CheckExpiringConnection`. Of `Disconnect` only that it removes the connection. -/
def S.check (s : S) (h : Nat) : Option (S × Trace) :=
  match s.links.find? (fun l => l.handle = h) with
  | none => some (s, [])
  | some l =>
    if l.untilExpired s.m.clock < 0 then
      some ({ s with links := s.links.filter (fun l => l.handle ≠ h) }, [(s.m.clock, .ended h)])
    else if l.untilNear s.m.clock < 0 then
      (s.schedule (toMs (l.untilExpired s.m.clock)) h).map (fun s' => (s', [(s.m.clock, .pinged h)]))
    else
      (s.schedule (toMs (l.untilNear s.m.clock)) h).map (fun s' => (s', []))

/-- What can happen. -/
inductive Action where
  /-- The clock advances. -/
  | wait (d : Nat)
  /-- A connection is made (le_controller.cc 5546, bredr_controller.cc 252 and 2039). -/
  | connect (h supervision : Nat)
  /-- A packet of the peer arrives: `ResetLinkTimer`, le_controller.cc 4131, bredr_controller.cc 1375. -/
  | receive (h : Nat)
  /-- The connection is ended by a host or by the peer. -/
  | close (h : Nat)
  /-- Another task is scheduled. -/
  | schedule (delay : Int) (period : Option Int)
  /-- Another task is cancelled. -/
  | cancel (id : Nat)
  /-- `RunPendingTasks` begins. -/
  | run
  /-- The loop takes the first task. A check is run to its end. -/
  | pick
  /-- The callback of another task returns. -/
  | finish
  /-- `RunPendingTasks` returns. -/
  | done
  deriving DecidableEq, Repr

/-- An action on the queue alone. -/
def S.queue (s : S) (a : Task.Action) : Option S := (Task.step s.m a).map (fun m => { s with m := m })

/-- The time at which the loop has begun. -/
def since (m : M) : Int := match m.phase with
  | .loop now => now
  | .callback now _ => now
  | .idle => m.clock

/-- One action; `none` if it cannot happen here or the program hangs. -/
def S.step (s : S) : Action → Option (S × Trace)
  | .wait d => (s.queue (.wait d)).map (·, [])
  | .connect h supervision =>
    if s.links.any (fun l => l.handle = h) then none
    else (S.check { s with links := ⟨h, s.m.clock, supervision⟩ :: s.links } h).map
      (fun r => (r.1, (s.m.clock, .connected h) :: r.2))
  | .receive h =>
    if s.links.any (fun l => l.handle = h) then
      some ({ s with links := s.links.map (fun l => if l.handle = h then { l with last := s.m.clock } else l) }, [(s.m.clock, .received h)])
    else some (s, [])
  | .close h =>
    if s.links.any (fun l => l.handle = h) then
      some ({ s with links := s.links.filter (fun l => l.handle ≠ h) }, [(s.m.clock, .closed h)])
    else some (s, [])
  | .schedule delay period => (s.queue (.schedule delay period)).map (·, [])
  | .cancel id =>
    if s.m.queue.any (fun t => t.id = id && (s.checks.lookup t.serial).isSome) then none
    else (s.queue (.cancel id)).map (·, [])
  | .run => (s.queue .run).map (·, [])
  | .pick =>
    match s.m.queue with
    | [] => none
    | t :: _ =>
      match s.checks.lookup t.serial with
      | none => (s.queue .pick).map (·, [])
      | some h =>
        match s.queue .pick with
        | none => none
        | some s1 =>
          match s1.check h with
          | none => none
          | some (s2, tr) => (s2.queue .finish).map (·, tr)
  | .finish => (s.queue .finish).map (·, [])
  | .done => (s.queue .done).map (·, [(s.m.clock, .ran (since s.m))])

/-- The controller after construction, at some time. -/
def S.initial (clock : Int) : S := ⟨Task.initial clock, [], []⟩

/-- A history and what is seen of it. -/
def S.runs : List Action → S → Option (S × Trace)
  | [], s => some (s, [])
  | a :: as, s =>
    match s.step a with
    | none => none
    | some (s1, tr) => (S.runs as s1).map (fun r => (r.1, tr ++ r.2))

end Verif.Live
