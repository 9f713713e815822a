/-!
# The task queue of the controllers

Models `NextTaskId`, `ScheduleTask`, `SchedulePeriodicTask`, `CancelScheduledTask` and `RunPendingTasks`
of `LeController` (/repo/model/controller/le_controller.cc 6654-6708, le_controller.h 96-115, 955-996),
which `BrEdrController` repeats word for word (bredr_controller.cc 2329-2383, bredr_controller.h 460-493).

Everything happens on one thread. What a callback does to the queue is any sequence of scheduling and
cancelling calls, so a callback is an interval in the history: it begins with `pick` and ends with
`finish`. The clock may advance between any two actions. Times are in ticks of the clock and delays may
be negative, as `std::chrono::milliseconds` may.
-/

namespace Verif.Task

/-- `Task` (bredr_controller.h 460-485); `period = none` is a one-shot task. `serial` is a ghost: the
rank of the scheduling call, which tells tasks apart even when an identifier is used again. -/
structure Task where
  serial : Nat
  id : Nat
  time : Int
  period : Option Int
  deriving DecidableEq, Repr

/-- `Task::operator<` (bredr_controller.h 474-476). -/
def Task.lt (a b : Task) : Bool := decide (a.time < b.time) || (decide (a.time = b.time) && decide (a.id < b.id))

/-- `std::set::insert`: an equivalent element is kept. -/
def insert (t : Task) : List Task → List Task
  | [] => [t]
  | x :: q => if t.lt x then t :: x :: q else if x.lt t then x :: insert t q else x :: q

/-- `CancelScheduledTask` (le_controller.cc 6679-6687): erases the first task with the identifier. -/
def cancel (id : Nat) : List Task → List Task
  | [] => []
  | x :: q => if x.id = id then q else x :: cancel id q

/-- `TaskId` is `uint32_t` (le_controller.h 97). -/
def idLimit : Nat := 2 ^ 32

/-- The loop of `NextTaskId` (le_controller.cc 6654-6662): the identifier and the new counter. `none` is
the endless loop. After `idLimit` attempts the counter is back where it was. -/
def nextId (used : List Nat) : Nat → Nat → Option (Nat × Nat)
  | 0, _ => none
  | fuel + 1, c =>
    if c = 0 ∨ c ∈ used then nextId used fuel ((c + 1) % idLimit)
    else some (c, (c + 1) % idLimit)

/-- One callback invocation (ghost): the task as it was picked and the clock at that moment. -/
structure Event where
  task : Task
  at_ : Int
  deriving DecidableEq, Repr

/-- Where the thread is: outside `RunPendingTasks`, in its loop, or in a callback called by it. `now` is
the local variable of le_controller.cc 6690. -/
inductive Phase where
  | idle
  | loop (now : Int)
  | callback (now : Int) (task : Task)
  deriving DecidableEq, Repr

/-- The members `task_queue_` (in the order of the set) and `task_counter_`, the clock, the phase, and
as ghosts what was scheduled so far, the callbacks invoked so far and the identifiers passed to
`CancelScheduledTask`, each with the number of scheduling calls before it. -/
structure M where
  clock : Int
  queue : List Task
  counter : Nat
  phase : Phase
  requests : List Task
  log : List Event
  cancelled : List (Nat × Nat)
  deriving DecidableEq, Repr

/-- What can happen next. -/
inductive Action where
  /-- The clock advances. -/
  | wait (d : Nat)
  /-- `ScheduleTask`, or `SchedulePeriodicTask` with a period. -/
  | schedule (delay : Int) (period : Option Int)
  /-- `CancelScheduledTask`. -/
  | cancel (id : Nat)
  /-- `RunPendingTasks` is called (from `Tick`). -/
  | run
  /-- The loop takes the first task and calls it. -/
  | pick
  /-- The callback returns. -/
  | finish
  /-- The loop ends. -/
  | done
  deriving DecidableEq, Repr

/-- One action; `none` if it cannot happen here or the program hangs. -/
def step (m : M) : Action → Option M
  | .wait d => some { m with clock := m.clock + d }
  | .schedule delay period =>
    match nextId (m.queue.map (·.id)) idLimit m.counter with
    | none => none
    | some (id, c) =>
      some { m with queue := insert ⟨m.requests.length, id, m.clock + delay, period⟩ m.queue, counter := c, requests := m.requests ++ [⟨m.requests.length, id, m.clock + delay, period⟩] }
  | .cancel id => some { m with queue := cancel id m.queue, cancelled := m.cancelled ++ [(id, m.requests.length)] }
  | .run =>
    match m.phase with
    | .idle => some { m with phase := .loop m.clock }
    | _ => none
  | .pick =>
    match m.phase, m.queue with
    | .loop now, t :: q =>
      if t.time > now then none
      else some { m with queue := q, phase := .callback now t, log := m.log ++ [⟨t, m.clock⟩] }
    | _, _ => none
  | .finish =>
    match m.phase with
    | .callback now t =>
      match t.period with
      | none => some { m with phase := .loop now }
      | some p => some { m with phase := .loop now, queue := insert { t with time := now + p } m.queue }
    | _ => none
  | .done =>
    match m.phase, m.queue with
    | .loop _, [] => some { m with phase := .idle }
    | .loop now, t :: _ => if t.time > now then some { m with phase := .idle } else none
    | _, _ => none

/-- The state after construction, at some time. -/
def initial (clock : Int) : M := ⟨clock, [], 0, .idle, [], [], []⟩

/-- A history. -/
def runs : List Action → M → Option M
  | [], m => some m
  | a :: as, m =>
    match step m a with
    | none => none
    | some m => runs as m

end Verif.Task
