import Verif.Conn.Model
/-!
# The asynchronous task scheduler

Models `AsyncManager::AsyncTaskManager`, `/repo/model/setup/async_manager.cc:284-521`, as a labelled
transition system. Each action is one critical section under `internal_mutex_`, or the start or end of
a callback under the task's `in_callback` mutex; threads are the interleavings of these actions.

Not modelled: failure to create the thread, the condition variable (the thread may take a step at any
time, which only adds behaviours), the synchronisation mutex shared with the descriptor watcher.
-/

namespace Verif.Async
open Verif.Conn (Table find erase searchUnused)

/-- `Task`, async_manager.cc:354-386. `serial` is a ghost: the rank of the scheduling call, which
identifies the task object whatever its reused identifier. Times are in ticks of the clock. -/
structure Task where
  serial : Nat
  id : Nat
  user : Nat
  time : Nat
  period : Option Nat
  deriving DecidableEq, Repr

/-- `Task::operator<`, async_manager.cc:369-371. -/
def Task.lt (a b : Task) : Bool := a.time < b.time || (a.time = b.time && a.id < b.id)

/-- `std::set::insert` with the comparator of async_manager.cc:389-393. -/
def insert (t : Task) : List Task → List Task
  | [] => [t]
  | x :: q => if t.lt x then t :: x :: q else if x.lt t then x :: insert t q else x :: q

/-- `std::set::erase(key)`: removes the equivalent element. -/
def remove (t : Task) (q : List Task) : List Task := q.filter (fun x => x.lt t || t.lt x)

/-- One invocation of a callback (ghost log). `due` is the deadline it was picked for, `at_` the clock
when it was picked. -/
structure Event where
  serial : Nat
  due : Nat
  at_ : Nat
  oneShot : Bool
  deriving DecidableEq, Repr

/-- Where the thread is: idle (between iterations), holding a callback it has picked but not started
(async_manager.cc:487-488), or inside the callback. -/
inductive Phase where
  | idle
  | picked (e : Event)
  | inCallback (e : Event)
  deriving DecidableEq, Repr

/-- The members at async_manager.cc:510-520, the clock, the phase of the thread and the ghosts. The set
of sets `tasks_by_user_id_` is a list of pairs. -/
structure M where
  now : Nat
  last : Nat
  byId : Table Task
  byUser : List (Nat × Nat)
  queue : List Task
  running : Bool
  phase : Phase
  count : Nat
  log : List Event
  deriving DecidableEq, Repr

/-- Initial state, async_manager.cc:510-520. -/
def M.init : M :=
  { now := 0, last := 0, byId := [], byUser := [], queue := [], running := false, phase := .idle, count := 0, log := [] }

/-- `kMaxTaskId` and `NextAsyncTaskId`, async_manager.cc:90-93. -/
def maxTaskId : Nat := 65535
def nextId (i : Nat) : Nat := if i = maxTaskId then 1 else i + 1

/-- `scheduleTask`, async_manager.cc:415-441, with `ExecAsync[Periodically]` 289-300: the returned
identifier (0 is `kInvalidTaskId`) and the new state. `none` would be an endless search. The set stored
for the user is a set, so adding a pair already there changes nothing. -/
def schedule (m : M) (user delay : Nat) (period : Option Nat) : Option (Nat × M) :=
  if m.byId.length = maxTaskId then some (0, m)
  else
    match searchUnused m.byId 1 maxTaskId (nextId m.last) maxTaskId with
    | none => none
    | some i =>
      let t : Task := ⟨m.count, i, user, m.now + delay, period⟩
      some (i, { m with last := i, byId := (i, t) :: m.byId, byUser := if (user, i) ∈ m.byUser then m.byUser else (user, i) :: m.byUser, queue := insert t m.queue, running := true, count := m.count + 1 })

/-- `cancel_task_with_lock_held`, async_manager.cc:395-419: result and state. -/
def cancelLocked (m : M) (id : Nat) : Bool × M :=
  match find m.byId id with
  | none => (false, m)
  | some t => (true, { m with queue := remove t m.queue, byId := erase m.byId id })

/-- `CancelAsyncTask`, async_manager.cc:302-306. -/
def cancel (m : M) (id : Nat) : Bool × M := cancelLocked m id

/-- The identifiers recorded for a user. -/
def idsOf (m : M) (user : Nat) : List Nat := (m.byUser.filter (fun e => e.1 = user)).map (·.2)

/-- `CancelAsyncTasksFromUser`, async_manager.cc:308-319. `count(user_id) == 0` is whether the user ever
had an entry since the last such call; an entry whose set has become empty makes the call return `true`
and change nothing, which is not distinguished here from `false`. -/
def cancelUser (m : M) (user : Nat) : Bool × M :=
  let ids := idsOf m user
  let m' := ids.foldl (fun m i => (cancelLocked m i).2) m
  (ids ≠ [], { m' with byUser := m'.byUser.filter (fun e => e.1 ≠ user) })

/-- Update of the shared task object of a periodic task, async_manager.cc:478. -/
def setTask (b : Table Task) (t : Task) : Table Task := b.map (fun e => if e.1 = t.id then (t.id, t) else e)

/-- The first critical section of `ThreadRoutine`, async_manager.cc:465-489. -/
def pick (m : M) : M :=
  match m.queue with
  | [] => m
  | t :: _ =>
    if t.time < m.now then
      let e : Event := ⟨t.serial, t.time, m.now, t.period.isNone⟩
      let q := remove t m.queue
      match t.period with
      | some p =>
        let t' := { t with time := t.time + p }
        { m with queue := insert t' q, byId := setTask m.byId t', phase := .picked e }
      | none =>
        { m with queue := q, byUser := m.byUser.filter (fun x => x ≠ (t.user, t.id)), byId := erase m.byId t.id, phase := .picked e }
    else m

/-- The task in the callback, if any, is the one with this identifier: a cancelling call from another
thread then waits for the `in_callback` mutex, async_manager.cc:408-409. -/
def busy (m : M) (id : Nat) : Bool :=
  match m.phase, find m.byId id with
  | .inCallback e, some t => e.serial = t.serial
  | _, _ => false

/-- `stopThread`, async_manager.cc:332-342, the critical section. -/
def stop (m : M) : M := { m with byId := [], queue := [], running := false }

/-- Actions. `self` says that the call is made by the scheduler thread, from inside a callback. -/
inductive Act where
  | tick (d : Nat)
  | schedule (user delay : Nat) (period : Option Nat)
  | cancel (id : Nat) (self : Bool)
  | cancelUser (user : Nat) (self : Bool)
  | pick
  | start
  | finish
  | stop
  deriving Repr

/-- The thread is inside a callback. -/
def M.inCallback (m : M) : Bool := match m.phase with | .inCallback _ => true | _ => false

/-- One action; `none` when it is not possible in this state (a blocked call, or a step of the thread
that is not at that point). -/
def step (m : M) : Act → Option M
  | .tick d => some { m with now := m.now + d }
  | .schedule u d p => (schedule m u d p).map (·.2)
  | .cancel i self =>
    if self then (if m.inCallback then some (cancel m i).2 else none)
    else if busy m i then none else some (cancel m i).2
  | .cancelUser u self =>
    if self then (if m.inCallback then some (cancelUser m u).2 else none)
    else if (idsOf m u).any (busy m) then none else some (cancelUser m u).2
  | .pick => if m.running && m.phase = .idle then some (pick m) else none
  | .start =>
    match m.phase with
    | .picked e => some { m with phase := .inCallback e, log := m.log ++ [e] }
    | _ => none
  | .finish =>
    match m.phase with
    | .inCallback _ => some { m with phase := .idle }
    | _ => none
  | .stop => some (stop m)

/-- A history. -/
def run (m : M) : List Act → Option M
  | [] => some m
  | a :: as => match step m a with | none => none | some m' => run m' as

end Verif.Async
