/-!
# The descriptor watcher

Models `AsyncManager::AsyncFdWatcher`, `/repo/model/setup/async_manager.cc:107-281`, as a labelled transition system: the
thread that waits in `select`, and the calls of other threads and of the callbacks. Each action is one critical section under
`internal_mutex_`, one access to `running_`, one use of the notification pipe, or the start or end of a callback.

The mutex is held while the callbacks of one round run (lines 236-245), so that other threads cannot enter a critical
section then; a callback can, since the mutex is recursive.

Not modelled: failure of `pipe`, `fcntl` and of the creation of the thread, a full pipe, a call that finds `running_` set
while the thread that set it has not yet created the pipe, and `stopThread` called by a callback.
-/

namespace Verif.Watch

/-- A descriptor and the callback registered for it. The callback is named by the rank of the call that registered it. -/
abbrev Reg := Int × Nat

/-- Where the thread is (`ThreadRoutine`, lines 247-271). -/
inductive Phase
  /-- there is no thread, or it was joined -/
  | off
  /-- at the test of `running_` of the loop, line 248 -/
  | top
  /-- in `select`, line 254, with these descriptors besides the pipe -/
  | waiting (set : List Int)
  /-- after `select`, with what it reported; `noted` says whether the pipe is in it -/
  | woken (ready : List Int) (noted : Bool)
  /-- in the loop of lines 242-244: the callback that runs, and those still to run -/
  | round (running : Option Reg) (todo : List Reg)
  /-- the routine has returned, nobody has joined the thread -/
  | ended
  deriving DecidableEq, Repr

/-- The members of lines 273-281. `pipe`: there is something to read in the notification pipe. `toStart`, `toNotify`: the
calls of WatchFdForNonBlockingReads that are before `tryStartThread`, and the calls that are before `notifyThread`.
`stopping`: `stopThread` waits for the thread to end. `serial` counts the registrations. -/
structure W where
  watched : List Reg
  running : Bool
  phase : Phase
  pipe : Bool
  toStart : Nat
  toNotify : Nat
  stopping : Bool
  serial : Nat
  deriving DecidableEq, Repr

/-- A new watcher, line 135 and lines 273-281. -/
def W.init : W := ⟨[], false, .off, false, 0, 0, false, 0⟩

/-- What can happen. `own`: by the callback that runs, in the watcher's thread; otherwise by another thread. -/
inductive Act
  | watch (own : Bool) (fd : Int)
  | unwatch (own : Bool) (fd : Int)
  | start
  | notify
  | stop
  | join
  | setUp
  | select (ready : List Int)
  | fails
  | take
  | call
  | ret
  | release
  deriving DecidableEq, Repr

/-- What comes of it: a new state and the callback that was started, undefined behaviour, the end of the process, or that
this cannot happen now. -/
inductive Res
  | ok (w : W) (called : List Reg)
  | undefined
  | terminated
  | blocked
  deriving DecidableEq, Repr

/-- `watched_shared_fds_[fd] = callback` on a `std::map`, line 114. -/
def put (fd : Int) (s : Nat) : List Reg → List Reg
  | [] => [(fd, s)]
  | e :: t => if fd < e.1 then (fd, s) :: e :: t else if e.1 < fd then e :: put fd s t else (fd, s) :: t

/-- Who may enter a critical section, `internal_mutex_`: the callback that runs, or, between the rounds, everybody else. -/
def W.enters (w : W) (own : Bool) : Bool :=
  match w.phase with
  | .round (some _) _ => own
  | .round none _ => false
  | _ => !own

/-- `FD_SETSIZE` is 1024: `FD_SET` of another descriptor writes outside the set. -/
def settable (fd : Int) : Bool := 0 ≤ fd && fd < 1024

/-- The first critical section of WatchFdForNonBlockingReads, lines 112-115. -/
def watch (w : W) (own : Bool) (fd : Int) : Res :=
  if w.enters own then .ok { w with watched := put fd w.serial w.watched, toStart := w.toStart + 1, serial := w.serial + 1 } [] else .blocked

/-- StopWatchingFileDescriptor, lines 130-133. -/
def unwatch (w : W) (own : Bool) (fd : Int) : Res :=
  if w.enters own then .ok { w with watched := w.watched.filter (fun e => e.1 ≠ fd) } [] else .blocked

/-- `tryStartThread`, lines 165-194. The pipe is new. The assignment of line 188 to a thread that was not joined ends the
process (`std::thread::operator=`). -/
def start (w : W) : Res :=
  if w.toStart = 0 then .blocked
  else if w.running then .ok { w with toStart := w.toStart - 1, toNotify := w.toNotify + 1 } []
  else if w.phase = .off then .ok { w with running := true, phase := .top, pipe := false, toStart := w.toStart - 1, toNotify := w.toNotify + 1 } []
  else .terminated

/-- `notifyThread`, lines 196-203. -/
def notify (w : W) : Res :=
  if w.toNotify = 0 then .blocked else .ok { w with pipe := true, toNotify := w.toNotify - 1 } []

/-- The beginning of `stopThread`, lines 142-146; its `notifyThread` is then still to come. -/
def stop (w : W) : Res :=
  if w.running then .ok { w with running := false, stopping := true, toNotify := w.toNotify + 1 } [] else .ok w []

/-- The end of `stopThread`, lines 148-157, at once: `join` returns when the routine has. -/
def join (w : W) : Res :=
  if w.stopping && w.phase = .ended then .ok { w with phase := .off, stopping := false, watched := [] } [] else .blocked

/-- Lines 248-251: the test of `running_` and `setUpFileDescriptorSet` (lines 205-219). -/
def setUp (w : W) : Res :=
  if w.phase ≠ .top then .blocked
  else if !w.running then .ok { w with phase := .ended } []
  else if w.watched.all (fun e => settable e.1) then .ok { w with phase := .waiting (w.watched.map (·.1)) } []
  else .undefined

/-- `select` returns, line 254: some of the descriptors have something to read, or the pipe has. -/
def select (w : W) (ready : List Int) : Res :=
  match w.phase with
  | .waiting set =>
    if ready.all (fun fd => fd ∈ set) && (w.pipe || ready ≠ []) then .ok { w with phase := .woken ready w.pipe } [] else .blocked
  | _ => .blocked

/-- `select` fails, lines 255-260. -/
def fails (w : W) : Res :=
  match w.phase with
  | .waiting _ => .ok { w with phase := .top } []
  | _ => .blocked

/-- Lines 262-269: `consumeThreadNotifications` (222-231), the test of `running_`, and the first loop of
`runAppropriateCallbacks` (235-241). -/
def take (w : W) : Res :=
  match w.phase with
  | .woken ready noted =>
    if w.running then .ok { w with phase := .round none (w.watched.filter (fun e => e.1 ∈ ready)), pipe := w.pipe && !noted } []
    else .ok { w with phase := .ended, pipe := w.pipe && !noted } []
  | _ => .blocked

/-- The next callback is called, line 243. -/
def call (w : W) : Res :=
  match w.phase with
  | .round none (r :: todo) => .ok { w with phase := .round (some r) todo } [r]
  | _ => .blocked

/-- The callback returns. -/
def ret (w : W) : Res :=
  match w.phase with
  | .round (some _) todo => .ok { w with phase := .round none todo } []
  | _ => .blocked

/-- The end of the loop, lines 244-245: the mutex is released. -/
def release (w : W) : Res :=
  match w.phase with
  | .round none [] => .ok { w with phase := .top } []
  | _ => .blocked

/-- One step. -/
def step (w : W) : Act → Res
  | .watch own fd => watch w own fd
  | .unwatch own fd => unwatch w own fd
  | .start => start w
  | .notify => notify w
  | .stop => stop w
  | .join => join w
  | .setUp => setUp w
  | .select ready => select w ready
  | .fails => fails w
  | .take => take w
  | .call => call w
  | .ret => ret w
  | .release => release w

/-- A history: the state at its end and the callbacks that were started, in order. -/
def run (w : W) : List Act → Res
  | [] => .ok w []
  | a :: as =>
    match step w a with
    | .ok w' c =>
      match run w' as with
      | .ok w'' cs => .ok w'' (c ++ cs)
      | r => r
    | r => r

end Verif.Watch
