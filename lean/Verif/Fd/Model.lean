/-!
# Sockets and their descriptors

Models `PosixAsyncSocket` (/repo/net/posix/posix_async_socket.cc), `PosixAsyncSocketServer`
(/repo/net/posix/posix_async_socket_server.cc) and `PosixAsyncSocketConnector`
(/repo/net/posix/posix_async_socket_connector.cc), with the part of the kernel they use: the set of open descriptors.

Simplifications. One thing happens at a time; how the thread of the watcher interleaves with the others is the subject of
`Verif.Watch`. The kernel decides the results of its calls; they are part of the actions. The bytes that are read and written are
the subject of `Verif.Sock`. The flags set by `fcntl` are left out. `REPEAT_UNTIL_NO_INTR` hides interrupted calls.
-/
namespace Verif.Fd

/-- A live `PosixAsyncSocket`, posix_async_socket.h. `fd = none` is `fd_ == -1`. -/
structure Obj where
  fd : Option Nat
  watching : Bool
  deriving DecidableEq, Repr

/-- A live `PosixAsyncSocketServer`: the identity of its `server_socket_`, and whether `callback_` is set. -/
structure Srv where
  sock : Option Nat
  callback : Bool
  deriving DecidableEq, Repr

/-- Everything. `objs` are the live sockets by identity; `next` is the next identity; `files` are the open descriptors;
`watch` is `watched_shared_fds_` (async_manager.cc:277): a descriptor and the socket its callback captured; `servers` by
identity; `joined` are the descriptors that the kernel connected to a peer. -/
structure World where
  objs : List (Nat × Obj)
  next : Nat
  files : List Nat
  watch : List (Nat × Nat)
  servers : List (Nat × Srv)
  joined : List Nat
  deriving DecidableEq, Repr

def World.init : World := ⟨[], 0, [], [], [], []⟩

/-- What the program sees. `called i`: the callback of the socket `i` runs. `accepted s i`: the callback of the server `s` gets
the new socket `i`. `made i`: the connector returns the socket `i`. `server s`: the new server. `says b`: the call returns `b`. -/
inductive Seen
  | called (i : Nat)
  | accepted (s i : Nat)
  | made (i : Nat)
  | server (s : Nat)
  | says (b : Bool)
  deriving DecidableEq, Repr

/-- Outcomes. `impossible`: the kernel or the program does not do that. `stray`: `close` of a descriptor that is not open.
`dangling`: use of a socket that is gone. `null`: use of an empty pointer. `wild`: `FD_SET` outside the set. -/
inductive Res
  | ok (w : World) (seen : List Seen)
  | impossible
  | stray
  | dangling
  | null
  | wild
  deriving DecidableEq, Repr

/-- The live socket `i`. -/
def World.obj (w : World) (i : Nat) : Option Obj := (w.objs.find? (fun e => e.1 = i)).map (·.2)

/-- The live server `s`. -/
def World.srv (w : World) (s : Nat) : Option Srv := (w.servers.find? (fun e => e.1 = s)).map (·.2)

/-- Assignment to the members of a socket. -/
def World.put (w : World) (i : Nat) (o : Obj) : World := { w with objs := w.objs.map (fun e => if e.1 = i then (i, o) else e) }

/-- A new `PosixAsyncSocket(fd, am)`, posix_async_socket.cc:41-55. -/
def World.add (w : World) (fd : Option Nat) : World := { w with objs := w.objs ++ [(w.next, ⟨fd, false⟩)], next := w.next + 1 }

/-- A descriptor the kernel opens. -/
def World.opens (w : World) (fd : Nat) : World := { w with files := fd :: w.files }

/-- `close(fd)`. -/
def World.closes (w : World) (fd : Nat) : World := { w with files := w.files.filter (· ≠ fd), joined := w.joined.filter (· ≠ fd) }

/-- `StopWatching`, posix_async_socket.cc:150-155, with StopWatchingFileDescriptor (async_manager.cc:130-133). -/
def stopWatching (w : World) (i : Nat) (o : Obj) : World :=
  if o.watching then
    { w.put i { o with watching := false } with watch := w.watch.filter (fun e => some e.1 ≠ o.fd) }
  else w

/-- `Close`, posix_async_socket.cc:117-138. `none`: the descriptor is not open. -/
def close (w : World) (i : Nat) (o : Obj) : Option World :=
  match o.fd with
  | none => some w
  | some fd =>
    if fd ∈ w.files then some ((stopWatching w i o).put i ⟨none, false⟩ |>.closes fd)
    else none

/-- `WatchForNonBlockingRead`, posix_async_socket.cc:140-148, with WatchFdForNonBlockingReads (async_manager.cc:109-128), whose
map keeps the last callback of a descriptor. `started`: the thread of the watcher runs or could be started. The descriptor is
put into the `fd_set` by the next round of that thread. -/
def watch (w : World) (i : Nat) (o : Obj) (started : Bool) : Res :=
  if o.watching then .ok w [.says false]
  else
    match o.fd with
    | none => .wild
    | some fd =>
      if fd < 1024 then
        .ok { w.put i { o with watching := true } with watch := (fd, i) :: w.watch.filter (fun e => e.1 ≠ fd) } [.says started]
      else .wild

/-- What the kernel answers to the constructor of a server. -/
inductive Bound
  | noSocket
  | bindFails (fd : Nat)
  | listenFails (fd : Nat)
  | ok (fd : Nat)
  deriving DecidableEq, Repr

/-- The constructor, posix_async_socket_server.cc:33-77, with SetOnConnectCallback
(async_data_channel_server.h:75), which every user calls before StartListening. -/
def newServer (w : World) (b : Bound) : Res :=
  match b with
  | .noSocket => .ok { w with servers := w.servers ++ [(w.next, ⟨none, true⟩)], next := w.next + 1 } [.server w.next]
  | .bindFails fd | .listenFails fd =>
    if fd ∈ w.files then .impossible
    else .ok { (w.opens fd).closes fd with servers := w.servers ++ [(w.next, ⟨none, true⟩)], next := w.next + 1 } [.server w.next]
  | .ok fd =>
    if fd ∈ w.files then .impossible
    else
      .ok { (w.opens fd).add (some fd) with servers := w.servers ++ [(w.next + 1, ⟨some w.next, true⟩)], next := w.next + 2 }
        [.server (w.next + 1)]

/-- `StartListening`, posix_async_socket_server.cc:79-87: the result of watching is not used. -/
def startListening (w : World) (v : Srv) (started : Bool) : Res :=
  match v.sock with
  | none => .ok w [.says false]
  | some i =>
    if v.callback then
      match w.obj i with
      | none => .dangling
      | some o =>
        match watch w i o started with
        | .ok w' _ => .ok w' [.says true]
        | r => r
    else .ok w [.says false]

/-- `StopListening`, posix_async_socket_server.cc:111: the pointer is not tested. -/
def stopListening (w : World) (v : Srv) : Res :=
  match v.sock with
  | none => .null
  | some i =>
    match w.obj i with
    | none => .dangling
    | some o => .ok (stopWatching w i o) []

/-- `Close` of a server, posix_async_socket_server.cc:89-93. -/
def closeServer (w : World) (v : Srv) : Res :=
  match v.sock with
  | none => .ok w []
  | some i =>
    match w.obj i with
    | none => .dangling
    | some o =>
      match close w i o with
      | none => .stray
      | some w' => .ok w' []

/-- `AcceptSocket`, posix_async_socket_server.cc:97-109. `r` is the result of `accept`. -/
def accept (w : World) (s i : Nat) (o : Obj) (r : Option Nat) : Res :=
  match r with
  | none => .ok w []
  | some fd =>
    if fd ∈ w.files then .impossible
    else .ok ((stopWatching (w.opens fd) i o).add (some fd)) [.accepted s w.next]

/-- The watcher finds the descriptor readable and runs its callback (async_manager.cc:234-245, with the lambdas of
posix_async_socket.cc:143-145 and posix_async_socket_server.cc:84-85). `r` is the result of `accept`, if it is called. -/
def ready (w : World) (fd : Nat) (r : Option Nat) : Res :=
  match w.watch.find? (fun e => e.1 = fd) with
  | none => .impossible
  | some (_, i) =>
    match w.obj i with
    | none => .dangling
    | some o =>
      match w.servers.find? (fun e => e.2.sock = some i) with
      | some (s, _) => accept w s i o r
      | none => .ok w [.called i]

/-- What the kernel answers to the connector: `fails fd` for each of the failures after `socket`. -/
inductive Joined
  | noSocket
  | fails (fd : Nat)
  | ok (fd : Nat)
  deriving DecidableEq, Repr

/-- `ConnectToRemoteServer`, posix_async_socket_connector.cc:35-109. A descriptor below 1 is taken for a failure of `socket`. -/
def connect (w : World) (j : Joined) : Res :=
  match j with
  | .noSocket => .ok (w.add none) [.made w.next]
  | .fails fd =>
    if fd ∈ w.files then .impossible
    else if fd < 1 then .ok ((w.opens fd).add (some fd)) [.made w.next]
    else
      match close ((w.opens fd).add (some fd)) w.next ⟨some fd, false⟩ with
      | none => .stray
      | some w' => .ok w' [.made w.next]
  | .ok fd =>
    if fd ∈ w.files then .impossible
    else if fd < 1 then .ok ((w.opens fd).add (some fd)) [.made w.next]
    else .ok { (w.opens fd).add (some fd) with joined := fd :: w.joined } [.made w.next]

/-- The destructor, posix_async_socket.cc:65. -/
def destroy (w : World) (i : Nat) (o : Obj) : Res :=
  match close w i o with
  | none => .stray
  | some w' => .ok { w' with objs := w'.objs.filter (fun e => e.1 ≠ i) } []

/-- The move constructor, posix_async_socket.cc:57-64. -/
def moved (w : World) (i : Nat) (o : Obj) : Res :=
  .ok { w.put i ⟨none, false⟩ with objs := (w.put i ⟨none, false⟩).objs ++ [(w.next, o)], next := w.next + 1 } [.made w.next]

/-- What can happen. A socket is used by who has a pointer to it, so only live sockets are used, and the socket of a server is
not destroyed alone. `dropServer` is the destruction of a server, with its socket. -/
inductive Act
  | server (b : Bound)
  | listen (s : Nat) (started : Bool)
  | stop (s : Nat)
  | shut (s : Nat)
  | dropServer (s : Nat)
  | ready (fd : Nat) (r : Option Nat)
  | connect (j : Joined)
  | watch (i : Nat) (started : Bool)
  | unwatch (i : Nat)
  | close (i : Nat)
  | destroy (i : Nat)
  | move (i : Nat)
  deriving DecidableEq, Repr

/-- The socket of some server. -/
def World.ofServer (w : World) (i : Nat) : Bool := w.servers.any (fun e => e.2.sock = some i)

/-- A use of the live socket `i`, from outside of its server. -/
def use (w : World) (i : Nat) (f : Obj → Res) : Res :=
  match w.obj i with
  | none => .impossible
  | some o => if w.ofServer i then .impossible else f o

/-- A use of the live server `s`. -/
def serve (w : World) (s : Nat) (f : Srv → Res) : Res :=
  match w.srv s with
  | none => .impossible
  | some v => f v

/-- The destruction of a server: the last pointer to its socket goes (posix_async_socket_server.h). -/
def dropServer (w : World) (s : Nat) (v : Srv) : Res :=
  match v.sock with
  | none => .ok { w with servers := w.servers.filter (fun e => e.1 ≠ s) } []
  | some i =>
    match w.obj i with
    | none => .dangling
    | some o =>
      match destroy w i o with
      | .ok w' x => .ok { w' with servers := w'.servers.filter (fun e => e.1 ≠ s) } x
      | r => r

def step (w : World) : Act → Res
  | .server b => newServer w b
  | .listen s started => serve w s (fun v => startListening w v started)
  | .stop s => serve w s (fun v => stopListening w v)
  | .shut s => serve w s (fun v => closeServer w v)
  | .dropServer s => serve w s (fun v => dropServer w s v)
  | .ready fd r => ready w fd r
  | .connect j => connect w j
  | .watch i started => use w i (fun o => watch w i o started)
  | .unwatch i => use w i (fun o => .ok (stopWatching w i o) [])
  | .close i => use w i (fun o => match close w i o with
    | none => .stray
    | some w' => .ok w' [])
  | .destroy i => use w i (fun o => destroy w i o)
  | .move i => use w i (fun o => moved w i o)

/-- A history. The result is that of the first step that goes wrong, if there is one. -/
def run (w : World) : List Act → Res
  | [] => .ok w []
  | a :: as =>
    match step w a with
    | .ok w' x =>
      match run w' as with
      | .ok w'' y => .ok w'' (x ++ y)
      | r => r
    | r => r

end Verif.Fd
