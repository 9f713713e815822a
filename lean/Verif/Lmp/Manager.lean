import Verif.Lmp.Model

/-!
# The BR/EDR link manager: links and commands

Models `LinkManager` (/repo/rust/src/lmp/manager.rs), its entry points (rust/src/ffi.rs 117-225) and what
the controller does with their results: every `false` is an `ASSERT` failure (bredr_controller.cc 189, 266,
1674, 1911, 2044, 2092-2094), which aborts the process, as does a Rust panic.
-/

namespace Verif.Lmp

/-- `Link` and its entry in `procedures` (manager.rs 32-38, 100-104). -/
structure Link where
  peer : Nat
  slot : Option Cmd
  queue : List Lmp
  procs : Option (List Proc)

/-- `hci::EMPTY_ADDRESS`. -/
def emptyAddress : Nat := 0

/-- `Link::default()`. -/
def Link.unused : Link := ⟨emptyAddress, none, [], none⟩

/-- `MAX_PEER_NUMBER` (manager.rs 98). -/
def maxPeers : Nat := 7

/-- `LinkManager`: its links and what `ops` tells about the local features. -/
structure Mgr where
  links : List Link
  feats : Feats

/-- `LinkManager::new` (manager.rs 107-109). -/
def Mgr.init (f : Feats) : Mgr := ⟨List.replicate maxPeers .unused, f⟩

/-- What leaves the link manager: an event for the host, with the address of the peer it is about, or a
packet for a peer. -/
inductive MOut
  | hci (addr : Nat) (e : Ev)
  | lmp (to : Nat) (p : Lmp)
  deriving DecidableEq, Repr

def MOut.of (peer : Nat) : Out → MOut
  | .hci e => .hci peer e
  | .lmp p => .lmp peer p

/-- The outcome of an entry point: it goes on, or the process is gone. `panic` is a Rust panic, `assertion`
a failed `ASSERT` on its result. -/
inductive Res
  | ok (m : Mgr) (outs : List MOut)
  | panic
  | assertion

/-- The first index that satisfies a test (`iter().position`). -/
def position (p : Link → Bool) : List Link → Option Nat
  | [] => none
  | l :: ls => if p l then some 0 else (position p ls).map (· + 1)

/-- Kinds that have a completion event in `send_command_complete_event` (manager.rs 128-231). -/
def Kind.answerable : Kind → Bool
  | .oobExtended => false
  | _ => true

/-- `send_command_complete_event`. -/
def complete (c : Cmd) (s : Status) : Option (List MOut) :=
  if c.kind.answerable then some [.hci c.addr (.answer c.kind s)] else none

/-- The address by which the link of a command is looked up (manager.rs 235-239, rust/src/packets.rs
60-88). A handle that is not known gives no address; a command of no listed kind gives none. -/
def Cmd.lookup (c : Cmd) : Option Nat :=
  match c.kind with
  | .authenticationRequested | .setConnectionEncryption => if c.addr = emptyAddress then none else some c.addr
  | .oobExtended => none
  | _ => some c.addr

/-- `ingest_hci` (manager.rs 233-248). `Link::ingest_hci` panics if the slot is taken (manager.rs 60-62).
`none` is a command whose octets are not those of a valid packet: either `decode_full` fails, or
`specialize` fails and no completion event is found. -/
def ingestHci (m : Mgr) : Option Cmd → Res
  | none => .assertion
  | some c =>
    match c.lookup.bind (fun a => position (fun l => l.peer = a) m.links) with
    | some i =>
      match m.links[i]? with
      | some l =>
        if l.slot.isSome then .panic
        else .ok { m with links := m.links.set i { l with slot := some c } } []
      | none => .panic
    | none =>
      match complete c .invalidParameters with
      | some o => .ok m o
      | none => .assertion

/-- `ingest_lmp` (manager.rs 115-124): packets of unknown peers are dropped. `none` is a packet that does
not decode. -/
def ingestLmp (m : Mgr) (from_ : Nat) : Option Lmp → Res
  | none => .assertion
  | some p =>
    match position (fun l => l.peer = from_) m.links with
    | some i =>
      match m.links[i]? with
      | some l => .ok { m with links := m.links.set i { l with queue := l.queue ++ [p] } } []
      | none => .panic
    | none => .ok m []

/-- `add_link` (manager.rs 250-265). The command slot and the packet queue of the free link are kept. -/
def addLink (m : Mgr) (peer : Nat) : Res :=
  match position (fun l => l.peer = emptyAddress) m.links with
  | some i =>
    match m.links[i]? with
    | some l => .ok { m with links := m.links.set i { l with peer := peer, procs := some (procedures m.feats) } } []
    | none => .panic
  | none => .assertion

/-- `remove_link` (manager.rs 267-284). -/
def removeLink (m : Mgr) (peer : Nat) : Res :=
  match position (fun l => l.peer = peer) m.links with
  | some i =>
    match m.links[i]? with
    | some l =>
      match l.slot with
      | some c =>
        match complete c .unknownConnection with
        | some o => .ok { m with links := m.links.set i .unused } o
        | none => .assertion
      | none => .ok { m with links := m.links.set i .unused } []
    | none => .panic
  | none => .assertion

/-- One link's share of `tick` (manager.rs 286-297). -/
def Link.tick (l : Link) : Option (Link × List Out) :=
  match l.procs with
  | none => some (l, [])
  | some ps =>
    match pollAll ps ⟨l.slot, l.queue, []⟩ with
    | none => none
    | some (ps', s) => some (⟨l.peer, s.slot, s.queue, some ps'⟩, s.outs)

def tickLinks : List Link → Option (List Link × List MOut)
  | [] => some ([], [])
  | l :: ls =>
    match l.tick with
    | none => none
    | some (l', o) =>
      match tickLinks ls with
      | none => none
      | some (ls', o') => some (l' :: ls', o.map (MOut.of l.peer) ++ o')

/-- `tick`. -/
def tick (m : Mgr) : Res :=
  match tickLinks m.links with
  | none => .panic
  | some (ls, o) => .ok { m with links := ls } o

/-- The calls of the controller. -/
inductive Op
  | hci (c : Option Cmd)
  | lmp (from_ : Nat) (p : Option Lmp)
  | add (peer : Nat)
  | remove (peer : Nat)
  | tick
  deriving Repr

def step (m : Mgr) : Op → Res
  | .hci c => ingestHci m c
  | .lmp a p => ingestLmp m a p
  | .add a => addLink m a
  | .remove a => removeLink m a
  | .tick => tick m

/-- A history, with everything it sent. -/
def run (m : Mgr) : List Op → Res
  | [] => .ok m []
  | op :: ops =>
    match step m op with
    | .ok m' o =>
      match run m' ops with
      | .ok m'' o' => .ok m'' (o ++ o')
      | r => r
    | r => r

end Verif.Lmp
