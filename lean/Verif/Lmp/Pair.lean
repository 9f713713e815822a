import Verif.Lmp.Manager

/-!
# Two devices connected to each other

Two controllers with one link between them, and their hosts. Everything that decides the order of events
is a choice of the schedule: when each controller's `Tick` runs, when a packet on the way arrives, when a
host sends the answer it has decided on. Packets in each direction arrive in the order in which they were
sent. A host sends a command only when its previous one has been answered (`num_hci_command_packets` is
always 1).
-/

namespace Verif.Lmp

/-- What the user and the host of a device answer: whether there is a stored link key, whether a PIN, the
numeric comparison, a passkey and out-of-band data are given, and the IO capabilities (`none`: a negative
reply). -/
structure User where
  linkKey : Bool
  pin : Bool
  io : Option Params
  confirm : Bool
  passkey : Bool
  oob : Bool

/-- Any value: only IO capability replies have parameters. -/
def noParams : Params := ⟨.displayOnly, .notPresent, .noBonding⟩

def reply (b : Bool) (pos neg : Kind) : Cmd := ⟨if b then pos else neg, 1, noParams⟩

def ioReply : Option Params → Cmd
  | some p => ⟨.ioReply, 1, p⟩
  | none => ⟨.ioNeg, 1, noParams⟩

/-- The command with which a host answers an event that asks for one. -/
def User.answer (u : User) : Ev → Option Cmd
  | .linkKeyRequest => some (reply u.linkKey .linkKeyReply .linkKeyNeg)
  | .pinCodeRequest => some (reply u.pin .pinReply .pinNeg)
  | .ioCapabilityRequest => some (ioReply u.io)
  | .userConfirmationRequest => some (reply u.confirm .confirmReply .confirmNeg)
  | .userPasskeyRequest => some (reply u.passkey .passkeyReply .passkeyNeg)
  | .remoteOobDataRequest => some (reply u.oob .oobReply .oobNeg)
  | _ => none

/-- A device: its link, the packets on their way to it, the answers its host has yet to send, and the
events its host has got. -/
structure Dev where
  link : Link
  wire : List Lmp
  host : List Cmd
  log : List Ev

def Out.ev? : Out → Option Ev | .hci e => some e | .lmp _ => none
def Out.pkt? : Out → Option Lmp | .lmp p => some p | .hci _ => none

/-- Two devices; `a` is the one whose host asks for authentication. -/
structure Duo where
  a : Dev
  b : Dev

inductive Act
  | tickA | tickB | arriveA | arriveB | sendA | sendB
  deriving DecidableEq, Repr

def Dev.arrive (d : Dev) : Dev :=
  match d.wire with
  | [] => d
  | p :: w => { d with wire := w, link := { d.link with queue := d.link.queue ++ [p] } }

def Dev.send (d : Dev) : Dev :=
  match d.link.slot, d.host with
  | none, c :: h => { d with host := h, link := { d.link with slot := some c } }
  | _, _ => d

/-- The device after its procedures have run and sent `outs`. -/
def Dev.after (d : Dev) (u : User) (l : Link) (outs : List Out) : Dev :=
  { d with link := l, host := d.host ++ (outs.filterMap Out.ev?).filterMap u.answer,
           log := d.log ++ outs.filterMap Out.ev? }

def Dev.receive (d : Dev) (outs : List Out) : Dev :=
  { d with wire := d.wire ++ outs.filterMap Out.pkt? }

/-- One event of the schedule; `none` is a panic. -/
def Duo.act (ua ub : User) (s : Duo) : Act → Option Duo
  | .tickA =>
    match s.a.link.tick with
    | none => none
    | some (l, o) => some ⟨s.a.after ua l o, s.b.receive o⟩
  | .tickB =>
    match s.b.link.tick with
    | none => none
    | some (l, o) => some ⟨s.a.receive o, s.b.after ub l o⟩
  | .arriveA => some { s with a := s.a.arrive }
  | .arriveB => some { s with b := s.b.arrive }
  | .sendA => some { s with a := s.a.send }
  | .sendB => some { s with b := s.b.send }

def Duo.run (ua ub : User) : Duo → List Act → Option Duo
  | s, [] => some s
  | s, x :: xs =>
    match s.act ua ub x with
    | none => none
    | some s' => s'.run ua ub xs

/-- A connected link with fresh procedures (`addLink`). -/
def freshLink (f : Feats) : Link := ⟨1, none, [], some (procedures f)⟩

/-- The link is up, and the host of `a` is about to ask for authentication. -/
def Duo.start (fa fb : Feats) : Duo :=
  ⟨⟨freshLink fa, [], [⟨.authenticationRequested, 1, noParams⟩], []⟩, ⟨freshLink fb, [], [], []⟩⟩

/-- Nothing is left to be done: nothing is on the way, no host has anything to send, and a `Tick` of
either device sends nothing and consumes nothing. -/
def Dev.Idle (d : Dev) : Prop :=
  d.wire = [] ∧ d.host = [] ∧ d.link.slot = none ∧ d.link.queue = []

/-- All five procedures of the device are back at their start. -/
def Dev.Finished (d : Dev) : Prop :=
  ∃ ps, d.link.procs = some ps ∧ ∀ p ∈ ps, p.busy = false

def Ev.pairing? : Ev → Option Status | .simplePairingComplete s => some s | _ => none
def Ev.key? : Ev → Option KeyType | .linkKeyNotification t => some t | _ => none
def Ev.auth? : Ev → Option Status | .authenticationComplete s => some s | _ => none

/-- The Simple Pairing Complete, Link Key Notification and Authentication Complete events of a host. -/
def Dev.pairings (d : Dev) : List Status := d.log.filterMap Ev.pairing?
def Dev.keys (d : Dev) : List KeyType := d.log.filterMap Ev.key?
def Dev.auths (d : Dev) : List Status := d.log.filterMap Ev.auth?

end Verif.Lmp
