import Verif.Lmp.Pair

/-!
# All schedules of two devices, explored

A proof device for C34: an abstraction of `Duo` in which packets on the way are merged with the packets
received, the answers of a host with its command slot, and a `Tick` is cut into single steps of single
procedures. `explore` runs through all steps that can be taken, and checks the states where none can.
-/

namespace Verif.Lmp

structure MSide where
  procs : List Proc
  inbox : List Cmd
  queue : List Lmp
  /-- the procedure that moved last -/
  last : Nat
  log : List Ev

structure MSys where
  a : MSide
  b : MSide

def MSys.get (s : MSys) : Bool → MSide | false => s.a | true => s.b
def MSys.put (s : MSys) : Bool → MSide → MSys | false, x => { s with a := x } | true, x => { s with b := x }

/-- The events that make up the verdict. -/
def Ev.verdict : Ev → Bool
  | .simplePairingComplete _ => true
  | .linkKeyNotification _ => true
  | .authenticationComplete _ => true
  | .encryptionChange _ => true
  | _ => false

/-- Does the procedure wait for a command? -/
def wantsHci : Prog Unit → Bool
  | .recvHci _ _ => true
  | .passkey _ => true
  | _ => false

/-- Procedure `p` would take the head of the queue. -/
def takesLmp (p : Prog Unit) (q : List Lmp) : Bool :=
  match p, q with
  | .recvLmp acc _, l :: _ => acc l
  | .wait _ _, .accepted _ :: _ => true
  | .wait _ _, .notAccepted _ :: _ => true
  | _, _ => false

/-- Procedure `p` would take command `c`. -/
def takesHci (p : Prog Unit) (c : Option Cmd) : Bool :=
  match p, c with
  | .recvHci acc _, some c => acc c.kind
  | .passkey _, some c => c.kind = .passkeyReply || c.kind = .passkeyNeg || c.kind = .keypress
  | _, _ => false

def takes (p : Prog Unit) (c : Option Cmd) (q : List Lmp) : Bool := takesLmp p q || takesHci p c

/-- No procedure of `ps` contests what `p` takes. -/
def uncontested (p : Prog Unit) (c : Option Cmd) (q : List Lmp) (ps : List Proc) : Bool :=
  if wantsHci p then ps.all (fun r => !takesHci r.cur c) else ps.all (fun r => !takesLmp r.cur q)

/-- Procedure `i` can move: it takes something, and either no procedure before it, or none from the one
that moved last, would take it. -/
def MSide.can (m : MSide) (i : Nat) : Bool :=
  match m.procs[i]? with
  | none => false
  | some p =>
    takes p.cur m.inbox.head? m.queue &&
    (uncontested p.cur m.inbox.head? m.queue (m.procs.take i) ||
      (decide (m.last ≤ i) && uncontested p.cur m.inbox.head? m.queue ((m.procs.take i).drop m.last)))

/-- The procedure would drop an answer that names another opcode. -/
def mismatch (p : Prog Unit) (q : List Lmp) : Bool :=
  match p, q with
  | .wait op _, .accepted o :: _ => o ≠ op
  | .wait op _, .notAccepted o :: _ => o ≠ op
  | _, _ => false

def inboxAfter (slot : Option Cmd) (inbox : List Cmd) : List Cmd :=
  match slot with
  | none => inbox.tail
  | some _ => inbox

/-- Procedure `i` moves: the new state of its side and what it sends. `none`: a panic, or a dropped
answer. -/
def MSide.fire (m : MSide) (i : Nat) : Option (MSide × List Out) :=
  match m.procs[i]? with
  | none => none
  | some p =>
    if mismatch p.cur m.queue then none
    else
      match offer p.cur m.inbox.head? m.queue with
      | none => none
      | some t =>
        match flush t.next with
        | (_, .panic) => none
        | (o, .await c) =>
          some (⟨m.procs.set i ⟨p.top, c, true⟩, inboxAfter t.slot m.inbox, t.queue, i,
            m.log ++ (o.filterMap Out.ev?).filter Ev.verdict⟩, o)
        | (o, .done) =>
          some (⟨m.procs.set i ⟨p.top, p.top, false⟩, inboxAfter t.slot m.inbox, t.queue, i,
            m.log ++ (o.filterMap Out.ev?).filter Ev.verdict⟩, o)

/-- What a host may answer to an event. -/
inductive Ans | quiet | forbidden | oneOf (l : List Cmd)

/-- All sequences of answers to a sequence of events, `none` if one is forbidden. -/
def answers (al : Ev → Ans) : List Ev → Option (List (List Cmd))
  | [] => some [[]]
  | e :: es =>
    match al e, answers al es with
    | _, none => none
    | .forbidden, _ => none
    | .quiet, r => r
    | .oneOf l, some r => some (l.flatMap (fun c => r.map (fun cs => c :: cs)))

def allB {α : Type} (f : α → Bool) : List α → Bool
  | [] => true
  | [x] => f x
  | x :: y :: xs => f x && allB f (y :: xs)

/-- The side after a move, with the answers of its host. -/
def MSide.withAnswers (m : MSide) (cs : List Cmd) : MSide := { m with inbox := m.inbox ++ cs }
def MSide.receive (m : MSide) (o : List Out) : MSide := { m with queue := m.queue ++ o.filterMap Out.pkt? }

def MSys.moves (s : MSys) : List (Bool × Nat) :=
  (([0, 1, 2, 3, 4].filter s.a.can).map (fun i => (false, i))) ++ (([0, 1, 2, 3, 4].filter s.b.can).map (fun i => (true, i)))

def explore (al : Bool → Ev → Ans) (good : MSys → Bool) : Nat → MSys → Bool
  | 0, _ => false
  | n + 1, s =>
    match s.moves with
    | [] => good s
    | ms =>
      allB (fun m =>
        match (s.get m.1).fire m.2 with
        | none => false
        | some (x, o) =>
          match answers (al m.1) (o.filterMap Out.ev?) with
          | none => false
          | some css =>
            allB (fun cs => explore al good n (((s.put m.1 (x.withAnswers cs))).put (!m.1) ((s.get (!m.1)).receive o))) css)
        ms

end Verif.Lmp
