import Verif.Link.Model
/-!
# What the hosts of a connected LE link rely on -/
namespace Verif.Link

/-- Two controllers that have just been connected: A is the central. Nothing is on its way, and nothing is known of the
link's connections before. The controllers may have any other connections, settings and masks. -/
structure Joined (n : Net) : Prop where
  a : n.a.conns n.ha = some (Conn.fresh .central)
  b : n.b.conns n.hb = some (Conn.fresh .peripheral)
  toA : n.toA = []
  toB : n.toB = []
  tasksA : ∀ e ∈ n.a.tasks, e.handle ≠ n.ha
  tasksB : ∀ e ∈ n.b.tasks, e.handle ≠ n.hb

/-- The commands of A's host in a history. -/
def cmdsA (xs : List NAct) : List Cmd := xs.filterMap (fun x => match x with
  | .hostA c => some c
  | _ => none)

/-- The commands of B's host in a history. -/
def cmdsB (xs : List NAct) : List Cmd := xs.filterMap (fun x => match x with
  | .hostB c => some c
  | _ => none)

/-- The events of A's host in a history. -/
def eventsA (l : List Seen) : List Ev := l.flatMap (fun s => s.evA)

/-- The events of B's host in a history. -/
def eventsB (l : List Seen) : List Ev := l.flatMap (fun s => s.evB)

/-! ## C75: PHYs -/

/-- The PHYs a connection sends and receives on. -/
def phys (d : Dev) (h : Nat) : Option (Phy × Phy) := (d.conns h).map (fun c => (c.tx, c.rx))

/-- The bit of a PHY in a set of PHYs. -/
def Phy.bit : Phy → Nat
  | .m1 => 0
  | .m2 => 1
  | .coded => 2

/-- A set of PHYs contains a PHY. -/
def has (s : Nat) (p : Phy) : Bool := s.testBit p.bit

/-- The PHYs of a connection, as the host knows them: those of the last LE PHY Update Complete event. -/
def known (h : Nat) : Phy × Phy → List Ev → Phy × Phy
  | x, [] => x
  | x, e :: l => known h (match e with
    | .phyDone k tx rx => if k = h then (tx, rx) else x
    | _ => x) l

/-- The host does not mask LE PHY Update Complete. -/
def hearsPhy : Cmd → Bool
  | .setMask m => m.testBit 61
  | .setLeMask m => m.testBit 11
  | _ => true

/-- The LE PHY Update Complete events of a connection. -/
def phyEvents (h : Nat) (l : List Ev) : Nat := (l.filter (fun e => match e with
  | .phyDone k _ _ => k = h
  | _ => false)).length

/-- A Set PHY of A's host for the connection that the controller accepts. -/
def setA (h : Nat) (s : Seen) : Bool := match s.act with
  | .hostA (.setPhy k _ _ _ _) => k = h && s.status = 0
  | _ => false

/-- A Set PHY of B's host for the connection that the controller accepts. -/
def setB (h : Nat) (s : Seen) : Bool := match s.act with
  | .hostB (.setPhy k _ _ _ _) => k = h && s.status = 0
  | _ => false

/-- B's host has had a Set PHY accepted and has not been told of an update since. -/
def waits (h : Nat) : Bool → List Seen → Bool
  | w, [] => w
  | w, s :: l => waits h (phyEvents h s.evB = 0 && (setB h s || w)) l

/-- All PHYs, if the host has no preference, or the ones it names. -/
def asked (supported : Nat) (any : Bool) (s : Nat) : Nat := if any then supported else s

/-- The choice of a PHY: one both sides want, if there is one; otherwise it stays. -/
def chosen (mine theirs : Nat) (old new : Phy) : Prop :=
  ((∃ p, has mine p = true ∧ has theirs p = true) → has mine new = true ∧ has theirs new = true) ∧
  ((¬∃ p, has mine p = true ∧ has theirs p = true) → new = old)

/-! ## C74: encryption -/

/-- The connection is encrypted. -/
def encrypted (d : Dev) (h : Nat) : Option Bool := (d.conns h).map (fun c => c.encrypted)

/-- How the host is told the end of an encryption procedure of a connection: the status. -/
def encEnd (h : Nat) : Ev → Option Nat
  | .encChange st k _ => if k = h then some st else none
  | .encChangeV2 st k _ => if k = h then some st else none
  | .keyRefresh st k => if k = h then some st else none
  | _ => none

/-- The ends of encryption procedures. -/
def encEnds (h : Nat) (l : List Ev) : List Nat := l.filterMap (encEnd h)

/-- The requests for a long term key. -/
def ltkAsks (h : Nat) (l : List Ev) : Nat := (l.filter (fun e => match e with
  | .ltkRequest k _ _ => k = h
  | _ => false)).length

/-- What the hosts of a link know of its encryption: the key of the procedure that A's host has started and of which it
has not been told the end, and whether B's host has been asked for the key and has not answered. -/
structure Talk where
  key : Option Key
  asked : Bool
  deriving DecidableEq, Repr

/-- After a step. -/
def Talk.after (t : Talk) (n : Net) (s : Seen) : Talk :=
  { key := match s.act with
      | .hostA (.enable h _ _ k) => if h = n.ha ∧ s.status = 0 then some k else t.key
      | _ => if encEnds n.ha s.evA ≠ [] then none else t.key
    asked := match s.act with
      | .hostB (.reply h _) => if h = n.hb then false else t.asked
      | .hostB (.negative h) => if h = n.hb then false else t.asked
      | _ => if ltkAsks n.hb s.evB ≠ 0 then true else t.asked }

/-- The central starts encryption, one procedure at a time; the peripheral answers when it is asked, with the same key
or without; the hosts hear of it. -/
def orderly (t : Talk) (n : Net) : NAct → Bool
  | .hostA (.enable h _ _ _) => h ≠ n.ha || t.key.isNone
  | .hostA (.reply h _) => h ≠ n.ha
  | .hostA (.negative h) => h ≠ n.ha
  | .hostA (.setMask m) => m.testBit 7 && m.testBit 47
  | .hostB (.enable h _ _ _) => h ≠ n.hb
  | .hostB (.reply h k) => h ≠ n.hb || (t.asked && t.key = some k)
  | .hostB (.negative h) => h ≠ n.hb || t.asked
  | .hostB (.setMask m) => m.testBit 61
  | _ => true

/-- A history all of whose steps are orderly. -/
def orderlyRun (t : Talk) (n : Net) : List NAct → Bool
  | [] => true
  | x :: xs => orderly t n x && (nstep n x).all (fun r => orderlyRun (t.after n r.2) r.1 xs)

/-- What the hosts know at the end. -/
def talk (t : Talk) (n : Net) : List NAct → Talk
  | [] => t
  | x :: xs => match nstep n x with
    | none => t
    | some r => talk (t.after n r.2) r.1 xs

/-- Whether a connection is encrypted, as the host knows it: what the last successful Encryption Change says. -/
def believes (h : Nat) : Bool → List Ev → Bool
  | b, [] => b
  | b, e :: l => believes h (match e with
    | .encChange st k on => if k = h ∧ st = 0 then on else b
    | .encChangeV2 st k on => if k = h ∧ st = 0 then on else b
    | _ => b) l

/-- The host does not mask Encryption Change. -/
def hearsChange : Cmd → Bool
  | .setMask m => m.testBit 7
  | _ => true

/-- The host masks neither Encryption Change nor Encryption Key Refresh Complete. -/
def hearsEnd : Cmd → Bool
  | .setMask m => m.testBit 7 && m.testBit 47
  | _ => true

/-- The host does not mask the LE events. -/
def hearsLe : Cmd → Bool
  | .setMask m => m.testBit 61
  | _ => true

/-- The keys with which a host enables encryption of a connection. -/
def enabled (h : Nat) (cs : List Cmd) : List Key := cs.filterMap (fun c => match c with
  | .enable k _ _ key => if k = h then some key else none
  | _ => none)

/-- The keys with which a host replies to requests. -/
def replied (h : Nat) (cs : List Cmd) : List Key := cs.filterMap (fun c => match c with
  | .reply k key => if k = h then some key else none
  | _ => none)

/-- The negative replies of a host. -/
def refused (h : Nat) (cs : List Cmd) : Nat := cs.countP (fun c => match c with
  | .negative k => k = h
  | _ => false)

/-- The encryption requests among packets. -/
def encs (q : List Pkt) : List Key := q.filterMap (fun p => match p with
  | .enc _ _ k => some k
  | _ => none)

/-- The encryption responses among packets. -/
def answers (q : List Pkt) : List (Nat × Key) := q.filterMap (fun p => match p with
  | .encRsp st k => some (st, k)
  | _ => none)

/-- The keys of the Enable Encryption commands for a connection that the controller has accepted and not yet started. -/
def tasksOf (d : Dev) (h : Nat) : List Key := (d.tasks.filter (fun e => e.handle = h)).map (·.ltk)

/-! ## C76: data -/

/-- An ACL packet: the packet boundary and broadcast flags and the data. -/
abbrev Data := Nat × Nat × List UInt8

/-- What a host sends on the connection `h`. -/
def sent (h : Nat) (cs : List Cmd) : List Data := cs.filterMap (fun c => match c with
  | .acl k pb bc d => if k = h then some (pb, bc, d) else none
  | _ => none)

/-- What a host gets on a connection. -/
def got (h : Nat) (l : List Ev) : List Data := l.filterMap (fun e => match e with
  | .acl k pb bc d => if k = h then some (pb, bc, d) else none
  | _ => none)

/-- What is on its way. -/
def onAir (q : List Pkt) : List Data := q.filterMap (fun p => match p with
  | .acl pb bc d => some (pb, bc, d)
  | _ => none)

/-- A first fragment is marked as non-flushable (0) by the sender's host and as flushable (2) for the receiver's. -/
def asReceived : Data → Data
  | (pb, bc, d) => (if pb = 0 then 2 else pb, bc, d)

/-- The packets of a connection that the host is told are completed. -/
def acknowledged (h : Nat) (l : List Ev) : Nat := (l.map (fun e => match e with
  | .completed k n => if k = h then n else 0
  | _ => 0)).sum

/-! ## C77: features and versions -/

/-- The features a host is told of the peer of a connection, with the status. -/
def toldFeatures (h : Nat) (l : List Ev) : List (Nat × Nat) := l.filterMap (fun e => match e with
  | .features st k f => if k = h then some (st, f) else none
  | _ => none)

/-- The versions a host is told: version, company, subversion. -/
def toldVersions (h : Nat) (l : List Ev) : List (Nat × Nat × Nat) := l.filterMap (fun e => match e with
  | .version k v m s => if k = h then some (v, m, s) else none
  | _ => none)

/-- The requests for features of a host. -/
def featureAsks (h : Nat) (cs : List Cmd) : Nat := cs.countP (fun c => match c with
  | .readFeatures k => k = h
  | _ => false)

/-- The requests for the version of a host. -/
def versionAsks (h : Nat) (cs : List Cmd) : Nat := cs.countP (fun c => match c with
  | .readVersion k => k = h
  | _ => false)

/-- Requests and answers about features that are on their way, on one side. -/
def featureAir (q : List Pkt) (answer : Bool) : Nat := q.countP (fun p => match p with
  | .featReq => !answer
  | .featRsp _ _ => answer
  | _ => false)

/-- Requests and answers about versions that are on their way, on one side. -/
def versionAir (q : List Pkt) (answer : Bool) : Nat := q.countP (fun p => match p with
  | .verReq => !answer
  | .verRsp _ _ _ => answer
  | _ => false)

/-- The host does not mask Read Remote Version Information Complete. -/
def hearsVersion : Cmd → Bool
  | .setMask m => m.testBit 11
  | _ => true

end Verif.Link
