import Verif.Br.Model
/-!
# What hosts of BR/EDR controllers rely on

Written in terms of the commands, events and packets of `Verif.Br.Model`. -/
namespace Verif.Br

/-! ## C62: a connection attempt as its host sees it -/

/-- The attempt that is open after a Connection Complete event. An event with handle 0xeff tells of a request
the host itself refused. Any other event about the peer of the open attempt answers it. Other events are only
for connections the host accepts. Nothing: the event answers no attempt. -/
def answer (open_ : Option Nat) (accepting : Bool) : Ev → Option (Option Nat)
  | .connComplete st h a .acl =>
    if h = 0xeff then some open_
    else if open_ = some a then some none
    else if accepting && st == 0 then some open_
    else none
  | _ => some open_

/-- All the events of a step. -/
def answers (open_ : Option Nat) (accepting : Bool) : List Ev → Option (Option Nat)
  | [] => some open_
  | e :: es => (answer open_ accepting e).bind (fun o => answers o accepting es)

/-- An accepted Create Connection opens an attempt, if none is open; Reset ends it. -/
def started (open_ : Option Nat) (x : Seen) : Option (Option Nat) :=
  match x.act with
  | .cmd (.create a _) => if x.status = 0 then (if open_ = none then some (some a) else none) else some open_
  | .cmd .reset => some none
  | _ => some open_

/-- Whether the host accepts a connection. -/
def accepting : Act → Bool
  | .cmd (.accept _ _) => true
  | _ => false

/-- The attempt that is open at the end of a history. Nothing: something was answered twice, or without an
attempt. -/
def follow (open_ : Option Nat) : List Seen → Option (Option Nat)
  | [] => some open_
  | x :: xs => ((started open_ x).bind (fun o => answers o (accepting x.act) x.ev)).bind (fun o => follow o xs)

/-- The host does not mask the Connection Complete event. -/
def hears : Act → Bool
  | .cmd (.setMask m) => m.testBit 2
  | _ => true

/-! ## Peers -/

/-- The devices a controller is connected with. -/
def peers (s : Ctl) : List Nat := s.acl.map (fun e => e.2.addr)

/-- The air mode of an event (µ-law 0, A-law 1, CVSD 2, transparent 3) for the two lowest bits of a voice setting: the
air coding format CVSD, µ-law, A-law, transparent (Vol 4, Part E, 6.12). -/
def airOfVoice (v : UInt16) : Nat := [2, 0, 1, 3].getD (v.toNat % 4) 0

/-- How many synchronous connections there are with a device. -/
def syncs (s : Ctl) (a : Nat) : Nat := (s.sco.filter (fun e => e.2.addr = a)).length

/-- The role in the connection with a device. -/
def roleWith (s : Ctl) (a : Nat) : Option Role := (s.acl.find? (fun e => e.2.addr = a)).map (fun e => e.2.role)

/-! ## C65: what makes a controller fail -/

/-- Addressed to the controller. -/
def forMe (s : Ctl) (dst : Nat) : Bool := dst = 0 || dst = s.addr

/-- The first synchronous connection with a device has a running stream. -/
def streaming (s : Ctl) (a : Nat) : Bool := (s.sco.find? (fun e => e.2.addr = a)).any (fun e => e.2.stream)

/-- The first synchronous connection with a device is not open yet. -/
def syncPending (s : Ctl) (a : Nat) : Bool :=
  (s.sco.find? (fun e => e.2.addr = a)).any (fun e => e.2.state ≠ .closed && e.2.state ≠ .opened)

/-- A synchronous handle. -/
def isSync (s : Ctl) (h : Nat) : Bool := s.sco.any (fun e => e.1 = h)

/-- The controller aborts. -/
def Aborts (s : Ctl) (now : Nat) : Act → Prop
  | .cmd (.accept a _) => (∃ p, s.scan = some p ∧ p.addr = a) ∧ a ∉ peers s ∧ 7 ≤ s.acl.length
  | .cmd (.disconnect h _) => isSync s h = false ∧ ∃ c, (h, c) ∈ s.acl ∧ 2 ≤ syncs s c.addr
  | .cmd (.acl _ _ bc _) => bc ≠ 0
  | .cmd _ => False
  | .tick => False
  | .check h => ∃ c, (h, c) ∈ s.acl ∧ c.last + 3000000000 < now ∧ isSync s h = false ∧ 2 ≤ syncs s c.addr
  | .packet src dst _ (.pageRsp _) => forMe s dst = true ∧ (∃ p, s.page = some p ∧ p.addr = src) ∧ 7 ≤ s.acl.length
  | .packet src dst _ (.disconnect _) => forMe s dst = true ∧ src ∈ peers s ∧ 1 ≤ syncs s src
  | .packet src dst _ (.scoRsp _ _) => forMe s dst = true ∧ streaming s src = true
  | .packet _ dst _ (.lmp ok) => forMe s dst = true ∧ ok = false
  | .packet _ _ _ _ => False

/-- The controller never returns. -/
def Hangs (s : Ctl) : Act → Prop
  | .cmd (.setupSync h _ _) => ∃ c, (h, c) ∈ s.acl ∧ syncPending s c.addr = false ∧ 256 ≤ s.sco.length
  | .cmd (.addSco h _) => ∃ c, (h, c) ∈ s.acl ∧ syncPending s c.addr = false ∧ 256 ≤ s.sco.length
  | .packet src dst _ (.scoReq _ _) => forMe s dst = true ∧ syncPending s src = false ∧ 256 ≤ s.sco.length
  | _ => False

/-- The controller reads outside the array of its features. -/
def Strays (s : Ctl) : Act → Prop
  | .cmd (.extLocal p) => 3 ≤ p
  | .packet _ dst _ (.extReq p) => forMe s dst = true ∧ 3 ≤ p
  | _ => False

/-- Nobody uses the empty address. -/
def Named : Act → Prop
  | .cmd (.create a _) => a ≠ 0
  | .packet src _ _ _ => src ≠ 0
  | _ => True

/-- No synchronous connections, no broadcast flag, no features page above 2, only well-formed LMP, and only
the given devices. -/
def Plain (devices : List Nat) : Act → Prop
  | .cmd (.create a _) => a ≠ 0 ∧ a ∈ devices
  | .cmd (.setupSync _ _ _) => False
  | .cmd (.addSco _ _) => False
  | .cmd (.extLocal p) => p < 3
  | .cmd (.acl _ _ bc _) => bc = 0
  | .packet src _ _ p => src ≠ 0 ∧ src ∈ devices ∧ (match p with
    | .scoReq _ _ => False
    | .lmp ok => ok = true
    | .extReq p => p < 3
    | _ => True)
  | _ => True

/-! ## C64: orderly histories of two devices -/

/-- No page and no answer to a page is on its way. -/
def settled (n : Net) : Bool :=
  n.toB.all (fun x => match x.2 with
    | .page _ _ => false
    | _ => true) &&
  n.toA.all (fun x => match x.2 with
    | .pageRsp _ => false
    | _ => true)

/-- A pages and B answers. A's attempts are neither given up nor timed out; B neither rejects requests nor hides
them from its host, and ends connections only when they are set up at both ends. -/
def orderly (n : Net) (now : Nat) : NAct → Bool
  | .hostA (.create x _) => x ≠ 0
  | .hostA (.cancel _) => false
  | .hostA (.setMask m) => m.testBit 3
  | .hostA .reset => n.a.page.isNone
  | .tickA => n.a.page.all (fun p => now < p.timeout)
  | .hostB (.create _ _) => false
  | .hostB (.reject _ _) => false
  | .hostB (.setMask m) => m.testBit 3
  | .hostB (.disconnect _ _) => settled n
  | .hostB .reset => settled n
  | .checkB _ => settled n
  | _ => true

/-- A history all of whose steps are orderly. -/
def orderlyRun (n : Net) : List (Nat × NAct) → Bool
  | [] => true
  | (now, x) :: xs => orderly n now x && (nstep n now x).all (fun r => orderlyRun r.1 xs)

/-- The link policy of the connection with a device allows role switches. -/
def allowsSwitch (s : Ctl) (a : Nat) : Bool := (s.acl.find? (fun e => e.2.addr = a)).any (fun e => e.2.policy.testBit 0)

/-! ## C68: data -/

/-- Nobody ends a connection: no Disconnect, no Reset, and no connection expires. -/
def calm (n : Net) (now : Nat) : NAct → Bool
  | .hostA (.disconnect _ _) => false
  | .hostA .reset => false
  | .hostA (.create x _) => x ≠ 0
  | .hostB (.disconnect _ _) => false
  | .hostB .reset => false
  | .hostB (.create x _) => x ≠ 0
  | .checkA _ => n.a.acl.all (fun e => now ≤ e.2.last + 3000000000)
  | .checkB _ => n.b.acl.all (fun e => now ≤ e.2.last + 3000000000)
  | _ => true

/-- A history all of whose steps are calm. -/
def calmRun (n : Net) : List (Nat × NAct) → Bool
  | [] => true
  | (now, x) :: xs => calm n now x && (nstep n now x).all (fun r => calmRun r.1 xs)

/-- Nobody uses the empty address. -/
def named : NAct → Bool
  | .hostA (.create x _) => x ≠ 0
  | .hostB (.create x _) => x ≠ 0
  | _ => true

/-- A device has a connection with a handle and an address. -/
def linked (s : Ctl) (h a : Nat) : Prop := ∃ c, (h, c) ∈ s.acl ∧ c.addr = a

/-- An ACL packet: the packet boundary and broadcast flags and the data. -/
abbrev Data := Nat × Nat × List UInt8

/-- What A's host sends on a connection. -/
def sent (h : Nat) (xs : List (Nat × NAct)) : List Data :=
  xs.filterMap (fun x => match x.2 with
    | .hostA (.acl k pb bc d) => if k = h then some (pb, bc, d) else none
    | _ => none)

/-- What B's host sends on a connection. -/
def sentBack (h : Nat) (xs : List (Nat × NAct)) : List Data :=
  xs.filterMap (fun x => match x.2 with
    | .hostB (.acl k pb bc d) => if k = h then some (pb, bc, d) else none
    | _ => none)

/-- What a host gets on a connection. -/
def got (h : Nat) (ev : List Ev) : List Data :=
  ev.filterMap (fun e => match e with
    | .acl k pb bc d => if k = h then some (pb, bc, d) else none
    | _ => none)

/-- What is on its way to a device. -/
def onAir (x : Nat) (l : List (Nat × Pkt)) : List Data :=
  l.filterMap (fun o => match o.2 with
    | .acl pb bc d => if o.1 = 0 ∨ o.1 = x then some (pb, bc, d) else none
    | _ => none)

/-- A first fragment is marked as non-flushable (0) by the sender's host and as flushable (2) for the receiver's. -/
def asReceived : Data → Data
  | (pb, bc, d) => (if pb = 0 then 2 else pb, bc, d)

/-- No end of a connection is on its way. -/
def undisturbed (l : List (Nat × Pkt)) : Bool := l.all (fun o => match o.2 with
  | .disconnect _ => false
  | _ => true)

/-- The acknowledgements of data packets. -/
def acks (ev : List Ev) : List (Nat × Nat) :=
  ev.filterMap (fun e => match e with
    | .completed h n => some (h, n)
    | _ => none)

/-- The data packets of the host in a history of one controller. -/
def handed (l : List Seen) : List Nat :=
  l.filterMap (fun x => match x.act with
    | .cmd (.acl h _ _ _) => some h
    | _ => none)

/-! ## C67: an inquiry as its host sees it -/

/-- An inquiry: its access code, when it is next sent, and when it ends. -/
structure Asking where
  lap : Nat
  next : Nat
  deadline : Nat
  deriving DecidableEq, Repr

/-- The inquiry after a step: an inquiry of length `n` lasts `n` times 1.28 s and is sent every 2 s. -/
def asking (o : Option Asking) (x : Seen) : Option Asking :=
  match x.act with
  | .cmd (.inquiry lap n _) => if x.status = 0 then some ⟨lap, x.now + 2000000000, x.now + n * 1280000000⟩ else o
  | .cmd .inquiryCancel => if x.status = 0 then none else o
  | .cmd .reset => none
  | .tick => match o with
    | none => none
    | some i => if i.deadline ≤ x.now then none else if i.next ≤ x.now then some { i with next := x.now + 2000000000 } else some i
  | _ => o

/-- The access codes of the inquiries a step sends, to everyone. -/
def inquiries (out : List (Nat × Pkt)) : List Nat := out.filterMap (fun o => match o with
  | (0, .inquiry _ lap) => some lap
  | _ => none)

/-- A step is right, if this inquiry is going on: an inquiry is accepted exactly if its parameters are legal and
none is going on; it can be cancelled exactly if it is going on; the host is told of its end exactly when it ends, and
not if it is cancelled; it is sent when it is time. -/
def rightly (o : Option Asking) (x : Seen) : Bool :=
  (match x.act with
    | .cmd (.inquiry _ n r) => decide (x.status = 0) == (decide (1 ≤ n ∧ n ≤ 0x30 ∧ r ≤ 0xff) && o.isNone)
    | .cmd .inquiryCancel => decide (x.status = 0) == o.isSome
    | _ => true) &&
  x.ev.count .inqComplete == (if x.act = .tick ∧ o.any (fun i => i.deadline ≤ x.now) = true then 1 else 0) &&
  inquiries x.out == (match x.act, o with
    | .tick, some i => if i.next ≤ x.now ∧ x.now < i.deadline then [i.lap] else []
    | _, _ => [])

/-- A history whose steps are right. -/
def inquires (o : Option Asking) : List Seen → Bool
  | [] => true
  | x :: xs => rightly o x && inquires (asking o x) xs

/-- The host does not mask the Inquiry Complete event. -/
def hearsEnd : Act → Bool
  | .cmd (.setMask m) => m.testBit 0
  | _ => true

/-- A device answers inquiries with this access code. -/
def discoverable (s : Ctl) (lap : Nat) : Prop := s.inqScan = true ∧ lap ∈ s.iac

/-- The host hears inquiry results of a mode. Extended results are not masked. -/
def hearsResults (s : Ctl) : Nat → Bool
  | 0 => s.mask.testBit 1
  | 1 => s.mask.testBit 33
  | _ => true

end Verif.Br
