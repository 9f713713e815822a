import Verif.Br.Spec
/-!
# The voice connections the host of a BR/EDR controller knows of, for C117

The host keeps a book of its synchronous (SCO and eSCO) connections and of the requests for one that are open. It only looks at
the commands it gives, the packets that pass by, and the events it gets. Nothing here looks into the controller.
-/
namespace Verif.Br

/-- The device of each known synchronous connection, by handle, and the devices with which a request is open. -/
structure Calls where
  known : Nat → Option Nat
  asked : Nat → Bool

/-- An empty book. -/
def Calls.empty : Calls := ⟨fun _ => none, fun _ => false⟩

/-- The event tells of a connection: its handle and device. -/
def begun : Ev → Option (Nat × Nat)
  | .syncComplete st h a _ _ _ _ _ _ => if st = 0 then some (h, a) else none
  | .connComplete _ _ _ .acl => none
  | .connComplete st h a _ => if st = 0 then some (h, a) else none
  | _ => none

/-- The event settles a request with the device, one way or the other. -/
def settles : Ev → Option Nat
  | .syncComplete _ _ a _ _ _ _ _ _ => some a
  | .connComplete _ _ _ .acl => none
  | .connComplete _ _ a _ => some a
  | _ => none

/-- The event asks the host to answer a request of the device. -/
def askedBy : Ev → Option Nat
  | .connRequest _ _ .acl => none
  | .connRequest a _ _ => some a
  | _ => none

/-- The packet asks the device. -/
def asksFor : Nat × Pkt → Option Nat
  | (a, .scoReq _ _) => some a
  | _ => none

/-- The packet tells the device that a synchronous connection is gone. -/
def ends : Nat × Pkt → Option Nat
  | (a, .scoDisc _) => some a
  | _ => none

/-- The connections after an event. -/
def hearCall (m : Nat → Option Nat) (e : Ev) : Nat → Option Nat :=
  match begun e with
  | some (h, a) => fun k => if k = h then some a else m k
  | none => match e with
    | .disconnComplete h _ => fun k => if k = h then none else m k
    | _ => m

/-- A request with the device is withdrawn: the host disconnects a handle it does not know as a synchronous connection and the
device is told, the supervision timeout does the same, or the device tells of the end of something. -/
def withdrawn (b : Calls) (x : Seen) (a : Nat) : Bool :=
  match x.act with
  | .cmd (.disconnect h _) => (b.known h).isNone && x.out.any (fun o => ends o == some a)
  | .check _ => x.out.any (fun o => ends o == some a)
  | .packet src _ _ (.scoDisc _) => src == a && !x.ev.isEmpty
  | _ => false

/-- The book after a step. -/
def Calls.note (b : Calls) (x : Seen) : Calls :=
  if x.act = .cmd .reset then .empty
  else
    { known := x.ev.foldl hearCall b.known
      asked := fun a => x.out.any (fun o => asksFor o == some a) || x.ev.any (fun e => askedBy e == some a) ||
        (b.asked a && !(x.ev.any (fun e => settles e == some a) || withdrawn b x a)) }

/-- The book after a history. -/
def callsOf (l : List Seen) : Calls := l.foldl Calls.note .empty

/-- The host masks neither Connection Complete nor Disconnection Complete. -/
def Attentive : Act → Prop
  | .cmd (.setMask m) => m.testBit 2 = true ∧ m.testBit 4 = true
  | _ => True

/-- A device refuses a synchronous connection only when a request with it is open. -/
def FairStep (b : Calls) : Act → Prop
  | .packet src _ _ (.scoRsp st _) => st ≠ 0 → b.asked src = true
  | _ => True

/-- At every step of a history. -/
def Fair (l : List Seen) : Prop := ∀ l1 x l2, l = l1 ++ x :: l2 → FairStep (callsOf l1) x.act

/-- The handle of a known connection with the device. -/
def Calls.with_ (b : Calls) (a : Nat) : Prop := ∃ k, b.known k = some a

end Verif.Br
