import Verif.Ll.SpecConn
/-!
# The connections the host knows of: specification (C113)

The host keeps a list of its LE connections: it adds the ones it is told of by an LE
Connection Complete event, and removes the ones it is told of by a Disconnection Complete
event. HCI Reset empties the list.
-/

namespace Verif.Ll
open Verif.Le

/-- The list: the connection with a handle. -/
abbrev Links := Nat → Option LeConn

/-- The host hears of something. -/
def Links.hear (l : Links) : Out → Links
  | .connected k c => fun i => if i = k then some c else l i
  | .disconnected k _ => fun i => if i = k then none else l i
  | _ => l

/-- The list after an operation. -/
def Links.note (l : Links) (o : Op) (b : Obs) : Links :=
  match o with
  | .reset => fun _ => none
  | _ => b.out.foldl Links.hear l

/-- Run some operations and keep the list. -/
def runLinks (ah : Hash) (cfg : Config) : List Op → State → Links → Res (State × Links)
  | [], s, l => .ok (s, l)
  | o :: os, s, l => (step ah cfg s o).bind fun x => runLinks ah cfg os x.1 (l.note o x.2)

/-- The list when the controller starts. -/
def Links.none : Links := fun _ => .none

/-- What the packet of a connection is to the host. -/
def passedOn (k : Nat) : Body → Out
  | .acl pb bc d => .acl k (if pb = 0 then 2 else pb) bc d
  | .disconnect r => .disconnected k r
  | .other t d => .dispatched k t d

/-- The connection is between these addresses. -/
def LeConn.between (c : LeConn) (peer own : Address) : Prop := c.address.address = peer ∧ c.own.address = own

end Verif.Ll
