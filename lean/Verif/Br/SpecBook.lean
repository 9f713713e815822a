import Verif.Br.Spec
/-!
# The connections the host of a BR/EDR controller knows of, for C114

The host keeps a book of its connections with devices: it enters those it is told of by a Connection Complete event, removes those
it is told of by a Disconnection Complete event, and changes their roles as Role Change events say. Nothing here looks into the
controller.
-/
namespace Verif.Br

/-- The device and the own role, by handle. -/
abbrev Book := Nat → Option (Nat × Role)

/-- An empty book. -/
def Book.empty : Book := fun _ => none

/-- Connections that begin, in the role `r`, and end. -/
def Book.hear (r : Role) (b : Book) : Ev → Book
  | .connComplete 0 h a .acl => fun k => if k = h then some (a, r) else b k
  | .disconnComplete h _ => fun k => if k = h then none else b k
  | _ => b

/-- Roles that change. -/
def Book.turn (b : Book) : Ev → Book
  | .roleChange 0 a r => fun k => (b k).map (fun c => if c.1 = a then (a, r) else c)
  | _ => b

/-- The book after a step. The host that accepts a connection becomes the peripheral, the one that asked for it the central, unless
a Role Change event, which may come first, says otherwise. -/
def Book.note (b : Book) (x : Seen) : Book :=
  match x.act with
  | .cmd .reset => .empty
  | _ => x.ev.foldl Book.turn (x.ev.foldl (Book.hear (if accepting x.act then .peripheral else .central)) b)

/-- The book after a history. -/
def bookOf (l : List Seen) : Book := l.foldl Book.note .empty

/-- The host does not mask the three events, and nobody rejects a connection with the reason 0, success, which reads as if there was
one (see `C62_reason_violated`). -/
def Frank : Act → Prop
  | .cmd (.setMask m) => m.testBit 2 = true ∧ m.testBit 4 = true ∧ m.testBit 17 = true
  | .cmd (.reject _ r) => r ≠ 0
  | .packet _ _ _ (.pageReject r) => r ≠ 0
  | _ => True

end Verif.Br
