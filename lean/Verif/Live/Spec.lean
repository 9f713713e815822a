/-! # What is seen of the supervision of links -/
namespace Verif.Live

/-- What happens to a connection, by its handle, and the calls that run the tasks that are due. -/
inductive Seen where
  | connected (h : Nat)
  | received (h : Nat)
  | pinged (h : Nat)
  /-- Ended for a timeout. -/
  | ended (h : Nat)
  /-- Ended by a host or by the peer. -/
  | closed (h : Nat)
  /-- A call that began at that time has returned. -/
  | ran (since : Int)
  deriving DecidableEq, Repr

/-- What is seen, each at its time, in nanoseconds. -/
abbrev Trace := List (Int × Seen)

/-- Whether this is a sign of the peer of `h`. -/
def sign (h : Nat) : Seen → Bool
  | .connected k => k == h
  | .received k => k == h
  | _ => false

/-- Whether there is a connection with the handle after what was seen. -/
def alive (h : Nat) (tr : Trace) : Bool :=
  tr.foldl (fun b e => match e.2 with
    | .connected k => if k = h then true else b
    | .ended k => if k = h then false else b
    | .closed k => if k = h then false else b
    | _ => b) false

/-- All signs of the peer of `h` are longer ago than `d`. -/
def Silent (h : Nat) (d : Int) (now : Int) (tr : Trace) : Prop := ∀ e ∈ tr, sign h e.2 = true → e.1 + d < now

end Verif.Live
