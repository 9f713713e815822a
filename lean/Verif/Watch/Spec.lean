import Verif.Watch.Model
/-!
# What is said about the descriptor watcher

A history is read without looking at the state of the watcher: which callback is registered for a descriptor is what the last
call about that descriptor says.
-/

namespace Verif.Watch

/-- How many registrations a history has. The callback of a registration is named by how many came before it. -/
def registrations : List Act → Nat
  | [] => 0
  | .watch _ _ :: as => registrations as + 1
  | _ :: as => registrations as

/-- What an action says about a descriptor, after `n` registrations: a callback, no callback any more, or nothing. -/
def says (fd : Int) (n : Nat) : Act → Option (Option Nat)
  | .watch _ f => if f = fd then some (some n) else none
  | .unwatch _ f => if f = fd then some none else none
  | .join => some none
  | _ => none

/-- The callback of a descriptor after a history that begins after `n` registrations, when it is `r` before it. -/
def registeredFrom (fd : Int) : Nat → Option Nat → List Act → Option Nat
  | _, r, [] => r
  | n, r, a :: as => registeredFrom fd (n + registrations [a]) ((says fd n a).getD r) as

/-- The callback of a descriptor after a history. -/
def registered (fd : Int) (as : List Act) : Option Nat := registeredFrom fd 0 none as


/-- The callbacks of a history that goes well. -/
def Res.calls : Res → Option (List Reg)
  | .ok _ cs => some cs
  | _ => none

/-- Something about the state at the end of a history that goes well. -/
def Res.ends (r : Res) (p : W → Bool) : Bool := match r with
  | .ok w _ => p w
  | _ => false

example : registered 5 [.watch false 5, .watch false 7, .watch false 5, .unwatch false 7] = some 2 := by decide +kernel
example : registered 7 [.watch false 5, .watch false 7, .watch false 5, .unwatch false 7] = none := by decide +kernel

end Verif.Watch
