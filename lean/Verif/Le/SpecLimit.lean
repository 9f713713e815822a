import Verif.Le.Step
/-!
# Vocabulary of C46: limited advertising sets
-/

namespace Verif.Le

/-- An advertising PDU of the set `h`. The periodic train of a set is a thing of its
own: it is started and stopped by its own command and is not meant here. -/
def AdvOut.sentBy (h : UInt8) : AdvOut → Bool
  | .legacyPdu (some k) .. => k == h
  | .extendedPdu k .. => k == h
  | _ => false

/-- The LE Advertising Set Terminated event for the set `h`. -/
def AdvOut.endOf (h : UInt8) : AdvOut → Bool
  | .setTerminated k _ => k == h
  | _ => false

/-- The advertising PDUs and the terminated events of the set `h`, in order. -/
def about (h : UInt8) (out : List AdvOut) : List AdvOut :=
  out.filter (fun o => o.sentBy h || o.endOf h)

/-- Operations other than the clock by which the set `h` is enabled or disabled: the
enable command that names it, or that names no set and so means all of them, a
connection made through it, and the reset. -/
def Op.switches (h : UInt8) : Op → Bool
  | .cmd (.setExtAdvertisingEnable _ _ _ sets) => sets.isEmpty || sets.any (fun x => x.handle == h)
  | .env (.extendedConnected k) => k == h
  | .env .reset => true
  | _ => false

/-- Run a list of operations and collect everything sent. -/
def runOut (cfg : Config) : List Op → State → Option (State × List AdvOut)
  | [], s => some (s, [])
  | o :: os, s =>
    match step cfg s o with
    | .ok s1 _ out1 =>
      match runOut cfg os s1 with
      | some (s2, out2) => some (s2, out1 ++ out2)
      | none => none
    | .ub => none
    | .fatal => none

/-- The set `h` is advertising, with these limits and this number of events done. -/
def Advertises (s : State) (h : UInt8) (timeout : Option Nat) (maxEvents done : Nat) : Prop :=
  ∃ a, mapFind s.extAdv h = some a ∧ a.enable = true ∧ a.timeout = timeout ∧ a.maxEvents = maxEvents ∧
    a.numCompletedEvents = done

/-- The set `h` is not advertising. -/
def Silent (s : State) (h : UInt8) : Prop :=
  ∀ a, mapFind s.extAdv h = some a → a.enable = false

end Verif.Le
