import Verif.Env.Model
import Verif.Phy.Spec
/-! # What C99 talks about -/

namespace Verif.Env
open Verif.Phy (Config PhyType)

/-- The clients accepted by the servers of the controllers, in order. -/
def admitted (outs : List Out) : List Client :=
  outs.filterMap fun
    | .accepted (.hci _) c => some c
    | _ => none

/-- The clients that were given a controller, and the device it is, in order. -/
def controllers (outs : List Out) : List (Client × Nat) :=
  outs.filterMap fun
    | .controller c d => some (c, d)
    | _ => none

/-- The devices that stand for a client, controller or not. -/
def standins (outs : List Out) : List (Client × Nat) :=
  outs.filterMap fun
    | .controller c d => some (c, d)
    | .joined c d _ => some (c, d)
    | _ => none

/-- The clients of the test channel that were let in. -/
def testers (outs : List Out) : List Client :=
  outs.filterMap fun
    | .greeted c => some c
    | _ => none

/-- The answers: who asked, and whom the answer went to. -/
def answers (outs : List Out) : List (Option Client × Client) :=
  outs.filterMap fun
    | .answer a c => some (a, c)
    | _ => none

/-- The sockets of a program with `n` controllers in its configuration. -/
def ports (n : Nat) : List Port := [.test, .link, .ble] ++ (List.range n).map .hci

/-- No thread is in the middle of something, and nothing is left to do. -/
def AtRest (s : Sys) : Prop := s.boot = [] ∧ s.tasks = [] ∧ s.main = none ∧ s.watcher = none ∧ s.task = none

/-- The program with `n` controllers gets here by a history shorter than 2^30, and the clients observe `outs`. -/
def Gets (cfg : Config) (n : Nat) (sniffer : Bool) (acts : List Act) (s : Sys) (outs : List Out) : Prop :=
  acts.length < 2 ^ 30 ∧ run cfg (Sys.init n sniffer) acts = .ok s outs

/-- A client of the test channel asks for the end of the simulation. -/
def Act.ends : Act → Bool
  | .read _ (some .endSimulation) => true
  | _ => false

/-- The devices and phys a simulation starts with: a phy of each type, and two beacons on the one for low energy. -/
def firstDevices : Phy.Model :=
  ⟨[⟨0, ⟨1, 0, 85, 1, 172, 190⟩, [1]⟩, ⟨1, ⟨2, 0, 85, 1, 172, 190⟩, [1]⟩], [⟨0, .brEdr, []⟩, ⟨1, .lowEnergy, [0, 1]⟩], [], 2, 2⟩

/-- The two phys, and the two beacons where they belong. -/
structure Furnished (m : Phy.Model) : Prop where
  phys : ∀ p t, Phy.PhyPresent m p t ↔ (p = 0 ∧ t = .brEdr) ∨ (p = 1 ∧ t = .lowEnergy)
  beacons : ∀ d < 2, Phy.Present m d ∧ ∀ p, Phy.DeviceLists m d p ↔ p = 1

/-- The outcome, for examples. -/
def Res.outs : Res → Option (List Out)
  | .ok _ o => some o
  | _ => none

def Res.state : Res → Option Sys
  | .ok s _ => some s
  | _ => none

end Verif.Env
