import Verif.Ll.SpecAsk
/-!
# Periodic advertising as the host asked: specification (C110)
-/

namespace Verif.Ll
open Verif.Le

/-- The notes of a host on periodic advertising: the synchronization it waits for, by the
periodic advertiser list or with one advertiser; the list; and the advertisers it is
synchronized with, with the handles it was told. -/
structure Trains where
  want : Option (Bool × PalEntry) := none
  list : List PalEntry := []
  synced : List (Nat × PalEntry) := []

/-- The notes after an accepted command. -/
def Trains.accepted (m : Trains) : Cmd → Trains
  | .createSync o adv _ _ => { m with want := some (o.useList, adv) }
  | .createSyncCancel => { m with want := none }
  | .terminateSync h => { m with synced := m.synced.filter fun e => e.1 ≠ h }
  | .addPeriodicAdvertiser e => { m with list := m.list ++ [e] }
  | .removePeriodicAdvertiser e => { m with list := m.list.filter fun e' => e' ≠ e }
  | .clearPeriodicAdvertiser => { m with list := [] }
  | _ => m

/-- The notes after an event. -/
def Trains.event (m : Trains) : Out → Trains
  | .syncEstablished h sid r _ => { m with want := none, synced := m.synced ++ [(h, ⟨kindOf r, r.address, sid⟩)] }
  | _ => m

/-- The notes after an operation. LE Periodic Advertising Sync Established comes only with
a packet of the advertiser. -/
def Trains.note (m : Trains) (o : Op) (b : Obs) : Trains :=
  match o with
  | .cmd c => if b.status = some .success then m.accepted c else m
  | .receive _ _ (.periodic _) => b.out.foldl Trains.event m
  | .reset => {}
  | _ => m

/-- Run some operations and take notes. -/
def runTrains (ah : Hash) (cfg : Config) : List Op → State → Trains → Res (State × Trains)
  | [], s, m => .ok (s, m)
  | o :: os, s, m => (step ah cfg s o).bind fun x => runTrains ah cfg os x.1 (m.note o x.2)

/-- The host waits for a synchronization with this advertiser. -/
def Trains.waits (m : Trains) (e : PalEntry) : Prop :=
  match m.want with
  | none => False
  | some (true, _) => e ∈ m.list
  | some (false, e') => e' = e

/-- An extended scan goes on. -/
def Ask.scansExtended (n : Ask) : Prop := ∃ scan, n.scan = some scan ∧ scan.extended = true

end Verif.Ll
