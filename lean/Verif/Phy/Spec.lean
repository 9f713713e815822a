import Verif.Phy.Model
/-! # What C10, C11 and C12 talk about -/

namespace Verif.Phy
open Verif.Addr

/-- Device `d` is present and says it is attached to `p`. -/
def DeviceLists (s : Model) (d p : Nat) : Prop := ∃ x ∈ s.devs, x.id = d ∧ p ∈ x.phys

/-- Phy `p` is present and has `d` among its devices. -/
def PhyLists (s : Model) (d p : Nat) : Prop := ∃ y ∈ s.phys, y.id = p ∧ d ∈ y.members

/-- Device `d` is present. -/
def Present (s : Model) (d : Nat) : Prop := ∃ x ∈ s.devs, x.id = d

/-- Phy `p` of type `t` is present. -/
def PhyPresent (s : Model) (p : Nat) (t : PhyType) : Prop := ∃ y ∈ s.phys, y.id = p ∧ y.type = t

/-- A state the test model gets to by a history of fewer than 2^32 operations. -/
def Reachable (c : Config) (s : Model) : Prop :=
  ∃ ops : List Op, ops.length < 2 ^ 32 ∧ run c Model.init ops = some s

end Verif.Phy
