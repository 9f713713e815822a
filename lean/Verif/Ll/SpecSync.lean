import Verif.Ll.Model
/-!
# Periodic synchronization: specification (C39)
-/

namespace Verif.Ll
open Verif.Le

/-- The host asked to synchronize with this advertiser: by name, or by a command that
refers to the periodic advertiser list, to which it added the advertiser. -/
def Asked (ops : List Op) (adv : PalEntry) : Prop :=
  (∃ opt t ct, Op.cmd (.createSync opt adv t ct) ∈ ops ∧ opt.useList = false) ∨
  (∃ opt other t ct, Op.cmd (.createSync opt other t ct) ∈ ops ∧ opt.useList = true) ∧
    Op.cmd (.addPeriodicAdvertiser adv) ∈ ops

/-- The operation asks for a synchronization by the list. -/
def UsesList : Op → Prop
  | .cmd (.createSync opt _ _ _) => opt.useList = true
  | _ => False

end Verif.Ll
