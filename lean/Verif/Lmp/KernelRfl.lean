import Lean.Elab.Tactic.Basic

/-!
# `kernel_rfl`

Closes a goal `a = b` with `Eq.refl b`, and leaves it to the kernel to check, when it checks the theorem,
that `a` computes to `b`. `rfl` would make the elaborator compute first, which is too slow for the long
computations of this component; `decide +kernel` does the same as this tactic but only for goals without
variables.
-/

namespace Verif.Lmp

open Lean Elab Tactic in
/-- Closes `a = b` with `Eq.refl b`; the kernel does the check. -/
elab "kernel_rfl" : tactic => do
  let g ← getMainGoal
  let some (α, _, b) := (← instantiateMVars (← g.getType)).eq? | throwError "kernel_rfl: the goal is not an equation"
  g.assign (mkApp2 (.const ``Eq.refl [1]) α b)

end Verif.Lmp
