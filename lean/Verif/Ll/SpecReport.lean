import Verif.Ll.Model
/-!
# Advertising reports: specification (C21)
-/

namespace Verif.Ll
open Verif.Le

/-- `l` is a series of fragments (complete or not, data) of `data`: not empty, in
order, nothing lost, no fragment longer than `max`, exactly the last one complete. -/
structure WholeSeries (max : Nat) (data : List UInt8) (l : List (Bool × List UInt8)) : Prop where
  concat : (l.map (·.2)).flatten = data
  short : ∀ f ∈ l, f.2.length ≤ max
  status : ∃ init last, l = init ++ [last] ∧ last.1 = true ∧ ∀ f ∈ init, f.1 = false

/-- The LE Extended Advertising Reports among some outputs. -/
def extReportsOf (out : List Out) : List ExtReport :=
  out.filterMap (fun o => match o with | .extReport r => some r | _ => none)

/-- The LE Advertising Reports among some outputs. -/
def legacyReportsOf (out : List Out) : List (ReportType × AddressWithType × List UInt8) :=
  out.filterMap (fun o => match o with | .legacyReport t a d => some (t, a, d) | _ => none)

/-- The LE Periodic Advertising Reports for one handle among some outputs. -/
def periodicReportsOf (h : Nat) (out : List Out) : List (Bool × List UInt8) :=
  out.filterMap (fun o => match o with
    | .periodicReport k c d => if k = h then some (c, d) else none
    | _ => none)

end Verif.Ll
