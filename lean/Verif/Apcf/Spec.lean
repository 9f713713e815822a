import Verif.Apcf.Model
/-!
# What a host expects of APCF

A set of filters, each with its own conditions. Nothing of the tables of the model is used, but the commands and answers. -/
namespace Verif.Apcf

/-- A condition: what the advertisement is compared with. -/
structure Cond where
  tag : Nat
  data : List UInt8
  mask : List UInt8
  deriving DecidableEq, Repr

/-- A filter of the host. -/
structure Flt where
  index : Nat
  params : List Nat
  conds : Kind → List Cond

/-- The filter with an index. -/
def find (l : List Flt) (i : Nat) : Option Flt := l.find? (fun f => f.index = i)

/-- How many conditions of a kind there are, in all filters. -/
def total (l : List Flt) (k : Kind) : Nat := (l.map (fun f => (f.conds k).length)).sum

/-- Changes the conditions of a kind of the filter `i`. -/
def change (l : List Flt) (i : Nat) (k : Kind) (f : List Cond → List Cond) : List Flt :=
  l.map (fun x => if x.index = i then { x with conds := fun j => if j = k then f (x.conds j) else x.conds j } else x)

/-- The condition of a command: names, UUIDs and data come with a mask of the same length. -/
def condOf (k : Kind) (e : Entry) : Cond := match k with
  | .address => ⟨e.tag, e.data, []⟩
  | .adType => ⟨e.tag, e.data, e.mask⟩
  | _ => ⟨0, e.data.take (e.data.length / 2), e.data.drop (e.data.length / 2)⟩

/-- What the host expects of a command: the status, the spaces left, and the filters afterwards. `F` and `C` are the numbers
of filters and conditions the controller has room for. -/
def expect (F : Nat) (C : Kind → Nat) (l : List Flt) : Cmd → (Nat × Nat) × List Flt
  | .enable _ => ((0, 0), l)
  | .features => ((0, 0), l)
  | .reset => ((0, 0), [])
  | .discovery _ => ((0x12, 0), l)
  | .filter .add _ i p =>
    if (find l i).isSome then ((0x12, F - l.length), l)
    else if l.length = F then ((0x07, 0), l)
    else ((0, F - l.length - 1), l ++ [⟨i, p, fun _ => []⟩])
  | .filter .delete _ i _ =>
    if (find l i).isSome then ((0, F - l.length + 1), l.filter (fun f => f.index ≠ i)) else ((0x02, F - l.length), l)
  | .filter .clear _ _ _ => ((0, F), [])
  | .filter (.other _) _ _ _ => ((0x12, 0), l)
  | .condition k a _ e =>
    if k = .address ∧ a ≠ .add ∧ a ≠ .delete ∧ a ≠ .clear then ((0x12, 0), l)
    else if (find l e.index).isNone then ((0x02, C k - total l k), l)
    else match a with
      | .add => if total l k = C k then ((0x07, 0), l)
        else ((0, C k - total l k - 1), change l e.index k (fun cs => cs ++ [condOf k e]))
      | .delete =>
        ((0, C k - total (change l e.index k (fun cs => cs.filter (fun x => x ≠ condOf k e))) k),
          change l e.index k (fun cs => cs.filter (fun x => x ≠ condOf k e)))
      | .clear => ((0, C k - total (change l e.index k (fun _ => [])) k), change l e.index k (fun _ => []))
      | .other _ => ((0x12, C k - total l k), l)

/-- The command is long enough. -/
def formed : Cmd → Bool
  | .filter .add f _ _ => f
  | .filter .delete f _ _ => f
  | .condition .address (.other _) _ _ => true
  | .condition _ _ f _ => f
  | .discovery f => f
  | _ => true

/-- What the host expects of a history. -/
def expected (F : Nat) (C : Kind → Nat) (l : List Flt) : List Cmd → List Res
  | [] => []
  | x :: xs => .answer (expect F C l x).1.1 (expect F C l x).1.2 :: expected F C (expect F C l x).2 xs

end Verif.Apcf
