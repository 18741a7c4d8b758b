import Verif.Pandas.SortIndex
import Verif.Pandas.SortValues
/-
Specification vocabulary: `DataFrame.sort_values(axis=1)`.
-/

variable {ι κ α Q : Type}

/-- `df.xs(x)`: the cells of the row labelled `x`; raises (`none`) if no row or more than one row is called `x` -/
def Frame.rowNamed [DecidableEq ι] (x : ι) (df : Frame ι κ α) : Option (List α) :=
  match df.records.filter (fun r => decide (r.1 = x)) with
  | [r] => some r.2
  | _ => none

/-- `df.sort_values(by, axis=1)`: `order` takes the cells of the rows named and gives the positions of the columns in their new
    order; `numbers` is given with `ignore_index=True` and makes the new labels. -/
def Frame.sortColumnsBy [DecidableEq ι] (order : List (List α) → List Nat) (numbers : Option (Nat → κ)) (by_ : List ι)
    (df : Frame ι κ α) : Option (Frame ι κ α) :=
  if by_ = [] then some df
  else (by_.mapM fun x => df.rowNamed x).map fun keys =>
    let s := df.takeCols (order keys)
    match numbers with
    | none => s
    | some num => { s with columns := (List.range s.columns.length).map num }

/-- what stands in each column of some rows, from left to right -/
def lineColumns (keys : List (List α)) : List (Unit × List α) :=
  (List.range ((keys.head?.map List.length).getD 0)).map fun j => ((), keys.filterMap (·[j]?))

/-- the order a stable algorithm finds: by the first of the rows named, ties by the second and so on, each with its direction -/
def lineOrder (le : Q → Q → Bool) (key : α → Option Q) (naLast : Bool) (asc : List Bool) (keys : List (List α)) : List Nat :=
  stableOrder (rowBefore le key naLast ((List.range keys.length).zip asc)) (lineColumns keys)
