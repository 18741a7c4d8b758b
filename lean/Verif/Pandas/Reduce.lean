import Verif.Pandas.Columns
/-
Specification vocabulary: pandas' reductions of one column (or row) of numbers with missing
values (`none`).
-/

namespace Pandas

/-- `sum(skipna=..., min_count=...)`: missing if a value is missing and may not be skipped, or if
    there are fewer than `min_count` values. -/
def sum (skipna : Bool) (minCount : Nat) (c : List (Option Int)) : Option Int :=
  if !skipna && c.contains none then none
  else if (c.filterMap id).length < minCount then none
  else some (c.filterMap id).sum

/-- product of a list -/
def product : List Int → Int
  | [] => 1
  | x :: xs => x * product xs

/-- `prod(skipna=..., min_count=...)` -/
def prod (skipna : Bool) (minCount : Nat) (c : List (Option Int)) : Option Int :=
  if !skipna && c.contains none then none
  else if (c.filterMap id).length < minCount then none
  else some (product (c.filterMap id))

/-- `count()`: the number of values that are not missing -/
def count {α : Type} (c : List (Option α)) : Nat := (c.filterMap id).length

/-- the smallest value -/
def least : List Int → Option Int
  | [] => none
  | x :: xs => some (xs.foldl min x)

/-- the largest value -/
def greatest : List Int → Option Int
  | [] => none
  | x :: xs => some (xs.foldl max x)

/-- `min(skipna=...)` -/
def min (skipna : Bool) (c : List (Option Int)) : Option Int :=
  if !skipna && c.contains none then none else least (c.filterMap id)

/-- `max(skipna=...)` -/
def max (skipna : Bool) (c : List (Option Int)) : Option Int :=
  if !skipna && c.contains none then none else greatest (c.filterMap id)

/-- `bool(x)`; a missing value that is not skipped counts as true -/
def truthy : Option Int → Bool
  | none => true
  | some v => v != 0

/-- `any(skipna=...)` -/
def any (skipna : Bool) (c : List (Option Int)) : Bool :=
  (c.filter fun v => !skipna || v.isSome).any truthy

/-- `all(skipna=...)` -/
def all (skipna : Bool) (c : List (Option Int)) : Bool :=
  (c.filter fun v => !skipna || v.isSome).all truthy

/-- `mean(skipna=...)` in exact arithmetic -/
def mean (skipna : Bool) (c : List (Option Int)) : Option Rat :=
  if !skipna && c.contains none then none
  else if c.filterMap id = [] then none
  else some (((c.filterMap id).sum : Rat) / ((c.filterMap id).length : Rat))

end Pandas

variable {ι κ α ι' κ' β : Type}

/-- the cells of a column whose row carries a given label (`df.loc["sum"]`) -/
def cellsAt {ℓ τ : Type} [DecidableEq ℓ] (lab : ℓ) (labels : List ℓ) (c : List τ) : List τ :=
  ((labels.zip c).filter (·.1 = lab)).map (·.2)

/-- One row, labelled `lab`: the value of `h` for every column. -/
def Frame.reduceColumns (lab : ι') (h : List α → β) (f : Frame ι κ α) : Frame ι' κ β :=
  { index := [lab], columns := f.columns, rows := [f.cols.map h] }

/-- One column, labelled `lab`: the value of `h` for every row. -/
def Frame.reduceRows (lab : κ') (h : List α → β) (f : Frame ι κ α) : Frame ι κ' β :=
  { index := f.index, columns := [lab], rows := f.rows.map fun r => [h r] }
