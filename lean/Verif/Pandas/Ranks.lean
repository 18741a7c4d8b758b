import Verif.Pandas.Fold
import Verif.Pandas.Sort
import Verif.Pandas.Labels
import Verif.Pandas.Reindex
/-
Specification vocabulary: `mode`, `quantile` with a list and `rank`, pandas' semantics.
-/

variable {ι κ α β Q : Type}

/-- `Series.mode(dropna)`: the values that occur most often, in order -/
def modesOf [DecidableEq α] (le : α → α → Bool) (isna : α → Bool) (dropna : Bool) (c : List α) : List α :=
  let vals := if dropna then c.filter (fun x => !isna x) else c
  sortBy le (vals.eraseDups.filter fun v => vals.all fun w => decide (vals.count w ≤ vals.count v))

/-- the first `n` entries, missing ones added -/
def padTo (nan : α) (n : Nat) (c : List α) : List α := (List.range n).map fun i => (c[i]?).getD nan

/-- how many rows `df.mode()` has: as many as the column with the most modes -/
def Frame.modeRows (md : List α → List α) (f : Frame ι κ α) : Nat := (f.cols.map fun c => (md c).length).foldr max 0

/-- `df.mode(axis=0)`: the modes of every column from the top, columns with fewer modes filled up with missing values;
    the rows are numbered.  `md` are the modes of a column. -/
def Frame.mode (nan : α) (md : List α → List α) (f : Frame ι κ α) : Frame Nat κ α :=
  f.mapColumns (fun _ => List.range (f.modeRows md)) fun c => padTo nan (f.modeRows md) (md c)

/-- `df.quantile(qs, axis=...)`: one row for each of the quantiles, one column for each column (row) of the frame.  `quant c q` is
    the quantile of a column; `valid` says which quantiles are between 0 and 1, others raise. -/
def Frame.quantiles0 (valid : Q → Bool) (quant : List α → Q → β) (qs : List Q) (f : Frame ι κ α) : Option (Frame Q κ β) :=
  if qs.all valid then some ⟨qs, f.columns, qs.map fun q => f.cols.map fun c => quant c q⟩ else none

def Frame.quantiles1 (valid : Q → Bool) (quant : List α → Q → β) (qs : List Q) (f : Frame ι κ α) : Option (Frame Q ι β) :=
  if qs.all valid then some ⟨qs, f.index, qs.map fun q => f.rows.map fun r => quant r q⟩ else none

/-- the `method` of `rank` -/
inductive RankMethod where
  | average
  | min
  | max
  | first
  | dense
deriving DecidableEq, Repr

/-- `Series.rank(method, na_option="keep", ascending, pct)` of the cells of a line.  `lt` is the order (reversed for
    `ascending=False`). -/
def rankLine (lt : α → α → Bool) (isna : α → Bool) (method : RankMethod) (pct : Bool) (c : List α) : List (Option Rat) :=
  let same := fun x y => !lt x y && !lt y x
  let vals := c.filter fun x => !isna x
  let firsts := fun l : List α => (l.zipIdx.filter fun p => (l.take p.2).all fun y => !same y p.1).map (·.1)
  c.mapIdx fun i x =>
    if isna x then none
    else
      let less := (vals.filter fun y => lt y x).length
      let equal := (vals.filter (same x)).length
      let before := ((c.take i).filter fun y => !isna y && same x y).length
      let r : Rat := match method with
        | .average => less + ((equal : Rat) + 1) / 2
        | .min => less + 1
        | .max => less + equal
        | .first => less + before + 1
        | .dense => (firsts (vals.filter fun y => lt y x)).length + 1
      if pct then some (r / (if method = .dense then (firsts vals).length else vals.length : Nat)) else some r
