import Verif.Pandas.Columns
import Verif.Pandas.Dropna
/-
Specification vocabulary: `DataFrame.equals`, iteration over rows and columns, and `asof`.
-/

variable {ι κ α L : Type}

/-- the two lists have the same length and their entries agree pairwise -/
def pairwiseSame (same : α → α → Bool) : List α → List α → Bool
  | [], [] => true
  | x :: xs, y :: ys => same x y && pairwiseSame same xs ys
  | _, _ => false

/-- `a.equals(b)`: the same labels and the same cells.  `same` says when two cells count as the same (pandas takes two missing values
    for the same). -/
def Frame.equals [DecidableEq ι] [DecidableEq κ] (same : α → α → Bool) (a b : Frame ι κ α) : Bool :=
  decide (a.index = b.index) && decide (a.columns = b.columns) && pairwiseSame (pairwiseSame same) a.rows b.rows

/-- what `df.iterrows()` yields: for every row its label, and the row as a Series labelled by the columns -/
def Frame.eachRow (df : Frame ι κ α) : List (ι × List κ × List α) := (df.index.zip df.rows).map fun r => (r.1, df.columns, r.2)

/-- what `df.items()` yields: for every column its label, and the column as a Series labelled by the rows -/
def Frame.eachColumn (df : Frame ι κ α) : List (κ × List ι × List α) := (df.columns.zip df.cols).map fun c => (c.1, df.index, c.2)

/-- the last row labelled at most `w` of those kept by `keep` -/
def Frame.lastBefore (le : ι → ι → Bool) (keep : List α → Bool) (df : Frame ι κ α) (w : ι) : Option (List α) :=
  ((df.index.zip df.rows).filter fun r => keep r.2 && le r.1 w).getLast?.map (·.2)

/-- `df.asof(where, subset)`: for every entry of `where` the last row at or before it that has no missing value in the columns of
    `subset`, and a row of missing values if there is none.  The rows have to be in ascending order (otherwise it raises: `none`). -/
def Frame.asof [DecidableEq κ] (le : ι → ι → Bool) (isna : α → Bool) (nan : α) (subset : Option (List κ)) (where_ : List ι)
    (df : Frame ι κ α) : Option (Frame ι κ α) :=
  if df.index.Pairwise (fun x y => le x y = true) then
    some { index := where_, columns := df.columns,
           rows := where_.map fun w =>
             (df.lastBefore le (fun r => (takeList r (subsetPositions df.columns subset)).all fun a => !isna a) w).getD
               (List.replicate df.ncols nan) }
  else none
