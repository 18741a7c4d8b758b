import Verif.Pandas.Columns
import Verif.Pandas.Take
import Verif.Pandas.Sort
/-
`sort_index`, `nlargest`/`nsmallest`, `first_valid_index`/`last_valid_index`.
Part of the specification vocabulary.
-/

variable {ι κ α : Type}

/-- the labels of a sorted axis: the labels themselves, or 0, 1, ... with `ignore_index=True` (`num` gives the default labels) -/
def sortedLabels (num : Option (Nat → ι)) (labels : List ι) : List ι :=
  match num with
  | none => labels
  | some n => (List.range labels.length).map n

/-- `df.sort_index(axis=0)`: the rows in the order pandas' sort gives to the row labels.  `order` takes labels to the positions
    in sorted order and stands for `kind`, `key`, `na_position`, `ascending`. -/
def Frame.sortIndex (order : List ι → List Nat) (num : Option (Nat → ι)) (f : Frame ι κ α) : Frame ι κ α :=
  { index := sortedLabels num (takeList f.index (order f.index))
    columns := f.columns
    rows := takeList f.rows (order f.index) }

/-- `df.sort_index(axis=1)` -/
def Frame.sortColumns (order : List κ → List Nat) (num : Option (Nat → κ)) (f : Frame ι κ α) : Frame ι κ α :=
  { index := f.index
    columns := sortedLabels num (takeList f.columns (order f.columns))
    rows := f.rows.map fun r => takeList r (order f.columns) }

/-- the order of a stable sort of the labels by `le` -/
def stableOrder (le : ι → ι → Bool) (labels : List ι) : List Nat :=
  (sortBy (fun a b => le a.1 b.1) labels.zipIdx).map (·.2)

/-- the cells of the first column called `k` -/
def Frame.columnNamed [DecidableEq κ] (k : κ) (f : Frame ι κ α) : List α := f.column (f.columns.findIdx (· = k))

/-- `df.nlargest(n, columns, keep)` and `nsmallest`: raises if a key column does not exist.  `choose` takes the cells of the
    key columns to the positions of the rows pandas picks, in the order in which they are returned; it stands for `n`, `keep`
    and the direction. -/
def Frame.nsort [DecidableEq κ] (choose : List (List α) → List Nat) (keys : List κ) (f : Frame ι κ α) : Option (Frame ι κ α) :=
  if ∀ k ∈ keys, k ∈ f.columns then some (f.takeRows (choose (keys.map fun k => f.columnNamed k))) else none

/-- `df.first_valid_index()`: the label of the first row with a cell that is not missing -/
def Frame.firstValidIndex (isna : α → Bool) (f : Frame ι κ α) : Option ι :=
  ((f.index.zip f.rows).find? fun p => p.2.any fun v => !isna v).map (·.1)

/-- `df.last_valid_index()` -/
def Frame.lastValidIndex (isna : α → Bool) (f : Frame ι κ α) : Option ι :=
  ((f.index.zip f.rows).reverse.find? fun p => p.2.any fun v => !isna v).map (·.1)
