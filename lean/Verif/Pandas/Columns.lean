import Verif.Pandas.Frame
/-
Specification vocabulary: a frame seen column by column, and the pandas operations that act
on whole columns or whole rows.
-/

variable {ι κ α ι' κ' β : Type}

namespace Frame

/-- `df.iloc[:, j]`: the `j`-th column's cells, top to bottom. -/
def column (f : Frame ι κ α) (j : Nat) : List α := f.rows.filterMap (·[j]?)

/-- all columns, left to right -/
def cols (f : Frame ι κ α) : List (List α) := (List.range f.ncols).map f.column

/-- Apply a function to each column: new row labels from the old ones, new cells of a column
    from its old cells (`df.cumsum()`, `df.rank()`, `df.median()`, ...). -/
def mapColumns (g : List ι → List ι') (h : List α → List β) (f : Frame ι κ α) : Frame ι' κ β :=
  { index := g f.index, columns := f.columns,
    rows := (List.range (g f.index).length).map fun i => f.cols.filterMap fun c => (h c)[i]? }

/-- Apply a function to each row: new column labels from the old ones, new cells of a row
    from its old cells (`df.cumsum(axis=1)`, `df.median(axis=1)`, ...). -/
def mapRows (g : List κ → List κ') (h : List α → List β) (f : Frame ι κ α) : Frame ι κ' β :=
  { index := f.index, columns := g f.columns, rows := f.rows.map h }

end Frame
