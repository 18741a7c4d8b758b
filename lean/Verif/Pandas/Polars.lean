import Verif.Pandas.Dropna
import Verif.Pandas.Reduce
import Verif.Pandas.Mask
/-
What Polars' `DataFrame` methods give.  A Polars frame has names for its columns and no labels for its rows: a row is known by its
position alone.
-/

variable {ι κ α K : Type}

/-- a Polars frame: the names of the columns and the rows -/
structure PlFrame (κ α : Type) where
  columns : List κ
  rows : List (List α)
deriving DecidableEq, Repr

/-- `polars.from_pandas(df)`: the row labels are left out -/
def Frame.toPolars (df : Frame ι κ α) : PlFrame κ α := ⟨df.columns, df.rows⟩

/-- `df.filter(mask)`: the rows at the places where the mask says true.  `none`: a mask of another length is an error. -/
def PlFrame.filter (mask : List Bool) (f : PlFrame κ α) : Option (PlFrame κ α) :=
  if mask.length = f.rows.length then some ⟨f.columns, ((mask.zip f.rows).filter (·.1)).map (·.2)⟩ else none

/-- how often the row occurs; cells are the same if their keys are -/
def PlFrame.times [DecidableEq K] (key : α → K) (f : PlFrame κ α) (r : List α) : Nat :=
  (f.rows.filter fun s => decide (s.map key = r.map key)).length

/-- `df.is_duplicated()`: is there another row with the same cells? -/
def PlFrame.isDuplicated [DecidableEq K] (key : α → K) (f : PlFrame κ α) : List Bool :=
  f.rows.map fun r => decide (2 ≤ f.times key r)

/-- `df.is_unique()` -/
def PlFrame.isUnique [DecidableEq K] (key : α → K) (f : PlFrame κ α) : List Bool :=
  f.rows.map fun r => decide (f.times key r = 1)

/-- `df.n_unique()`: how many different rows there are -/
def PlFrame.nUnique [DecidableEq K] (key : α → K) (f : PlFrame κ α) : Nat := (f.rows.map (·.map key)).eraseDups.length

/-- `df.max_horizontal()`, also `df.max(axis=1)`: the largest value of every row, missing values left out -/
def PlFrame.maxHorizontal (f : PlFrame κ (Option Int)) : List (Option Int) := f.rows.map (Pandas.max true)

/-- `df.min_horizontal()`, also `df.min(axis=1)` -/
def PlFrame.minHorizontal (f : PlFrame κ (Option Int)) : List (Option Int) := f.rows.map (Pandas.min true)

/-- `df.with_row_index(name, offset)`: a first column that counts the rows from `offset` on; `num` makes a cell of a number.
    `none`: the name is taken (`DuplicateError`). -/
def PlFrame.withRowIndex [DecidableEq κ] (num : Nat → α) (name : κ) (offset : Nat) (f : PlFrame κ α) : Option (PlFrame κ α) :=
  if name ∈ f.columns then none else some ⟨name :: f.columns, f.rows.zipIdx.map fun e => num (offset + e.2) :: e.1⟩

/-- `df.head(n)` for `n` not negative -/
def PlFrame.head (n : Nat) (f : PlFrame κ α) : PlFrame κ α := ⟨f.columns, f.rows.take n⟩

/-- `df.tail(n)` for `n` not negative -/
def PlFrame.tail (n : Nat) (f : PlFrame κ α) : PlFrame κ α := ⟨f.columns, f.rows.drop (f.rows.length - n)⟩

/-- `df.reverse()` -/
def PlFrame.reverse (f : PlFrame κ α) : PlFrame κ α := ⟨f.columns, f.rows.reverse⟩
