/-
pandas primitives, as used by the partition-level code of modin and by the
specifications.  This file is part of the trusted base: it says what a pandas frame is
and what `iloc`, `concat`, `T`, ... do to it.  Nothing here mentions partitions.
-/

/-- A pandas `DataFrame`: row labels, column labels, rows of cells.
    Simplification: one cell type `α` for the whole frame, no dtypes, no index names. -/
structure Frame (ι κ α : Type) where
  index : List ι
  columns : List κ
  rows : List (List α)
deriving DecidableEq, Repr

namespace Frame

variable {ι κ α β γ : Type}

/-- The shape invariant every pandas frame satisfies. -/
structure WF (f : Frame ι κ α) : Prop where
  rows_len : f.rows.length = f.index.length
  row_width : ∀ r ∈ f.rows, r.length = f.columns.length

/-- `len(df)` -/
def nrows (f : Frame ι κ α) : Nat := f.index.length
/-- `len(df.columns)` -/
def ncols (f : Frame ι κ α) : Nat := f.columns.length

/-- `df.empty`: some axis has length 0. -/
def isEmpty (f : Frame ι κ α) : Bool := f.nrows == 0 || f.ncols == 0

end Frame

/-- Python slice `xs[i:j]` for `0 ≤ i`; both bounds are clipped to the length, an inverted
    range is empty. -/
def pySlice {α : Type} (l : List α) (i j : Nat) : List α := (l.drop i).take (j - i)

/-- `range(0, n, step)` for `step > 0`: `ceil(n / step)` numbers. -/
def pyRangeStep (n step : Nat) : List Nat :=
  (List.range ((n + step - 1) / step)).map (· * step)

namespace Frame

variable {ι κ α β γ : Type}

/-- `df.iloc[i:j]` -/
def ilocRows (f : Frame ι κ α) (i j : Nat) : Frame ι κ α :=
  { index := pySlice f.index i j, columns := f.columns, rows := pySlice f.rows i j }

/-- `df.iloc[:, i:j]` -/
def ilocCols (f : Frame ι κ α) (i j : Nat) : Frame ι κ α :=
  { index := f.index, columns := pySlice f.columns i j,
    rows := f.rows.map (fun r => pySlice r i j) }

/-- Cells of several blocks of equal height side by side. -/
def hrows (n : Nat) : List (List (List α)) → List (List α)
  | [] => List.replicate n []
  | b :: bs => List.zipWith (· ++ ·) b (hrows n bs)

/-- `pandas.concat(dfs, axis=1)` on frames with identical row labels: side by side.
    `none`: no frames (pandas raises), or differing row labels (pandas would align the
    rows; modin relies on this never happening, and here it is an error). -/
def hcat [DecidableEq ι] : List (Frame ι κ α) → Option (Frame ι κ α)
  | [] => none
  | f :: fs =>
    if fs.all (fun g => g.index == f.index) then
      some { index := f.index,
             columns := ((f :: fs).map (·.columns)).flatten,
             rows := hrows f.index.length ((f :: fs).map (·.rows)) }
    else none

/-- `pandas.concat(dfs)` (axis 0) on frames with identical column labels: one below the
    other.  `none`: no frames, or differing column labels. -/
def vcat [DecidableEq κ] : List (Frame ι κ α) → Option (Frame ι κ α)
  | [] => none
  | f :: fs =>
    if fs.all (fun g => g.columns == f.columns) then
      some { index := ((f :: fs).map (·.index)).flatten,
             columns := f.columns,
             rows := ((f :: fs).map (·.rows)).flatten }
    else none

/-- `df.map(g)`: apply `g` to every cell. -/
def mapCells (g : α → β) (f : Frame ι κ α) : Frame ι κ β :=
  { index := f.index, columns := f.columns, rows := f.rows.map (·.map g) }

end Frame
