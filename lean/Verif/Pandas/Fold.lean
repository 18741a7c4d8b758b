import Verif.Pandas.Columns
/-
Specification vocabulary: pandas operations that run along an axis and keep the shape and the labels
(`cumsum`, `diff`, `ffill`, `rolling(...).sum`, ...).
-/

variable {ι κ α β : Type}

/-- `Series.cumsum`, `cumprod`, `cummax`, `cummin`: every cell becomes the total of the cells down to it.  Cells with `skip`
    (missing values, if `skipna=True`) stay as they are and take no part. -/
def cumulate (skip : α → Bool) (op : α → α → α) : Option α → List α → List α
  | _, [] => []
  | total, x :: xs =>
    if skip x then x :: cumulate skip op total xs
    else match total with
      | none => x :: cumulate skip op (some x) xs
      | some t => op t x :: cumulate skip op (some (op t x)) xs

/-- `Series.diff(periods)`: a cell minus the cell `periods` before it, missing if there is none.  `periods` may be negative. -/
def diffBy (sub : α → α → α) (nan : α) (periods : Int) (c : List α) : List α :=
  c.mapIdx fun i x =>
    if (i : Int) - periods < 0 then nan
    else match c[((i : Int) - periods).toNat]? with
      | some y => sub x y
      | none => nan

/-- `Series.ffill(limit)`: a missing cell takes the last value before it, unless `limit` cells of the gap are filled already.
    `last` is the last value seen, `run` the number of cells of the present gap seen. -/
def forwardFill (isna : α → Bool) (limit : Option Nat) : Option α → Nat → List α → List α
  | _, _, [] => []
  | last, run, x :: xs =>
    if isna x then
      (if (limit.map fun n => decide (run < n)).getD true then last.getD x else x) :: forwardFill isna limit last (run + 1) xs
    else x :: forwardFill isna limit (some x) 0 xs

/-- `Series.bfill(limit)`: the same from the other end -/
def backwardFill (isna : α → Bool) (limit : Option Nat) (c : List α) : List α :=
  (forwardFill isna limit none 0 c.reverse).reverse

/-- `Series.rolling(n).agg(f)` with the default `min_periods` and without `center`: a function of the `n` cells that end at a
    cell, missing if there are not so many.  `Series.expanding().agg(f)` is a function of all cells down to a cell. -/
def rollingBy (nan : α) (n : Nat) (f : List α → α) (c : List α) : List α :=
  c.mapIdx fun i _ => if i + 1 < n then nan else f ((c.take (i + 1)).drop (i + 1 - n))

/-- `Series.expanding(k).agg(f)` -/
def expandingBy (nan : α) (k : Nat) (f : List α → α) (c : List α) : List α :=
  c.mapIdx fun i _ => if i + 1 < k then nan else f (c.take (i + 1))

/-- `df.f(axis)` for such a function: every column (`axis=0`), or every row (`axis=1`) -/
def Frame.along (axis0 : Bool) (h : List α → List β) (f : Frame ι κ α) : Frame ι κ β :=
  if axis0 then f.mapColumns id h else f.mapRows id h

/-- `df.rolling(n, on=key).agg(f)`: the windows are made from the cells of the column `key`, which stays as it is.  Without
    that column pandas raises. -/
def Frame.rollingOn [DecidableEq κ] (key : κ) (h : List α → List α → List α) (f : Frame ι κ α) : Option (Frame ι κ α) :=
  if key ∈ f.columns then
    let k := f.columns.idxOf key
    some { f with rows := (List.range f.nrows).map fun i =>
      (List.range f.ncols).filterMap fun j => (if j = k then f.column j else h (f.column k) (f.column j))[i]? }
  else none
