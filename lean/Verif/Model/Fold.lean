import Verif.Model.Labels
import Verif.Model.FullAxis
import Verif.Pandas.Fold
/-
Operations that run along a whole axis and keep the shape: `cumsum`, `cumprod`, `cummax`, `cummin`, `diff`, `ffill`, `bfill`,
`rolling(...)`, `expanding(...)`.
Models modin/core/dataframe/pandas/dataframe/dataframe.py (`fold`), modin/core/dataframe/algebra/fold.py (`Fold.register`),
modin/core/storage_formats/pandas/query_compiler.py (`cummax` ... `diff`, `fillna` with `method`, `rolling_*`, `expanding_*`),
modin/pandas/base.py (the same names) and modin/pandas/window.py.
dtypes and the checks of dtypes are not modelled here; the function applied to a block is pandas' own.
-/

variable {ι κ α β : Type}

/-- modin/core/dataframe/pandas/dataframe/dataframe.py:2355-2400 `fold(shape_preserved=True)` with its decorator
    (`apply_axis="both"`): labels and lengths of the frame are handed on -/
def LFrame.fold [DecidableEq ι] [DecidableEq κ] (cfg : Cfg) (axis0 : Bool) (func : Frame ι κ α → Option (Frame ι κ β))
    (m : LFrame ι κ α) : Option (LFrame ι κ β) :=
  m.operation fun m1 =>
    (mapAxisPartitions cfg axis0 func m1.parts true none none).bind fun g =>
    MFrame.mk' { parts := g, index := m1.index, columns := m1.columns, rowLens := m1.rowLens, colWidths := m1.colWidths }

/-- modin/core/dataframe/algebra/fold.py:31-95 `Fold.register(function, shape_preserved=True)`: `fold_axis` decides which
    partitions are put together, `axis` is an argument of the pandas function -/
def LFrame.foldRegistered [DecidableEq ι] [DecidableEq κ] (cfg : Cfg) (foldAxis0 axis0 : Bool) (h : List α → List β) (m : LFrame ι κ α) :
    Option (LFrame ι κ β) :=
  m.fold cfg foldAxis0 fun b => some (b.along axis0 h)

/-- modin/pandas/base.py:1328-1392 `cummax`, `cummin`, `cumprod`, `cumsum`: `fold_axis=axis, axis=axis` -/
def LFrame.cumulative [DecidableEq ι] [DecidableEq κ] (cfg : Cfg) (isna : α → Bool) (op : α → α → α) (axis0 skipna : Bool)
    (m : LFrame ι κ α) : Option (LFrame ι κ α) :=
  m.foldRegistered cfg axis0 axis0 (cumulate (fun x => skipna && isna x) op none)

/-- modin/pandas/base.py:1432-1451 `diff` and modin/core/storage_formats/pandas/query_compiler.py:2433-2436 -/
def LFrame.diff [DecidableEq ι] [DecidableEq κ] (cfg : Cfg) (sub : α → α → α) (nan : α) (periods : Int) (axis0 : Bool)
    (m : LFrame ι κ α) : Option (LFrame ι κ α) :=
  m.foldRegistered cfg axis0 axis0 (diffBy sub nan periods)

/-- The argument `method` of `fillna`. -/
inductive FillMethod where
  | ffill
  | bfill
  | other
deriving DecidableEq, Repr

/-- pandas' `fillna(method=..., limit=...)` of one column or row -/
def FillMethod.run (isna : α → Bool) (limit : Option Nat) : FillMethod → List α → List α
  | .ffill => forwardFill isna limit none 0
  | .bfill => backwardFill isna limit
  | .other => id

/-- modin/pandas/base.py:1815-1846 `fillna` with `method` (and 1188-1210 `bfill`, 1710-1732 `ffill`), and
    modin/core/storage_formats/pandas/query_compiler.py:2803-2809: unknown methods and a limit below 1 raise.
    The limit is an integer. -/
def LFrame.fillMethod [DecidableEq ι] [DecidableEq κ] (cfg : Cfg) (isna : α → Bool) (method : FillMethod) (limit : Option Int)
    (axis0 : Bool) (m : LFrame ι κ α) : Option (LFrame ι κ α) :=
  if method = .other then none
  else if (limit.map fun n => decide (n ≤ 0)).getD false then none
  else m.fold cfg axis0 fun b => some (b.along axis0 (method.run isna (limit.map Int.toNat)))

/-- modin/pandas/window.py:92-160 `Rolling` and modin/core/storage_formats/pandas/query_compiler.py:1692-1790 `rolling_*`,
    without `on` -/
def LFrame.rolling [DecidableEq ι] [DecidableEq κ] (cfg : Cfg) (nan : α) (n : Nat) (f : List α → α) (axis0 : Bool) (m : LFrame ι κ α) :
    Option (LFrame ι κ α) :=
  m.foldRegistered cfg axis0 axis0 (rollingBy nan n f)

/-- modin/pandas/window.py:352-500 `Expanding` and modin/core/storage_formats/pandas/query_compiler.py:1475-1668 `expanding_*` -/
def LFrame.expanding [DecidableEq ι] [DecidableEq κ] (cfg : Cfg) (nan : α) (k : Nat) (f : List α → α) (axis0 : Bool) (m : LFrame ι κ α) :
    Option (LFrame ι κ α) :=
  m.foldRegistered cfg axis0 axis0 (expandingBy nan k f)

/-- modin/pandas/window.py:92-160 `Rolling` with `on`: the argument is given to pandas in every column partition -/
def LFrame.rollingOn [DecidableEq ι] [DecidableEq κ] (cfg : Cfg) (key : κ) (h : List α → List α → List α) (m : LFrame ι κ α) :
    Option (LFrame ι κ α) :=
  m.fold cfg true fun b => b.rollingOn key h
