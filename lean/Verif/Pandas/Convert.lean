import Verif.Pandas.Frame
/-
Conversions of the values of a Series: `pandas.to_numeric`, `pandas.to_timedelta`, `pandas.to_datetime`.
A Series is a frame with one column.  What a single value becomes is left open (`conv`, `parse`, `guess` are arbitrary
functions, `none` = the value cannot be converted); what is fixed is how the verdicts on single values make up the
answer for the Series.
-/

variable {ι κ α β φ : Type}

/-- all values, row by row -/
def Frame.cellList (f : Frame ι κ α) : List α := f.rows.flatten

/-- a function of single values that may raise, applied to every value; `none`: it raised somewhere -/
def Frame.mapCellsM (g : α → Option β) (f : Frame ι κ α) : Option (Frame ι κ β) :=
  (f.rows.mapM fun r : List α => r.mapM g).map fun rows => { index := f.index, columns := f.columns, rows := rows }

/-- the argument `errors=` -/
inductive OnBad
  | raise | coerce | ignore
deriving DecidableEq

/-- `errors="raise"`: one value that cannot be converted makes the call raise; `"coerce"`: it becomes missing (`nan`);
    `"ignore"`: the *whole* input is returned as it is. -/
def Frame.convert (onBad : OnBad) (nan : α) (conv : α → Option α) (f : Frame ι κ α) : Option (Frame ι κ α) :=
  match onBad with
  | .raise => f.mapCellsM conv
  | .coerce => some (f.mapCells fun a => (conv a).getD nan)
  | .ignore => some ((f.mapCellsM conv).getD f)

/-- `pandas.to_datetime(series, format=fmt, errors=…)`: without a format the one of the first value that is not missing
    is guessed and used for every value (`guess` may fail: then each value is parsed by itself, `parse none`). -/
def Frame.convertDates (onBad : OnBad) (nat : α) (isna : α → Bool) (guess : α → Option φ) (parse : Option φ → α → Option α)
    (fmt : Option φ) (f : Frame ι κ α) : Option (Frame ι κ α) :=
  match fmt with
  | some p => f.convert onBad nat (parse (some p))
  | none => f.convert onBad nat (parse ((f.cellList.find? fun a => !isna a).bind guess))
