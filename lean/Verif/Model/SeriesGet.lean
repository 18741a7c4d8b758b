import Verif.Model.LocGet
import Verif.Pandas.SeriesGet

/-!
# Model of `Series.__getitem__` and `Series.item`

Models `modin/pandas/series.py:2785-2833` (`_getitem`), `2601-2614` (`_reduce_dimension`) and `1395-1399` (`item`).  An empty Series is handed
to pandas (modin/pandas/base.py:4001-4002), and slices and tuples as key are not modelled.  A Series is a frame of one column; `unnamed` is
the label of that column when the Series has no name.  An exception is `none`.
-/

variable {L α : Type} [DecidableEq L]

/-- what comes back: a Modin Series, or what pandas' `squeeze` gives (modin/pandas/series.py:2614), a value or a pandas Series -/
inductive SerOut (L α : Type) where
  | series (m : LFrame L L α)
  | pandas (r : SerGot L α)

/-- modin/core/storage_formats/pandas/query_compiler.py:3124-3127 `getitem_row_array`: a position outside raises when the labels are taken,
    modin/core/dataframe/pandas/dataframe/dataframe.py:1300-1303 -/
def LFrame.rowsAt (cfg : Cfg) (known : Nat → Nat → Bool × Bool) (ps : List Nat) (m : LFrame L L α) : Option (LFrame L L α) :=
  if ps.all (· < m.getIndex.length) then m.take2d cfg known (some (.array ps)) none else none

/-- modin/pandas/series.py:2819-2828: positions if all keys are labels, and otherwise the keys themselves, which must be integers.  A
    negative one counts from the end (several numbers of which some are negative are left out, see the theorem). -/
def rowPositions (intOf : L → Option Int) (labels key : List L) : Option (List Nat) :=
  if key.all (labels.contains ·) then
    some (key.flatMap fun x => (List.range labels.length).filter fun k => labels[k]? == some x)
  else (key.mapM intOf).bind fun is => is.mapM (axisPos labels.length)

/-- modin/pandas/series.py:2601-2614 `_reduce_dimension`: `to_pandas().squeeze()` of a frame of one column -/
def LFrame.reduceDimension (nan : α) (m : LFrame L L α) : Option (SerGot L α) :=
  (m.toPandas nan).bind fun f =>
  match f.columns, f.rows with
  | [_], [[a]] => some (.scalar a)
  | [c], rows => some (.series (some c) f.index rows.flatten)
  | _, _ => none

/-- modin/pandas/series.py:2804-2833 `_getitem` -/
def LFrame.serGetitem (intOf : L → Option Int) (cfg : Cfg) (known : Nat → Nat → Bool × Bool) (nan : α) (key : SerKey L) (m : LFrame L L α) :
    Option (SerOut L α) :=
  match key with
  | .mask bs =>
    if bs.length = m.getIndex.length then
      (m.rowsAt cfg known ((List.range m.getIndex.length).filter fun k => bs[k]? == some true)).map .series
    else none
  | .one x => (rowPositions intOf m.getIndex [x]).bind fun ps => (m.rowsAt cfg known ps).bind fun r => (r.reduceDimension nan).map .pandas
  | .list xs => (rowPositions intOf m.getIndex xs).bind fun ps => (m.rowsAt cfg known ps).map .series

/-- what the user sees.  The name of a Modin Series is its column label, and `None` for the label `unnamed`
    (modin/pandas/series.py:188-197). -/
def SerOut.observe (nan : α) (unnamed : L) : SerOut L α → Option (SerGot L α)
  | .series m => (m.toPandas nan).bind fun f =>
    match f.columns with
    | [c] => some (.series (if c = unnamed then none else some c) f.index f.rows.flatten)
    | _ => none
  | .pandas r => some r

/-- modin/pandas/series.py:1399 `item`: `self[0]` -/
def LFrame.serItem (intOf : L → Option Int) (zero : L) (cfg : Cfg) (known : Nat → Nat → Bool × Bool) (nan : α) (m : LFrame L L α) :
    Option (SerOut L α) :=
  m.serGetitem intOf cfg known nan (.one zero)
