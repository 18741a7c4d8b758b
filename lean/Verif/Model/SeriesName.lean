import Verif.Model.SeriesGet
import Verif.Pandas.SeriesName

/-!
# Model of `Series.name`, `to_frame`, `DataFrame(s)` and `Series.repeat`

A Series is a frame of one column whose label is the name; `unnamed` stands for no name.  Names that are tuples are not modelled.
-/

variable {L α : Type} [DecidableEq L]

/-- modin/pandas/series.py:186-197 `_get_name` -/
def LFrame.serName (unnamed : L) (m : LFrame L L α) : Option (Option L) :=
  m.getColumns.head?.map fun c => if c = unnamed then none else some c

/-- modin/pandas/series.py:199-214 `_set_name` -/
def LFrame.setSerName (unnamed : L) (name : Option L) (m : LFrame L L α) : Option (LFrame L L α) :=
  m.setColumns [name.getD unnamed]

/-- modin/pandas/dataframe.py:161-171 `DataFrame(s)` -/
def LFrame.frameOfSeries (unnamed zero : L) (m : LFrame L L α) : Option (LFrame L L α) :=
  m.copy.bind fun r => (m.serName unnamed).bind fun name => if name = none then r.setColumns [zero] else some r

/-- modin/pandas/series.py:2183-2198 `to_frame`: `None` counts as not given -/
def LFrame.serToFrame (unnamed zero : L) (arg : Option (Option L)) (m : LFrame L L α) : Option (LFrame L L α) :=
  m.copy.bind fun cp =>
  (match arg.join with
    | none => some cp
    | some c => cp.setSerName unnamed (some c)).bind fun cp => cp.frameOfSeries unnamed zero

/-- modin/pandas/series.py:1849-1858 `repeat`.  `Series()` for 0; otherwise pandas' own method on the whole Series
    (modin/core/storage_formats/base/query_compiler.py:4720-4735), whose result is shown as it is. -/
def LFrame.serRepeat (nan : α) (unnamed : L) (arg : RepeatArg) (m : LFrame L L α) : Option (SerGot L α) :=
  if arg = .int 0 ∨ arg = .list [0] then some (.series none [] [])
  else (m.toPandas nan).bind fun f => (m.serName unnamed).bind fun name => _root_.serRepeat name f.index f.rows.flatten arg
