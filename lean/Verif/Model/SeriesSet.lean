import Verif.Model.Reindex
import Verif.Pandas.SeriesSet

/-!
# Model of `Series.__setitem__`

Models `modin/pandas/series.py:531-545` (`__setitem__`, not for slices), which is `self.loc[key] = value`: `modin/pandas/indexing.py:852-898`
(`__setitem__`), `936-974` (`_set_item_existing_loc`) and `532-585` (`_determine_setitem_axis`).  The value is a scalar; an empty Series is
handed to pandas (871-881) and not modelled.  A Series is a frame of one column.  An exception is `none`.
-/

variable {L α : Type} [DecidableEq L]

/-- modin/pandas/indexing.py:960-974 on a Series.  The axis of 532-585 is always `None`: `shape` is not `(1, 1)` (558), `self.df` is no
    `DataFrame` (575), and one row of one column is already taken by 571. -/
def LFrame.serPut (k : LKey L) (v : α) (m : LFrame L L α) : Option (LFrame L L α) :=
  (k.lookup m.getIndex).bind fun rows =>
  (LKey.all.lookup m.getColumns).bind fun cols => m.operation (fun m1 => writeItems m1 rows cols (.scalar v))

/-- modin/pandas/series.py:545 and modin/pandas/indexing.py:882-898 for a scalar key: a label that is not there (992-993) is appended
    with the value 0, and then assigned -/
def LFrame.serSetOne (cfg : Cfg) (zero : α) (x : L) (v : α) (m : LFrame L L α) : Option (LFrame L L α) :=
  if x ∈ m.getIndex then m.serPut (.label x) v
  else (m.reindexRowsTo cfg zero (m.getIndex ++ [x])).bind fun m1 => m1.serPut (.label x) v

/-- the same for an array of booleans, modin/pandas/indexing.py:896-897 -/
def LFrame.serSetMask (bs : List Bool) (v : α) (m : LFrame L L α) : Option (LFrame L L α) := m.serPut (.mask bs) v
