import Verif.Model.LocGet
import Verif.Pandas.Squeeze

/-!
# Model of `squeeze` with its argument

Models `modin/pandas/dataframe.py:2116-2135` and `modin/pandas/series.py:2099-2109`; the rest is in Model/LocGet.lean.
-/

variable {L α : Type} [DecidableEq L]

/-- modin/pandas/dataframe.py:2122 `_get_axis_number`: an axis that is not there raises (`none`); 2123-2135 is `LFrame.squeeze` -/
def LFrame.squeezeAxis (nan : α) (unnamed : L) (axis : Option Nat) (m : LFrame L L α) : Option (Located L α) :=
  if axis = none ∨ axis = some 0 ∨ axis = some 1 then m.squeeze nan unnamed axis else none

/-- modin/pandas/series.py:2103-2105: the axis is validated; 2106-2109 is `LFrame.seriesSqueeze` -/
def LFrame.seriesSqueezeAxis (nan : α) (axis : Option Nat) (m : LFrame L L α) : Option (Located L α) :=
  if axis = none ∨ axis = some 0 then m.seriesSqueeze nan else none
