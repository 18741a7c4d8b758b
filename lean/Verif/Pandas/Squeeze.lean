import Verif.Pandas.LocGet

/-!
# pandas' `squeeze`

`pandas.pydata.org/docs/reference/api/pandas.DataFrame.squeeze.html`: an axis of length one is taken away, if it is the one named by `axis`
or no axis is named.
-/

variable {L α : Type}

/-- `df.squeeze(axis)`: the axes of length 1 (of the one named) are read at position 0, the others are kept; there are
    the axes 0 and 1, another raises (`none`) -/
def Frame.squeeze (axis : Option Nat) (df : Frame L L α) : Option (Selected L α) :=
  if axis = none ∨ axis = some 0 ∨ axis = some 1 then
    df.located (if df.nrows = 1 ∧ axis ≠ some 1 then .one 0 else .many (List.range df.nrows))
      (if df.ncols = 1 ∧ axis ≠ some 0 then .one 0 else .many (List.range df.ncols))
  else none

/-- `s.squeeze(axis)` of a Series: its value if it has one, itself otherwise; the only axis is 0, another raises -/
def seriesSqueeze (axis : Option Nat) (name : L) (index : List L) (values : List α) : Option (Selected L α) :=
  if axis = none ∨ axis = some 0 then
    match values with
    | [a] => some (.scalar a)
    | _ => some (.series name index values)
  else none
