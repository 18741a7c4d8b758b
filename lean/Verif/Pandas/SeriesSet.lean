import Verif.Pandas.SeriesGet

/-!
# pandas' `s[key] = value`

The specification of writing a scalar into a Series (pandas 2, `Series.__setitem__`).  The result is the labels and the values afterwards;
`none` is an exception.
-/

variable {L α : Type}

/-- `s[x] = v` with a scalar key: every value labelled `x` becomes `v`.  If there is none, an integer is a position when no label is an
    integer (`Index._should_fallback_to_positional`), and otherwise `x` becomes a new label at the end. -/
def serSetOne [DecidableEq L] (intOf : L → Option Int) (index : List L) (values : List α) (x : L) (v : α) : Option (List L × List α) :=
  if x ∈ index then some (index, (index.zip values).map fun p => if p.1 = x then v else p.2)
  else
    match index.all fun y => (intOf y).isNone, intOf x with
    | true, some i => (axisPos index.length i).map fun p => (index, values.set p v)
    | _, _ => some (index ++ [x], values ++ [v])

/-- `s[mask] = v`: the values where the mask is true become `v`; a mask of another length raises -/
def serSetMask (index : List L) (values : List α) (bs : List Bool) (v : α) : Option (List L × List α) :=
  if bs.length = index.length then some (index, (bs.zip values).map fun p => if p.1 then v else p.2) else none
