import Verif.Pandas.Fillna
/-
Specification vocabulary: `df.loc[mask, cols] = v` with a boolean Series, pandas' semantics.
-/

variable {ι κ α L : Type}

/-- pandas' `check_bool_indexer`: the flags of a boolean Series for rows labelled `idx`.  The same labels are matched in order, even
    if they repeat; otherwise every label is looked up, and it is an error if one is absent or if there are not as many flags as rows. -/
def flagsFor [DecidableEq L] (mask : List (L × Bool)) (idx : List L) : Option (List Bool) :=
  if mask.map (·.1) = idx then some (mask.map (·.2))
  else
    let found := idx.map fun x => (mask.filter fun p => decide (p.1 = x)).map (·.2)
    if found.all (fun l => !l.isEmpty) && decide (found.flatten.length = idx.length) then some found.flatten else none

/-- one row, with `v` in the columns `cols` -/
def setRow [DecidableEq κ] (columns cols : List κ) (v : α) (row : List α) : List α :=
  List.zipWith (fun k x => if k ∈ cols then v else x) columns row

/-- `df.loc[mask, cols] = v`; a column that is not there is an error (columns are added before, if at all) -/
def Frame.setMask [DecidableEq ι] [DecidableEq κ] (mask : List (ι × Bool)) (cols : List κ) (v : α) (f : Frame ι κ α) :
    Option (Frame ι κ α) :=
  if cols.all (fun k => decide (k ∈ f.columns)) then
    (flagsFor mask f.index).map fun flags =>
      ⟨f.index, f.columns, List.zipWith (fun b row => if b then setRow f.columns cols v row else row) flags f.rows⟩
  else none

/-- a frame of one column as a Series -/
def Frame.series (f : Frame ι κ α) : List (ι × α) := f.index.zip (f.rows.filterMap (·[0]?))
