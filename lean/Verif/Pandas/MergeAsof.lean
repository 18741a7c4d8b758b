import Verif.Pandas.Reindex
import Verif.Pandas.Dropna
import Verif.Pandas.Insert
/-
`pandas.merge_asof`: every row of the left frame gets the row of the right frame with the nearest key.
Which row that is (direction, tolerance, exact matches, `by`) is left to pandas: `pick`, a parameter, from the keys of all rows.
-/

/-- the columns to match on; for `on` `none` means `left_index=True` or `right_index=True`.  `addLeft` and `addRight` put the suffixes to
    a label. -/
structure AsofOn (κ : Type) where
  leftOn : Option κ
  rightOn : Option κ
  leftBy : Option κ
  rightBy : Option κ
  addLeft : κ → κ
  addRight : κ → κ

/-- for each row of the left frame the position of the row of the right frame that is joined to it, `none`: there is none; from the keys
    of the rows of both frames and from their values of `by`.  An exception if keys are not sorted, for example. -/
abbrev AsofPick (α : Type) := List α → List α → Option (List α × List α) → Option (List (Option Nat))

variable {ι κ α : Type}

/-- the values of the column with a label -/
def Frame.cellsNamed [DecidableEq κ] (c : κ) (df : Frame ι κ α) : Option (List α) :=
  if c ∈ df.columns then some (columnCells df.rows (df.columns.idxOf c)) else none

/-- the keys of the rows: a column or the row labels -/
def Frame.asofKeys [DecidableEq κ] (value : ι → α) (on : Option κ) (df : Frame ι κ α) : Option (List α) :=
  match on with
  | some c => df.cellsNamed c
  | none => some (df.index.map value)

/-- the values of `by`, for both frames or for none -/
def AsofOn.groups [DecidableEq κ] (o : AsofOn κ) (left right : Frame ι κ α) : Option (Option (List α × List α)) :=
  match o.leftBy, o.rightBy with
  | none, none => some none
  | some a, some b => (left.cellsNamed a).bind fun x => (right.cellsNamed b).map fun y => some (x, y)
  | _, _ => none

/-- which rows of the right frame belong to the rows of the left -/
def AsofOn.matches [DecidableEq κ] (o : AsofOn κ) (value : ι → α) (pick : AsofPick α) (left right : Frame ι κ α) :
    Option (List (Option Nat)) :=
  (left.asofKeys value o.leftOn).bind fun lk => (right.asofKeys value o.rightOn).bind fun rk =>
  (o.groups left right).bind fun by_ => pick lk rk by_

/-- a key column of the right frame that has the name of the left key column is not repeated -/
def AsofOn.keepsRight [DecidableEq κ] (o : AsofOn κ) (c : κ) : Bool :=
  !(decide (o.rightOn = some c ∧ o.leftOn = some c) || decide (o.rightBy = some c ∧ o.leftBy = some c))

/-- the columns whose label has a property -/
def Frame.whereColumns (p : κ → Bool) (df : Frame ι κ α) : Frame ι κ α :=
  { index := df.index, columns := df.columns.filter p, rows := df.rows.map fun r => ((df.columns.zip r).filter (p ·.1)).map (·.2) }

/-- the columns of two frames side by side; a label of both gets the suffixes (pandas' errors about suffixes are not part of this) -/
def AsofOn.joinLabels [DecidableEq κ] (o : AsofOn κ) (l r : List κ) : List κ :=
  l.map (fun c => if c ∈ r then o.addLeft c else c) ++ r.map (fun c => if c ∈ l then o.addRight c else c)

/-- a column put in at a position -/
def Frame.putColumn (i : Nat) (c : κ) (cells : List α) (df : Frame ι κ α) : Frame ι κ α :=
  { index := df.index, columns := insertAt df.columns i c, rows := List.zipWith (fun r x => insertAt r i x) df.rows cells }

/-- `pandas.merge_asof(left, right, ...)`: one row for each row of the left frame, with the cells of the row that belongs to it or with
    missing values; rows numbered anew (`num i` is the label `i`) if both keys are columns, else labelled as in the left frame.  If the key
    is a column of the left frame and the row labels of the right, and the column has lost its name to a suffix, then it is there once
    more under its name, in the first place (in the second if there is `by`). -/
def Frame.mergeAsof [DecidableEq κ] (nan : α) (num : Nat → ι) (value : ι → α) (pick : AsofPick α) (o : AsofOn κ) (left right : Frame ι κ α) :
    Option (Frame ι κ α) :=
  (o.matches value pick left right).bind fun ps =>
    let kept := right.whereColumns o.keepsRight
    let joined : Frame ι κ α :=
      { index := if o.leftOn.isSome && o.rightOn.isSome then (List.range left.nrows).map num else left.index,
        columns := o.joinLabels left.columns kept.columns,
        rows := List.zipWith (fun r p => r ++ ((p.bind (kept.rows[·]?)).getD (List.replicate kept.ncols nan))) left.rows ps }
    match o.leftOn, o.rightOn with
    | some a, none =>
      if a ∈ joined.columns then some joined
      else (left.cellsNamed a).map fun cells => joined.putColumn (if o.leftBy.isSome then 1 else 0) a cells
    | _, _ => some joined
