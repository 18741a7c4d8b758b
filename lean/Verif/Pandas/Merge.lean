import Verif.Pandas.SortValues
/-
Specification vocabulary: `pandas.merge`.
-/

variable {ι ι' κ α : Type}

/-- the `how` argument of `merge`, for the kinds modin computes itself -/
inductive How where
  | left | inner | right
deriving DecidableEq, Repr

/-- What to join on and how to tell apart columns of the same name: `left_on` and `right_on` (the same list for
    `on=...`), the two suffixes, and Python's `f"{label}{suffix}"`. -/
structure MergeOn (κ : Type) where
  leftOn : List κ
  rightOn : List κ
  leftSuffix : Option String
  rightSuffix : Option String
  fmt : κ → String → κ

/-- a label with a suffix; `None` leaves it as it is -/
def MergeOn.suffixed (o : MergeOn κ) (suffix : Option String) (c : κ) : κ := (suffix.map (o.fmt c)).getD c

/-- the cells of a row in the named columns -/
def rowKey [DecidableEq κ] (columns on : List κ) (r : List α) : List (Option α) := on.map fun c => r[columns.idxOf c]?

/-- the key columns that have the same name on both sides: the result has them once -/
def MergeOn.shared [DecidableEq κ] (o : MergeOn κ) : List κ :=
  (o.leftOn.zip o.rightOn).filterMap fun p => if p.1 = p.2 then some p.1 else none

/-- the columns of `right` that go into the result -/
def MergeOn.keepsRight [DecidableEq κ] (o : MergeOn κ) (c : κ) : Bool := !o.shared.contains c

/-- the part of a row of `right` that goes into the result -/
def MergeOn.rightPart [DecidableEq κ] (o : MergeOn κ) (rightCols : List κ) (r : List α) : List α :=
  ((rightCols.zip r).filter fun p => o.keepsRight p.1).map (·.2)

/-- The columns of the result: those of `left`, then the remaining ones of `right`; a label occurring on both sides
    gets the suffixes.  (pandas' error when both suffixes are missing is not part of the specification.) -/
def MergeOn.columns [DecidableEq κ] (o : MergeOn κ) (leftCols rightCols : List κ) : List κ :=
  let kept := rightCols.filter o.keepsRight
  leftCols.map (fun c => if kept.contains c then o.suffixed o.leftSuffix c else c) ++
    kept.map (fun c => if leftCols.contains c then o.suffixed o.rightSuffix c else c)

/-- do two rows belong together? missing values are equal to each other -/
def MergeOn.agree [DecidableEq κ] [DecidableEq α] (o : MergeOn κ) (leftCols rightCols : List κ) (l r : List α) : Bool :=
  rowKey leftCols o.leftOn l == rowKey rightCols o.rightOn r

/-- a row of `left` without partner -/
def MergeOn.onlyLeft [DecidableEq κ] (o : MergeOn κ) (nan : α) (rightCols : List κ) (l : List α) : List α :=
  l ++ (rightCols.filter o.keepsRight).map fun _ => nan

/-- a row of `right` without partner: the shared key columns come from it -/
def MergeOn.onlyRight [DecidableEq κ] (o : MergeOn κ) (nan : α) (leftCols rightCols : List κ) (r : List α) : List α :=
  leftCols.map (fun c => if o.shared.contains c then (r[rightCols.idxOf c]?).getD nan else nan) ++ o.rightPart rightCols r

/-- a row when there are no others -/
def orElse {τ : Type} (l : List τ) (x : τ) : List τ := if l.isEmpty then [x] else l

/-- The rows of `left.merge(right, how=how)`: for `left` and `inner` in the order of the rows of `left` (partners in
    the order of `right`), for `right` in the order of the rows of `right`. -/
def MergeOn.rows [DecidableEq κ] [DecidableEq α] (o : MergeOn κ) (nan : α) (how : How) (leftCols rightCols : List κ)
    (L R : List (List α)) : List (List α) :=
  match how with
  | .left => L.flatMap fun l => orElse ((R.filter fun r => o.agree leftCols rightCols l r).map
      fun r => l ++ o.rightPart rightCols r) (o.onlyLeft nan rightCols l)
  | .inner => L.flatMap fun l => (R.filter fun r => o.agree leftCols rightCols l r).map
      fun r => l ++ o.rightPart rightCols r
  | .right => R.flatMap fun r => orElse ((L.filter fun l => o.agree leftCols rightCols l r).map
      fun l => l ++ o.rightPart rightCols r) (o.onlyRight nan leftCols rightCols r)

/-- rows numbered 0, 1, ... -/
def Frame.numbered (columns : List κ) (rows : List (List α)) : Frame Nat κ α :=
  { index := List.range rows.length, columns := columns, rows := rows }

/-- `pandas.merge(left, right, how=how, left_on=..., right_on=..., suffixes=...)`, with `sort=False` -/
def Frame.merge [DecidableEq κ] [DecidableEq α] (o : MergeOn κ) (nan : α) (how : How) (left : Frame ι κ α)
    (right : Frame ι' κ α) : Frame Nat κ α :=
  Frame.numbered (o.columns left.columns right.columns)
    (o.rows nan how left.columns right.columns left.rows right.rows)
