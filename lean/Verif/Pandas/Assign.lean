import Verif.Pandas.Take
/-
Specification vocabulary: positional assignment.
-/

variable {ι κ α : Type}

/-- The last place where `x` occurs in `ps`. -/
def lastPos : List Nat → Nat → Option Nat
  | [], _ => none
  | p :: ps, x => match lastPos ps x with
    | some i => some (i + 1)
    | none => if p = x then some 0 else none

/-- `df.iloc[rows, cols] = value` where `value i j` is the value for the `i`-th listed row and the
    `j`-th listed column.  A position listed twice gets the value written last; cells not
    addressed, and all labels, stay. -/
def Frame.assign (df : Frame ι κ α) (rows cols : List Nat) (value : Nat → Nat → Option α) :
    Frame ι κ α :=
  { df with
    rows := df.rows.mapIdx fun x row => row.mapIdx fun y v =>
      match lastPos rows x, lastPos cols y with
      | some i, some j => (value i j).getD v
      | _, _ => v }

/-- the entries of a matrix -/
def entry (M : List (List α)) (i j : Nat) : Option α := (M[i]?).bind (·[j]?)
