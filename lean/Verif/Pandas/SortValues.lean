import Verif.Pandas.Frame
import Verif.Pandas.Sort
/-
Specification vocabulary: rows of a frame with their labels, and `DataFrame.sort_values`.
-/

variable {ι κ α Q : Type}

/-- the rows of a frame, each with its label -/
def Frame.records (f : Frame ι κ α) : List (ι × List α) := f.index.zip f.rows

/-- the frame with the given labelled rows -/
def Frame.ofRecords (columns : List κ) (rs : List (ι × List α)) : Frame ι κ α :=
  { index := rs.map (·.1), columns := columns, rows := rs.map (·.2) }

/-- The value two rows are compared by in one column: the cell at position `pos`, passed through the
    user's `key` function; `none` is a missing value. -/
def sortKey (key : α → Option Q) (pos : Nat) (r : ι × List α) : Option Q := r.2[pos]?.bind key

/-- Comparing two values of one column: ascending or descending, missing values last or first. -/
def keyBefore (le : Q → Q → Bool) (asc naLast : Bool) : Option Q → Option Q → Bool
  | none, none => true
  | none, some _ => !naLast
  | some _, none => naLast
  | some a, some b => if asc then le a b else le b a

/-- Comparing two rows by several columns, each with its own direction: the first column in which they
    differ decides. -/
def rowBefore (le : Q → Q → Bool) (key : α → Option Q) (naLast : Bool) :
    List (Nat × Bool) → ι × List α → ι × List α → Bool
  | [], _, _ => true
  | (pos, asc) :: rest, r, s =>
    if keyBefore le asc naLast (sortKey key pos r) (sortKey key pos s) &&
       keyBefore le asc naLast (sortKey key pos s) (sortKey key pos r)
    then rowBefore le key naLast rest r s
    else keyBefore le asc naLast (sortKey key pos r) (sortKey key pos s)

/-- `df.sort_values(by, ascending=..., na_position=..., key=key)` with a stable algorithm; `by` is given by
    positions and directions. -/
def Frame.sortValues (le : Q → Q → Bool) (key : α → Option Q) (naLast : Bool) (by_ : List (Nat × Bool))
    (f : Frame ι κ α) : Frame ι κ α :=
  Frame.ofRecords f.columns (sortBy (rowBefore le key naLast by_) f.records)

/-- `le` compares any two values, consistently -/
structure TotalLe (le : Q → Q → Bool) : Prop where
  trans : ∀ a b c, le a b → le b c → le a c
  total : ∀ a b, le a b ∨ le b a
