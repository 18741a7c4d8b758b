import Verif.Pandas.Duplicated
import Verif.Pandas.Mask
/-
Specification vocabulary: `df.drop_duplicates(subset=..., keep=..., ignore_index=...)`.
-/

variable {ι κ α K : Type}

/-- The cells of a row in the columns listed (all columns if none are listed), in the order of the columns. -/
def subsetCells [DecidableEq κ] (columns : List κ) (subset : Option (List κ)) (row : List α) : List α :=
  match subset with
  | none => row
  | some l => takeList row ((List.range columns.length).filter fun j => columns[j]?.any fun c => l.contains c)

/-- The rows that are not marked as duplicates.  A frame without rows or columns is returned as it is.  `none`: `KeyError`, a
    listed column is not there. -/
def Frame.dropDuplicates [DecidableEq κ] [DecidableEq K] (num : Nat → ι) (key : α → K) (keep : DupKeep) (subset : Option (List κ))
    (ignore : Bool) (df : Frame ι κ α) : Option (Frame ι κ α) :=
  if df.rows = [] ∨ df.columns = [] then some df
  else if subsetOk df.columns subset then
    some ((df.pickRows ((duplicatedMarks keep (df.rows.map fun r => (subsetCells df.columns subset r).map key)).map not)).ignoreIndex
      num ignore)
  else none
