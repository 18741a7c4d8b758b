import Verif.Pandas.Reduce
/-
What pandas' `DataFrame.duplicated` marks.
-/

variable {ι κ α K : Type}

/-- the values of `keep`: `"first"`, `"last"`, `False` -/
inductive DupKeep where
  | first | last | none
deriving DecidableEq, Repr

/-- Is row `i` marked because row `j` is equal to it?  Keeping the first: if `j` comes before; keeping the last: if `j`
    comes after; keeping none: if `j` is another row. -/
def DupKeep.because (keep : DupKeep) (i j : Nat) : Bool :=
  match keep with
  | .first => decide (j < i)
  | .last => decide (i < j)
  | .none => decide (j ≠ i)

/-- the marks of rows with the given keys -/
def duplicatedMarks [DecidableEq K] (keep : DupKeep) (keys : List K) : List Bool :=
  keys.zipIdx.map fun (e : K × Nat) => keys.zipIdx.any fun (o : K × Nat) => keep.because e.2 o.2 && decide (o.1 = e.1)

/-- `DataFrame.duplicated(keep=...).to_frame(label)`.  Cells are equal if their keys are (all missing values are equal in
    a frame of several columns, `0.0 == -0.0`, ...).  A frame without columns has an empty result, however many rows it
    has. -/
def Frame.duplicated [DecidableEq K] (label : String) (key : α → K) (keep : DupKeep) (df : Frame ι κ α) : Frame ι String Bool :=
  if df.columns.length = 0 then { index := [], columns := [label], rows := [] }
  else { index := df.index, columns := [label], rows := (duplicatedMarks keep (df.rows.map (·.map key))).map ([·]) }
