import Verif.Pandas.Columns
/-
Specification vocabulary: inserting and replacing a column of a pandas frame.
-/

variable {ι κ α : Type}

/-- `list.insert(i, v)` for `i ≤ len(list)` -/
def insertAt {τ : Type} (l : List τ) (i : Nat) (v : τ) : List τ := l.take i ++ v :: l.drop i

/-- what is written into a column: one value for all rows, or a series of labelled values -/
inductive ColValue (ι α : Type) where
  | scalar (v : α)
  | series (index : List ι) (vals : List α)

/-- The values a frame with the given row labels receives: a series with the same labels is taken as it is, another one is
    looked up label by label, which pandas refuses if its labels repeat. -/
def ColValue.along [DecidableEq ι] (nan : α) (labels : List ι) : ColValue ι α → Option (List α)
  | .scalar v => some (List.replicate labels.length v)
  | .series index vals =>
    if index = labels then some vals
    else if index.Nodup then some (labels.map fun x => (((index.zip vals).find? (·.1 == x)).map (·.2)).getD nan)
    else none

/-- a new column `name` with the values `vals` in position `loc` -/
def Frame.insertColumn (loc : Nat) (name : κ) (vals : List α) (df : Frame ι κ α) : Frame ι κ α :=
  { index := df.index
    columns := insertAt df.columns loc name
    rows := List.zipWith (fun r v => insertAt r loc v) df.rows vals }

/-- every column called `key` gets the values `vals` -/
def Frame.replaceColumn [DecidableEq κ] (key : κ) (vals : List α) (df : Frame ι κ α) : Frame ι κ α :=
  { df with rows := List.zipWith (fun r v => List.zipWith (fun c x => if c = key then v else x) df.columns r) df.rows vals }

/-- `df.insert(loc, name, value, allow_duplicates=dups)`; `none`: an exception -/
def Frame.insert [DecidableEq ι] [DecidableEq κ] (nan : α) (dups : Bool) (loc : Nat) (name : κ) (value : ColValue ι α)
    (df : Frame ι κ α) : Option (Frame ι κ α) :=
  if loc > df.columns.length ∨ (dups = false ∧ name ∈ df.columns) then none
  else (value.along nan df.index).map fun vals => df.insertColumn loc name vals

/-- `df[key] = value`; `none`: an exception -/
def Frame.setItem [DecidableEq ι] [DecidableEq κ] (nan : α) (key : κ) (value : ColValue ι α) (df : Frame ι κ α) :
    Option (Frame ι κ α) :=
  (value.along nan df.index).map fun vals =>
    if key ∈ df.columns then df.replaceColumn key vals else df.insertColumn df.columns.length key vals

/-- a frame of one column -/
def Frame.ofColumn (index : List ι) (name : κ) (vals : List α) : Frame ι κ α :=
  { index := index, columns := [name], rows := vals.map ([·]) }
