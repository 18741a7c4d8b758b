import Verif.Pandas.KeyParts
import Verif.Pandas.Reindex
/-
Specification vocabulary: `pandas.concat` of rows with an outer join of the columns, and `groupby(...).apply` with a function that
returns a frame.
-/

variable {ι κ α β K τ : Type}

/-- the columns of `pandas.concat(frames, axis=0, join="outer")`: if all frames have the same ones these, otherwise all of them, each where
    it first occurs.  pandas raises (`none`) for no frames, and if a label repeats in a frame whose columns are not the others'. -/
def concatColumns [DecidableEq κ] : List (List κ) → Option (List κ)
  | [] => none
  | c :: rest =>
    if rest.all (· = c) then some c
    else if (c :: rest).all (·.Nodup) then some (firsts (c :: rest).flatten) else none

/-- `pandas.concat(frames, axis=0, join="outer")`: the rows of the frames one under another; cells of columns a frame has not are `nan`. -/
def concatUnder [DecidableEq κ] (nan : α) (fs : List (Frame ι κ α)) : Option (Frame ι κ α) :=
  (concatColumns (fs.map (·.columns))).bind fun cols =>
  (fs.mapM (Frame.reindexColumns nan cols)).map fun gs =>
    { index := (gs.map (·.index)).flatten, columns := cols, rows := (gs.map (·.rows)).flatten }

/-- the row labels with the key of a group before them -/
def Frame.keyed (k : K) (f : Frame ι κ α) : Frame (K × ι) κ α :=
  { index := f.index.map fun i => (k, i), columns := f.columns, rows := f.rows }

/-- `df.groupby(...).apply(f)`, `f` returning a frame: the results of the groups one under another.  Without any group the result is a frame
    without rows that has the columns `cols0` of `df`. -/
def groupApply [DecidableEq K] [DecidableEq κ] (G : Grouping K) (key : τ → K) (nan : α) (f : K → List τ → Frame ι κ α) (cols0 : List κ)
    (rows : List τ) : Option (Frame (K × ι) κ α) :=
  let results := groupRecords G key f rows
  if results.isEmpty then some { index := [], columns := cols0, rows := [] }
  else concatUnder nan (results.map fun r => r.2.keyed r.1)
