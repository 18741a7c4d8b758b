import Verif.Pandas.GroupAgg
import Verif.Pandas.Frame
/-
Specification: `DataFrame.select_dtypes`, `DataFrame.describe`, and `DataFrame.apply`/`agg` with a list or a dictionary of
functions.
-/

variable {ι κ L α K S N : Type}

/-- `df.select_dtypes(...)`: the columns whose dtype is wanted.  `kinds` are the dtypes of the columns. -/
def Frame.selectKinds (keep : K → Bool) (kinds : List K) (df : Frame ι κ α) : Frame ι κ α :=
  Frame.ofCols df.index (((df.named.zip kinds).filter fun e => keep e.2).map (·.1))

/-- What pandas computes of a column when it is described: which statistics depends on the dtype only (numbers: count, mean, std,
    min, percentiles, max; text: count, unique, top, freq; ...), their values on the cells. -/
structure Describer (K S α : Type) where
  stats : K → List S
  value : K → S → List α → α

/-- pandas.core.methods.describe `reorder_columns`: the names of all statistics, those of the columns with the fewest first -/
def statLabels [DecidableEq S] (D : Describer K S α) (kinds : List K) : List S :=
  firsts (sortBy (fun a b => decide (a.length ≤ b.length)) (kinds.map D.stats)).flatten

/-- one cell of the description; a statistic a column does not have is missing -/
def describeCell [DecidableEq S] (nan : α) (D : Describer K S α) (s : S) (e : (κ × List α) × K) : α :=
  if s ∈ D.stats e.2 then D.value e.2 s e.1.2 else nan

/-- `df.describe(include="all")`; `none`: a frame without columns (`ValueError`) -/
def Frame.describeAll [DecidableEq S] (nan : α) (D : Describer K S α) (kinds : List K) (df : Frame ι κ α) : Option (Frame S κ α) :=
  if df.columns = [] then none
  else some { index := statLabels D kinds, columns := df.columns,
              rows := (statLabels D kinds).map fun s => (df.named.zip kinds).map (describeCell nan D s) }

/-- The argument `include` (with `exclude`) of `describe`. -/
inductive DescribeOf (K : Type) where
  | byDefault
  | all
  | those (keep : K → Bool)

/-- Which columns are described: by default numbers and dates if there are any (`isDefault`), otherwise all. -/
def DescribeOf.keeps (isDefault : K → Bool) (kinds : List K) : DescribeOf K → K → Bool
  | .byDefault => if kinds.any isDefault then isDefault else fun _ => true
  | .all => fun _ => true
  | .those keep => keep

/-- `df.describe(include=...)` -/
def Frame.describe [DecidableEq S] (nan : α) (D : Describer K S α) (isDefault : K → Bool) (of : DescribeOf K) (kinds : List K)
    (df : Frame ι κ α) : Option (Frame S κ α) :=
  (df.selectKinds (of.keeps isDefault kinds) kinds).describeAll nan D (kinds.filter (of.keeps isDefault kinds))

/-- A function of a column: it makes one value of it, or a column of the same length. -/
inductive ColFn (α : Type) where
  | reduces (f : List α → α)
  | keeps (f : List α → List α)

def ColFn.reduction : ColFn α → Option (List α → α)
  | .reduces g => some g
  | .keeps _ => none

def ColFn.transformation : ColFn α → Option (List α → List α)
  | .keeps g => some g
  | .reduces _ => none

/-- `df.apply([f, g, ...])` (and `df.agg`): with functions that make one value, a row for each function; with functions that make
    a column, for each column of the frame one for each function, labelled with both names (`pair`).  `none`: an exception
    (no function, two functions of the same name, functions of both sorts).  A frame without columns, which pandas refuses, is not
    meant. -/
def Frame.applyList [DecidableEq L] (pair : L → L → L) (fns : List (L × ColFn α)) (df : Frame L L α) : Option (Frame L L α) :=
  if fns.isEmpty ∨ ¬ (fns.map (·.1)).Nodup then none
  else match fns.mapM fun (f : L × ColFn α) => f.2.reduction.map fun g => (f.1, g) with
  | some gs => some (Frame.ofCols (gs.map (·.1)) (df.named.map fun c => (c.1, gs.map fun g => g.2 c.2)))
  | none =>
    (fns.mapM fun (f : L × ColFn α) => f.2.transformation.map fun g => (f.1, g)).map fun gs =>
      Frame.ofCols df.index (df.named.flatMap fun c => gs.map fun g => (pair c.1 g.1, g.2 c.2))

/-- `df.apply([f, g, ...], axis=1)` with functions that make one value of a row: a column for each function -/
def Frame.applyListRows [DecidableEq L] (fns : List (L × (List α → α))) (df : Frame L L α) : Option (Frame L L α) :=
  if fns.isEmpty ∨ ¬ (fns.map (·.1)).Nodup then none
  else some { index := df.index, columns := fns.map (·.1), rows := df.rows.map fun r => fns.map fun f => f.2 r }

/-- `df.apply({label: f, ...})` with functions that make a column: the columns named, in the order of the dictionary; with
    functions that make one value, a Series labelled by the columns (a frame of one column labelled `name`).  `none`: an exception
    (no function, `KeyError` for a label that is not there, functions of both sorts). -/
def Frame.applyDict [DecidableEq L] (name : L) (d : List (L × ColFn α)) (df : Frame L L α) : Option (Frame L L α) :=
  if d.isEmpty ∨ ¬ ∀ e ∈ d, e.1 ∈ df.columns then none
  else
    let chosen := d.flatMap fun e => (df.named.filter fun c => decide (c.1 = e.1)).map fun c => (c, e.2)
    match chosen.mapM fun (e : (L × List α) × ColFn α) => e.2.reduction.map fun g => (e.1.1, g e.1.2) with
    | some vs => some { index := vs.map (·.1), columns := [name], rows := vs.map fun v => [v.2] }
    | none =>
      (chosen.mapM fun (e : (L × List α) × ColFn α) => e.2.transformation.map fun g => (e.1.1, g e.1.2)).map fun cs =>
        Frame.ofCols df.index cs
