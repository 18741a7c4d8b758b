import Verif.Pandas.Take
/-
Specification vocabulary: `df.reset_index(drop=...)`, `df.set_index(keys, drop=...)`, `df.drop(index=..., columns=...)`.
Row labels are turned into cells by `cell`, cells into row labels by `lab`, and `num i` is the label `i` of a fresh
`RangeIndex`.
-/

variable {ι κ α : Type}

/-- The label of the column made of row labels called `name` (`none`: no name).  `indexName` and `levelName` are the labels
    `"index"` and `"level_0"`. -/
def resetLabel [DecidableEq κ] (indexName levelName : κ) (name : Option κ) (columns : List κ) : κ :=
  match name with
  | some n => n
  | none => if indexName ∈ columns then levelName else indexName

/-- `df.reset_index(drop=drop)` for one level of row labels called `name`.  pandas raises (`none`) when the new
    column's label is taken. -/
def Frame.resetIndex [DecidableEq κ] (num : Nat → ι) (cell : ι → α) (indexName levelName : κ) (name : Option κ) (drop : Bool)
    (df : Frame ι κ α) : Option (Frame ι κ α) :=
  let fresh := (List.range df.index.length).map num
  if drop then some { df with index := fresh }
  else
    let new := resetLabel indexName levelName name df.columns
    if new ∈ df.columns then none
    else some { index := fresh, columns := new :: df.columns, rows := List.zipWith (fun i r => cell i :: r) df.index df.rows }

/-- The position of the only column called `k`; `none`: there is none, or more than one. -/
def onlyPosition [DecidableEq κ] (columns : List κ) (k : κ) : Option Nat :=
  match (List.range columns.length).filter fun j => columns[j]? == some k with
  | [j] => some j
  | _ => none

/-- `df.set_index(keys, drop=drop)`: the row labels are made of the cells of the key columns, in the order of the keys.
    pandas raises (`none`) when a key names no column or several. -/
def Frame.setIndexFrom [DecidableEq κ] (lab : List α → ι) (keys : List κ) (drop : Bool) (df : Frame ι κ α) : Option (Frame ι κ α) :=
  (keys.mapM (onlyPosition df.columns)).map fun ps =>
    let kept := if drop then (List.range df.ncols).filter (fun j => decide (j ∉ ps)) else List.range df.ncols
    { df.takeCols kept with index := df.rows.map fun r => lab (takeList r ps) }

/-- `x` is not among the listed labels (`none`: nothing is listed) -/
def notListed {τ : Type} [DecidableEq τ] (labels : Option (List τ)) (x : τ) : Bool :=
  match labels with
  | none => true
  | some l => decide (x ∉ l)

/-- `df.drop(index=rows, columns=cols)`: the rows and the columns whose label is not listed, in order. -/
def Frame.dropLabels [DecidableEq ι] [DecidableEq κ] (rows : Option (List ι)) (cols : Option (List κ)) (df : Frame ι κ α) :
    Frame ι κ α :=
  { index := df.index.filter (notListed rows)
    columns := df.columns.filter (notListed cols)
    rows := ((df.index.zip df.rows).filter fun p => notListed rows p.1).map fun p =>
      ((df.columns.zip p.2).filter fun q => notListed cols q.1).map (·.2) }

/-- `df.drop(index=rows, columns=cols, errors="raise" | "ignore")`: with `"raise"` a listed label that is not there is an
    error (`none`). -/
def Frame.drop [DecidableEq ι] [DecidableEq κ] (raising : Bool) (rows : Option (List ι)) (cols : Option (List κ))
    (df : Frame ι κ α) : Option (Frame ι κ α) :=
  if raising ∧ ¬ ((∀ l, rows = some l → ∀ x ∈ l, x ∈ df.index) ∧ (∀ l, cols = some l → ∀ x ∈ l, x ∈ df.columns)) then none
  else some (df.dropLabels rows cols)
