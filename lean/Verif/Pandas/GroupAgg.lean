import Verif.Pandas.GroupBy
import Verif.Pandas.Columns
/-
Specification vocabulary: pandas' `groupby` on columns of the frame, for any aggregation (a function, a list of
functions, a dictionary) and for transformations.
-/

variable {ι κ ℓ α : Type}

/-- the columns of a frame with their labels -/
def Frame.named (df : Frame ι κ α) : List (κ × List α) := df.columns.zip df.cols

/-- a frame made of labelled columns -/
def Frame.ofCols (index : List ι) (cols : List (κ × List α)) : Frame ι κ α :=
  { index := index, columns := cols.map (·.1), rows := (List.range index.length).map fun i => cols.filterMap (·.2[i]?) }

/-- the cells of the only column labelled `c`; `none`: there is no such column (`KeyError`), or there are several
    (`ValueError`: the grouper is not 1-dimensional) -/
def keyColumn [DecidableEq κ] (c : κ) (cols : List (κ × List α)) : Option (List α) :=
  match cols.filter fun p => decide (p.1 = c) with
  | [p] => some p.2
  | _ => none

/-- The key of every row when grouping on the columns `by`: its cells in these columns, in the order of `by`. -/
def Frame.groupKeys [DecidableEq κ] (by' : List κ) (df : Frame ι κ α) : Option (List (List α)) :=
  (by'.mapM fun c => keyColumn c df.named).map fun cols => (List.range df.nrows).map fun i => cols.filterMap (·[i]?)

/-- What is computed of a column: from the rows' keys and the cells of the column, the cells of the new column. -/
abbrev GroupFn (α : Type) := List (List α) → List α → List α

/-- an aggregation: its value on the cells of each group, one cell per group in the order of the groups -/
def perGroup [DecidableEq α] (G : Grouping (List α)) (h : List α → α) : GroupFn α :=
  fun keys cells => (G.groups keys).map fun k => h (cellsAt k keys cells)

/-- a transformation (`transform`, `cumsum`, `shift`, ...): each row gets its cell of what `t` makes of its group's cells;
    rows without a group get `nan` -/
def perRow [DecidableEq α] (G : Grouping (List α)) (nan : α) (t : List α → List α) : GroupFn α :=
  fun keys cells => keys.mapIdx fun i k =>
    if G.dropped k then nan else ((t (cellsAt k keys cells))[(keys.take i).count k]?).getD nan

/-- What to compute.  `each fns`: of every column `c` not grouped on, the new columns `fns c` with their labels (one
    function: `[(c, f)]`; a list of functions: `[((c, "f"), f), ((c, "g"), g)]`).  `dict d`: the new columns listed, of the
    columns named. -/
inductive GroupSpec (κ ℓ φ : Type) where
  | each (fns : κ → List (ℓ × φ))
  | dict (d : List (κ × List (ℓ × φ)))

/-- the same columns and labels, other functions -/
def GroupSpec.map {φ ψ : Type} (t : φ → ψ) : GroupSpec κ ℓ φ → GroupSpec κ ℓ ψ
  | .each fns => .each fun c => (fns c).map fun f => (f.1, t f.2)
  | .dict d => .dict (d.map fun e => (e.1, e.2.map fun f => (f.1, t f.2)))

/-- the new columns of one column -/
def newCols (keys : List (List α)) (fs : List (ℓ × GroupFn α)) (cells : List α) : List (ℓ × List α) :=
  fs.map fun f => (f.1, f.2 keys cells)

/-- All new columns, in pandas' order: the frame's without the columns grouped on, or the dictionary's. -/
def GroupSpec.cols [DecidableEq κ] (by' : List κ) (keys : List (List α)) (cols : List (κ × List α)) :
    GroupSpec κ ℓ (GroupFn α) → List (ℓ × List α)
  | .each fns => (cols.filter fun p => !by'.contains p.1).flatMap fun p => newCols keys (fns p.1) p.2
  | .dict d => d.flatMap fun e => (cols.filter fun p => decide (p.1 = e.1)).flatMap fun p => newCols keys e.2 p.2

/-- `df.groupby(by)` and what `spec` computes, with `as_index=True`.  `labels`: the row labels of the result from the
    keys and the row labels of the frame (the groups, or for a transformation the frame's).  `none`: an exception. -/
def Frame.groupCalc {ι' : Type} [DecidableEq κ] (labels : List (List α) → List ι → List ι') (by' : List κ) (spec : GroupSpec κ ℓ (GroupFn α))
    (df : Frame ι κ α) : Option (Frame ι' ℓ α) :=
  (df.groupKeys by').map fun keys => Frame.ofCols (labels keys df.index) (spec.cols by' keys df.named)

/-- the columns named explicitly: those of a dictionary -/
def GroupSpec.selected {φ : Type} : GroupSpec κ ℓ φ → List κ
  | .each _ => []
  | .dict d => d.map (·.1)

/-- `as_index=False`: rows numbered from 0, in front the key columns that were not aggregated themselves; `key c` is the label of
    key column `c` among the new columns (`c`, or `(c, "")` if these are pairs). -/
def Frame.withKeys [DecidableEq κ] (key : κ → ℓ) (by' : List κ) (taken : List κ) (r : Frame (List α) ℓ α) : Frame Nat ℓ α :=
  { index := List.range r.index.length,
    columns := ((by'.filter fun c => !taken.contains c).map key) ++ r.columns,
    rows := List.zipWith (fun k row => (((by'.zip k).filter fun p => !taken.contains p.1).map (·.2)) ++ row) r.index r.rows }

/-- `df.groupby(by, as_index=False)` and what `spec` computes, for an aggregation -/
def Frame.groupAggFlat [DecidableEq κ] [DecidableEq α] (G : Grouping (List α)) (key : κ → ℓ) (by' : List κ) (spec : GroupSpec κ ℓ (GroupFn α))
    (df : Frame ι κ α) : Option (Frame Nat ℓ α) :=
  (df.groupCalc (fun keys _ => G.groups keys) by' spec).map (Frame.withKeys key by' spec.selected)
