import Verif.Pandas.Relabel
import Verif.Pandas.Take
/-
What pandas' `melt` returns, and the outer join of `pandas.concat(axis=1)`.
-/

variable {ι κ α : Type}

/-- The row `melt` makes of row `r` for the value column at position `v`: the cells of the id columns, the label of the value
    column, its cell. -/
def meltRow (lab : κ → α) (columns : List κ) (ids : List Nat) (v : Nat) (r : List α) : List α :=
  takeList r ids ++ columns[v]?.toList.map lab ++ r[v]?.toList

/-- The positions of the value columns that are unpivoted: all but the id columns when none are named (`value_vars=None`, or
    nothing named at all); otherwise the named ones, each once, and none that is an id column. -/
def meltValues (n : Nat) (ids : List Nat) : Option (List Nat) → List Nat
  | none => (List.range n).filter fun v => decide (v ∉ ids)
  | some vs => if ids = [] ∧ vs = [] then List.range n else vs.eraseDups.filter fun v => decide (v ∉ ids)

/-- The positions of the named value columns. -/
def valuePositions [DecidableEq κ] (columns : List κ) : Option (List κ) → Option (Option (List Nat))
  | none => some none
  | some vals => (vals.mapM (onlyPosition columns)).map some

/-- `df.melt(id_vars=ids, value_vars=vals, var_name=var, value_name=value)` (`ignore_index=True`, no `col_level`): for every
    value column in turn, every row in turn; rows are numbered from 0.  `lab` is a column label as a cell.  pandas raises
    (`none`) when `value` is the name of a column, when a name is no column's, and when an id is listed twice; a name carried
    by several columns is not modelled (`none` too), nor are result columns of the same name. -/
def Frame.melt [DecidableEq κ] (lab : κ → α) (ids : List κ) (vals : Option (List κ)) (var value : κ) (df : Frame ι κ α) :
    Option (Frame Nat κ α) :=
  if value ∈ df.columns ∨ ¬ ids.Nodup then none
  else
    (ids.mapM (onlyPosition df.columns)).bind fun is => (valuePositions df.columns vals).map fun vs =>
      let rows := (meltValues df.ncols is vs).flatMap fun v => df.rows.map (meltRow lab df.columns is v)
      Frame.mk (List.range rows.length) (ids ++ [var, value]) rows

/-- The cells of the row called `i`, missing values if there is none. -/
def Frame.rowOr [DecidableEq ι] (nan : α) (f : Frame ι κ α) (i : ι) : List α :=
  ((f.index.zip f.rows).find? fun e => e.1 == i).elim (List.replicate f.columns.length nan) (·.2)

/-- `pandas.concat([a, b], axis=1)`: side by side when the row labels are the same, an outer join of the rows otherwise
    (labels of `a` first; the order pandas chooses for joined labels is not modelled further).  `none`: pandas raises, for
    labels that differ and are not unique. -/
def Frame.concatOuter [DecidableEq ι] (nan : α) (a b : Frame ι κ α) : Option (Frame ι κ α) :=
  if a.index = b.index then Frame.hcat [a, b]
  else if a.index.Nodup ∧ b.index.Nodup then
    let index := a.index ++ b.index.filter fun i => decide (i ∉ a.index)
    some (Frame.mk index (a.columns ++ b.columns) (index.map fun i => a.rowOr nan i ++ b.rowOr nan i))
  else none
