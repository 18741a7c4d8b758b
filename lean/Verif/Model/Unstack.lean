import Verif.Model.Reindex
import Verif.Model.Relabel
import Verif.Pandas.Unstack
/-
`stack`, `unstack` and `pivot`.
Models modin/pandas/dataframe.py (`stack`, `unstack`, `pivot`) and modin/core/storage_formats/pandas/query_compiler.py (`unstack`,
`stack`, `pivot`).
Not modelled: `sort=False` and `future_stack=True` (they default to pandas), more than one level of column labels, more than two
levels of row labels, level names, missing labels, and `pivot` with row labels given as data or with several columns as labels.
-/

variable {ι κ κ' α A B : Type}

/-- modin/pandas/dataframe.py:2137-2165 `stack` and modin/core/storage_formats/pandas/query_compiler.py:1988-2005 `stack` for one
    level of column labels: pandas' `stack` in every row partition. -/
def LFrame.stack [DecidableEq ι] [DecidableEq κ] (cfg : Cfg) (isna : α → Bool) (drop : Bool) (m : LFrame ι κ α) :
    Option (LFrame (ι × κ) Unit α) :=
  m.applyFullLines cfg (fun b => some (b.stack isna drop)) none (some [()])

/-- `pandas.MultiIndex.from_product([columns, index])` -/
def productLabels (columns : List κ) (index : List ι) : List (κ × ι) := columns.flatMap fun c => index.map fun i => (c, i)

/-- modin/pandas/dataframe.py:1496-1515 `unstack` and modin/core/storage_formats/pandas/query_compiler.py:1836-1986 `unstack` for
    one level of row and of column labels: pandas' `unstack` in every row partition (1896-1899), then (1950-1958, 1985) `reindex`
    to the product of the column and the row labels. -/
def LFrame.unstackFlat [DecidableEq ι] [DecidableEq κ] (cfg : Cfg) (nan : α) (m : LFrame ι κ α) : Option (LFrame (κ × ι) Unit α) :=
  (m.applyFullLines cfg (fun b => b.unstackFlat) none (some [()])).bind fun r =>
  r.reindexRowsTo cfg nan (productLabels m.getColumns m.getIndex)

/-- modin/pandas/dataframe.py:1516-1519 and modin/core/storage_formats/pandas/query_compiler.py:1836-1900 `unstack(level=1)` for
    two levels of row labels: pandas' `unstack` in every column partition; both axes of labels are read off the blocks. -/
def LFrame.unstackInner [DecidableEq A] [DecidableEq B] [DecidableEq κ] (cfg : Cfg) (leA : A → A → Bool) (leB : B → B → Bool) (fill : α)
    (lab : κ → B → κ') (m : LFrame (A × B) κ α) : Option (LFrame A κ' α) :=
  m.applyFullColumns cfg (Frame.unstackInner leA leB fill lab) none none

/-- the same with `level=0` -/
def LFrame.unstackOuter [DecidableEq A] [DecidableEq B] [DecidableEq κ] (cfg : Cfg) (leA : A → A → Bool) (leB : B → B → Bool) (fill : α)
    (lab : κ → A → κ') (m : LFrame (A × B) κ α) : Option (LFrame B κ' α) :=
  m.applyFullColumns cfg (Frame.unstackOuter leA leB fill lab) none none

/-! ### pivot -/

/-- the `index` or the `columns` argument of `pivot`: the label of a column, or a list of this one label -/
structure KeyArg (κ : Type) where
  label : κ
  isList : Bool
deriving DecidableEq, Repr

/-- `v not in arg` (modin/pandas/dataframe.py:1537 and 1539).  `inLabel v k` is Python's `v in k` for the label `k` itself: whether
    `v` is a part of the text `k`; `none`: labels that are not texts raise. -/
def KeyArg.omits [DecidableEq κ] (inLabel : κ → κ → Option Bool) (arg : KeyArg κ) (v : κ) : Option Bool :=
  if arg.isList then some (decide (v ≠ arg.label)) else (inLabel v arg.label).map (!·)

/-- a list comprehension with a condition that may raise -/
def filterPy (p : κ → Option Bool) (l : List κ) : Option (List κ) :=
  (l.mapM fun v => (p v).map fun b => (v, b)).map fun l => (l.filter (·.2)).map (·.1)

/-- modin/pandas/dataframe.py:1527-1539 with modin/core/storage_formats/pandas/query_compiler.py:4512-4525 (`__convert_by`): the
    columns to spread out -/
def pivotLabels [DecidableEq κ] (inLabel : κ → κ → Option Bool) (index columns : KeyArg κ) (all : List κ) : PivotValues κ → Option (List κ)
  | .missing => (filterPy (index.omits inLabel) all).bind (filterPy (columns.omits inLabel))
  | .column v => some [v]
  | .columns vs => some vs

/-- `df.set_index([i, c])` in a block (`append=False`: there are two keys) -/
def Frame.indexedBy [DecidableEq κ] (i c : κ) (b : Frame ι κ α) : Option (Frame (α × α) κ α) :=
  (b.onlyColumn i).bind fun ci => (b.onlyColumn c).bind fun cc =>
  some (Frame.ofCols (ci.zip cc) (b.named.filter fun e => decide (e.1 ∉ [i, c])))

/-- modin/core/storage_formats/pandas/query_compiler.py:4509-4557 `pivot` for one column as row labels and one as column labels.
    Equal labels `i` and `c` make the level to unstack ambiguous.  Line 4554: with one column to spread out, the first level of
    column labels is dropped. -/
def LFrame.pivotCompiled [DecidableEq ι] [DecidableEq κ] [DecidableEq α] (cfg : Cfg) (known : Nat → Nat → Bool × Bool)
    (le : α → α → Bool) (nan : α) (i c : κ) (values : List κ) (m : LFrame ι κ α) : Option (LFrame α (Option κ × α) α) :=
  if i = c then none else
  (if values ≠ [] then m.takeColLabels cfg known ([i, c] ++ values) else some m).bind fun obj =>
  (obj.applyFullLines cfg (Frame.indexedBy i c) none (some (obj.getColumns.filter fun k => decide (k ∉ [i, c])))).bind fun r =>
  (r.unstackInner cfg le le nan fun k v => (some k, v)).bind fun u =>
  if r.getColumns.length = 1 then u.setColumns (u.getColumns.map fun l => (none, l.2)) else some u

/-- modin/pandas/dataframe.py:1521-1545 `pivot` -/
def LFrame.pivot [DecidableEq ι] [DecidableEq κ] [DecidableEq α] (cfg : Cfg) (known : Nat → Nat → Bool × Bool)
    (inLabel : κ → κ → Option Bool) (le : α → α → Bool) (nan : α) (index columns : KeyArg κ) (values : PivotValues κ) (m : LFrame ι κ α) :
    Option (LFrame α (Option κ × α) α) :=
  (pivotLabels inLabel index columns m.getColumns values).bind fun vs =>
  m.pivotCompiled cfg known le nan index.label columns.label vs
