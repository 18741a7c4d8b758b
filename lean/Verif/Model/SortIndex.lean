import Verif.Model.Reindex
import Verif.Model.Reduce
import Verif.Pandas.SortIndex
/-
`sort_index`, `nlargest`/`nsmallest`, `first_valid_index`/`last_valid_index`.
Models modin/pandas/base.py (`sort_index`, `first_valid_index`, `last_valid_index`), modin/pandas/dataframe.py and series.py
(`nlargest`, `nsmallest`), and modin/core/storage_formats/pandas/query_compiler.py (`sort_index`, `_nsort`,
`first_valid_index`, `last_valid_index`).
`level` and MultiIndex are not modelled; dtypes: see Verif/Model/Dtypes.lean.
-/

variable {L α ι κ : Type}

/-- modin/core/storage_formats/pandas/query_compiler.py:2879-2915 `sort_index(axis=0)`: the labels are sorted on their own (as
    the index of a frame made of them), and every column partition is sorted by pandas -/
def LFrame.sortRows [DecidableEq ι] [DecidableEq κ] (cfg : Cfg) (order : List ι → List Nat) (num : Option (Nat → ι)) (m : LFrame ι κ α) :
    Option (LFrame ι κ α) :=
  m.applyFullColumns cfg (fun b => some (b.sortIndex order num))
    (some (sortedLabels num (takeList m.getIndex (order m.getIndex)))) (some m.getColumns)

/-- modin/core/storage_formats/pandas/query_compiler.py:2879-2915 `sort_index(axis=1)` -/
def LFrame.sortCols [DecidableEq ι] [DecidableEq κ] (cfg : Cfg) (order : List κ → List Nat) (num : Option (Nat → κ)) (m : LFrame ι κ α) :
    Option (LFrame ι κ α) :=
  m.applyFullLines cfg (fun b => some (b.sortColumns order num)) (some m.getIndex)
    (some (sortedLabels num (takeList m.getColumns (order m.getColumns))))

/-- modin/core/storage_formats/pandas/query_compiler.py:2895-2899: what the query compiler makes of `ascending` -/
def ascendingFlag (ascending : Option Bool) : Bool := ascending.getD false

/-- modin/pandas/base.py:3109-3143 `sort_index`: `ascending=None` raises.  `order` is pandas' sort of labels, given the
    direction; `num` gives the default labels. -/
def LFrame.sortIndex [DecidableEq L] (cfg : Cfg) (order : Bool → List L → List Nat) (num : Nat → L) (axis0 : Bool)
    (ascending : Option Bool) (ignoreIndex : Bool) (m : LFrame L L α) : Option (LFrame L L α) :=
  if ascending = none then none
  else if axis0 then m.sortRows cfg (order (ascendingFlag ascending)) (if ignoreIndex then some num else none)
  else m.sortCols cfg (order (ascendingFlag ascending)) (if ignoreIndex then some num else none)

/-- modin/core/storage_formats/pandas/query_compiler.py:2605-2651 `_nsort` with `columns` given: pandas' own `nlargest` or
    `nsmallest` in every column partition; the row labels are read from the blocks later -/
def LFrame.nsort [DecidableEq ι] [DecidableEq κ] (cfg : Cfg) (choose : List (List α) → List Nat) (keys : List κ) (m : LFrame ι κ α) :
    Option (LFrame ι κ α) :=
  m.applyFullColumns cfg (fun b => b.nsort choose keys) none (some m.getColumns)

/-- modin/core/storage_formats/pandas/query_compiler.py:2630-2651 `_nsort` with `columns=None` (a Series without a name):
    `squeeze(axis=1)` makes a Series of the one column of the partition; a partition with several columns makes pandas raise -/
def LFrame.nsortSeries [DecidableEq ι] (cfg : Cfg) (choose : List α → List Nat) (m : LFrame ι String α) :
    Option (LFrame ι String α) :=
  m.applyFullColumns cfg (fun b => if b.columns.length = 1 then some (b.takeRows (choose (b.column 0))) else none) none (some [unnamed])

/-- modin/core/storage_formats/pandas/query_compiler.py:2350-2385 `first_valid_index`, `last_valid_index`: a position per column
    (`reduce`), the least (greatest) of them (`.min(axis=1)`, `.max(axis=1)`), and the label at it.
    A column without valid cell has a missing position; pandas then holds the positions as floats, and an `Index` is not
    indexed with a float: this raises (`none`), as does indexing with a missing value. -/
def LFrame.validIndex [DecidableEq ι] [DecidableEq κ] (cfg : Cfg) (pos : List α → Option Nat)
    (op : TreeOp (Option Int) (Option Int) (Option Int)) (m : LFrame ι κ α) : Option ι :=
  (m.operation fun m1 => fullReduce0 cfg (fun c => (pos c).map Int.ofNat) m1).bind fun r =>
  (r.operation fun r1 => treeReduceOp1 cfg op.map op.reduce r1).bind fun s =>
  (r.toPandas none).bind fun each =>
  (s.toPandas none).bind fun f =>
  if each.rows.all (fun row => row.all Option.isSome) then
    ((f.rows.flatten[0]?).bind id).bind fun i => m.getIndex[i.toNat]?
  else none

/-- `Series.first_valid_index` of a column with labels 0, 1, ... -/
def firstValidPos (isna : α → Bool) (c : List α) : Option Nat := c.findIdx? fun v => !isna v

/-- `Series.last_valid_index` of a column with labels 0, 1, ... -/
def lastValidPos (isna : α → Bool) (c : List α) : Option Nat :=
  (c.reverse.findIdx? fun v => !isna v).map fun i => c.length - 1 - i

/-- modin/core/storage_formats/pandas/query_compiler.py:2350-2366 -/
def LFrame.firstValidIndex [DecidableEq ι] [DecidableEq κ] (cfg : Cfg) (isna : α → Bool) (m : LFrame ι κ α) : Option ι :=
  m.validIndex cfg (firstValidPos isna) (minOp true)

/-- modin/core/storage_formats/pandas/query_compiler.py:2368-2385 -/
def LFrame.lastValidIndex [DecidableEq ι] [DecidableEq κ] (cfg : Cfg) (isna : α → Bool) (m : LFrame ι κ α) : Option ι :=
  m.validIndex cfg (lastValidPos isna) (maxOp true)
