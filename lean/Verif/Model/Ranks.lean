import Verif.Model.Reindex
import Verif.Model.Dropna
import Verif.Pandas.Ranks
/-
`mode`, `quantile` with a list of quantiles and `rank`.
Models modin/pandas/base.py (`mode`, `quantile`, `rank`) and
modin/core/storage_formats/pandas/query_compiler.py (`mode`, `quantile_for_list_of_values`, `rank`).
Only frames all of whose columns are numeric, so `numeric_only` selects all of them.  `mode` with `axis=1` and `na_option` of `rank`
other than "keep" are not modelled; dtypes: see Verif/Model/Dtypes.lean.
-/

variable {ι κ ι' κ' α β Q : Type}

/-- modin/core/storage_formats/pandas/query_compiler.py:2686-2697 `mode_builder` with `axis=0` on a column partition: as many
    rows as the partition had -/
def modeBuilder [DecidableEq α] (nan : α) (md : List α → List α) (b : Frame ι κ α) : Option (Frame Nat κ α) :=
  let r := b.mode nan md
  if b.nrows ≠ r.nrows then r.reindexIndex nan (List.range b.nrows) else some r

/-- modin/pandas/base.py:2277-2288 and modin/core/storage_formats/pandas/query_compiler.py:2683-2708 `mode(axis=0)` -/
def LFrame.mode [DecidableEq ι] [DecidableEq κ] [DecidableEq α] (cfg : Cfg) (nan : α) (le : α → α → Bool) (isna : α → Bool) (dropna : Bool)
    (m : LFrame ι κ α) : Option (LFrame Nat κ α) :=
  (m.applyFullColumns cfg (modeBuilder nan (modesOf le isna dropna)) (some (List.range m.getIndex.length)) (some m.getColumns)).bind fun r =>
  r.dropnaRowsCompiled cfg isna (.how .all) none

/-- modin/pandas/base.py:2403-2452 (checks of dtypes aside) and
    modin/core/storage_formats/pandas/query_compiler.py:2815-2860 `quantile_for_list_of_values(axis=0)` -/
def LFrame.quantiles0 [DecidableEq ι] [DecidableEq κ] (cfg : Cfg) (valid : Q → Bool) (quant : List α → Q → β) (qs : List Q)
    (m : LFrame ι κ α) : Option (LFrame Q κ β) :=
  if qs.all valid then m.applyFullColumns cfg (fun b => b.quantiles0 valid quant qs) (some qs) (some m.getColumns) else none

/-- the same with `axis=1`: the result is transposed in every partition and once more at the end -/
def LFrame.quantiles1 [DecidableEq ι] [DecidableEq κ] [DecidableEq Q] (cfg : Cfg) (valid : Q → Bool) (quant : List α → Q → β) (qs : List Q)
    (m : LFrame ι κ α) : Option (LFrame Q ι β) :=
  if qs.all valid then
    (m.applyFullLines cfg (fun b => (b.quantiles1 valid quant qs).map Frame.transpose) (some m.getIndex) (some qs)).bind fun r => r.transpose
  else none

/-- modin/core/dataframe/pandas/dataframe/dataframe.py:3483-3676 `broadcast_apply_full_axis` with `other=None`,
    `keep_partitioning=True`, `num_splits=None` and `sync_labels=False`: the labels given are believed to be those of the blocks -/
def LFrame.applyFullUnsynced [DecidableEq ι] [DecidableEq κ] (cfg : Cfg) (axis0 : Bool) (func : Frame ι κ α → Option (Frame ι' κ' β))
    (newIndex : Option (List ι')) (newColumns : Option (List κ')) (m : LFrame ι κ α) : Option (LFrame ι' κ' β) :=
  m.operation fun m1 =>
  (mapAxisPartitions cfg axis0 func m1.parts true none none).bind fun g =>
  MFrame.mk' ⟨g, newIndex, newColumns,
    if axis0 then newIndex.bind fun i => m1.rowLens.bind fun l => if i.length = l.sum ∧ l.all (· != 0) then some l else none
    else newIndex.bind fun i => if g.length = 1 then some [i.length] else none,
    if axis0 then newColumns.bind fun c => if gridWidth g = 1 then some [c.length] else none
    else newColumns.bind fun c => m1.colWidths.bind fun w => if c.length = w.sum ∧ w.all (· != 0) then some w else none⟩

/-- modin/pandas/base.py:2469-2492 and modin/core/storage_formats/pandas/query_compiler.py:2862-2877 `rank`.  `axis1` or
    `numeric_only`: the column labels are computed from the blocks. -/
def LFrame.rank [DecidableEq ι] [DecidableEq κ] (cfg : Cfg) (axis0 numericOnly : Bool) (lt : α → α → Bool) (isna : α → Bool) (method : RankMethod)
    (ascending pct : Bool) (m : LFrame ι κ α) : Option (LFrame ι κ (Option Rat)) :=
  m.applyFullUnsynced cfg axis0 (fun b => some (b.along axis0 (rankLine (if ascending then lt else fun x y => lt y x) isna method pct)))
    m.index (if !axis0 || numericOnly then none else m.columns)
