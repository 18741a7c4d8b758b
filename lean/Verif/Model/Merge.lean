import Verif.Model.FullAxis
import Verif.Model.RangeOps
import Verif.Pandas.Merge
/-
`merge`.  Models modin/core/storage_formats/pandas/merge.py and the parts of
modin/core/dataframe/base/dataframe/utils.py, modin/core/dataframe/pandas/partitioning/partition_manager.py and
modin/core/dataframe/pandas/dataframe/dataframe.py it uses.
-/

variable {ι ι' κ α Q : Type}

/-- modin/core/dataframe/base/dataframe/utils.py:59-155 `join_columns`.  `none`: a key is not a column
    (`NotImplementedError`).  Not modelled: a single key found in the index of one side. A suffix `None` is
    formatted like any other value. -/
def joinColumns [DecidableEq κ] (o : MergeOn κ) (leftCols rightCols : List κ) : Option (List κ) :=
  if o.leftOn.any (fun c => !leftCols.contains c) || o.rightOn.any (fun c => !rightCols.contains c) then none
  else
    let leftConflicts := fun c => leftCols.contains c && (rightCols.contains c && !o.rightOn.contains c)
    let rightConflicts := fun c => rightCols.contains c && (leftCols.contains c && !o.leftOn.contains c)
    let newName := fun (suffix : Option String) c =>
      if leftConflicts c || rightConflicts c then o.fmt c (suffix.getD "None") else c
    some (leftCols.map (newName o.leftSuffix) ++
      (rightCols.filter fun c => !(o.leftOn.contains c && o.rightOn.contains c)).map (newName o.rightSuffix))

/-- modin/core/storage_formats/pandas/merge.py:280-299 `_compute_result_metadata`, the columns: only when the
    columns of `left` are known. -/
def mergeColumns [DecidableEq κ] (o : MergeOn κ) (left : MFrame ι κ α) (right : MFrame ι' κ α) : Option (List κ) :=
  left.columns.bind fun c => joinColumns o c right.getColumns

/-- modin/core/storage_formats/pandas/utils.py:235-266 `merge_partitioning` with `axis=1` -/
def mergeSplits (cfg : Cfg) (left : MFrame ι κ α) (right : MFrame ι' κ α) : Option Nat :=
  match left.colWidths, right.colWidths with
  | some l, some r =>
    (computeChunksize (l.sum + r.sum) cfg.nPartitions cfg.minCol).map fun c => (l.sum + r.sum + c - 1) / c
  | _, _ => some (min (gridWidth left.parts + gridWidth right.parts) cfg.nPartitions)

/-- modin/core/storage_formats/base/query_compiler.py:7513-7548 `repartition(axis=0)`:
    `apply_full_axis(0, identity, keep_partitioning=False)` with the labels handed over
    (modin/core/dataframe/pandas/dataframe/dataframe.py:3606-3642). -/
def repartitionRows [DecidableEq ι] [DecidableEq κ] (cfg : Cfg) (m : MFrame ι κ α) : Option (MFrame ι κ α) :=
  (mapAxisPartitions cfg true some m.parts false none none).bind fun g =>
  MFrame.mk' { parts := g, index := m.index, columns := m.columns,
               rowLens := m.index.bind fun i => getLengthList i.length g.length cfg.minRow,
               colWidths := m.columns.bind fun c =>
                 if gridWidth g = 1 then some [c.length]
                 else m.colWidths.bind fun w => if c.length = w.sum then some w else none }

/-- modin/core/storage_formats/pandas/merge.py:180-190: a frame stored in few row partitions is divided anew. -/
def rebalanceForMerge [DecidableEq ι] [DecidableEq κ] (cfg : Cfg) (m : MFrame ι κ α) : Option (MFrame ι κ α) :=
  if 10 * m.parts.length < 3 * cfg.nPartitions ∧ m.getIndex.length > cfg.nPartitions * cfg.minRow then
    repartitionRows cfg m
  else some m

/-- modin/core/storage_formats/pandas/merge.py:104-251 `row_axis_merge` on column labels, up to the sorting: one side is
    gathered into one block, the other's row partitions are merged with it one by one.  For `how="right"` the sides
    change roles. Not modelled: keys that are index levels, `indicator`, `validate`, `how="right"` without any block in
    `right` and `how="outer"`/`"cross"` (pandas itself does the work). -/
def rowAxisMergeUnsorted [DecidableEq ι] [DecidableEq ι'] [DecidableEq κ] [DecidableEq α] (cfg : Cfg) (o : MergeOn κ)
    (nan : α) (how : How) (left : MFrame ι κ α) (right : MFrame ι' κ α) : Option (MFrame Nat κ α) :=
  match how with
  | .right =>
    left.combined.bind fun l =>
    (rebalanceForMerge cfg right).bind fun right' =>
    (mergeSplits cfg right' left).bind fun n =>
    applyFullRows cfg (fun _ b => some (Frame.merge o nan .right l b)) false (some n) (mergeColumns o left right) right'
  | how =>
    right.combined.bind fun r =>
    (rebalanceForMerge cfg left).bind fun left' =>
    (mergeSplits cfg left' right).bind fun n =>
    applyFullRows cfg (fun _ b => some (Frame.merge o nan how b r)) false (some n) (mergeColumns o left right) left'

/-- How the rows of the result are compared when `sort=True`, as in `sort_by`; the pivots are whatever the sampling
    leads to. -/
structure SortReq (α Q : Type) where
  over : Bool
  le : Q → Q → Bool
  isna : α → Bool
  key : α → Option Q
  numeric : Bool
  draw : Nat → List (Option Q)

/-- modin/core/storage_formats/pandas/merge.py:229-247: with `sort=True` the result is sorted by the columns named in
    `on` or in `left_on + right_on`; `byNames = none` when the call names no columns.  A name that is not a column of
    the result is an error. -/
def sortMerged [DecidableEq κ] (cfg : Cfg) (rq : SortReq α Q) (byNames : Option (List κ)) (m : MFrame Nat κ α) :
    Option (MFrame Nat κ α) :=
  match byNames with
  | none => some m
  | some names =>
    if names.all fun c => m.getColumns.contains c then
      sortByValues cfg rq.over rq.le rq.isna rq.key rq.numeric true rq.draw (names.map fun c => (m.getColumns.idxOf c, true)) m
    else none

/-- modin/core/storage_formats/pandas/merge.py:104-251 `row_axis_merge`.  `byNames`: the columns the call names
    (`on`, or `left_on + right_on`). Without, `on` is the list of common columns, but it is not filled in for the
    sorting. -/
def rowAxisMerge [DecidableEq ι] [DecidableEq ι'] [DecidableEq κ] [DecidableEq α] (cfg : Cfg) (o : MergeOn κ) (nan : α)
    (how : How) (sort : Option (SortReq α Q)) (byNames : Option (List κ)) (left : MFrame ι κ α) (right : MFrame ι' κ α) :
    Option (MFrame Nat κ α) :=
  (rowAxisMergeUnsorted cfg o nan how left right).bind fun m =>
  (match sort with
    | none => some m
    | some rq => sortMerged cfg rq byNames m).bind (resetIndexDropLazy cfg)

/-- modin/core/dataframe/pandas/partitioning/partition_manager.py:1988-2031: the pieces of every row partition
    belonging to the same range, stacked (missing keys in the last range, ascending order). -/
def gatherRanges [DecidableEq ι] [DecidableEq κ] (le : Q → Q → Bool) (cols : List (KeyCol α Q)) (g : Grid ι κ α) :
    Option (List (Frame ι κ α)) :=
  (g.mapM Frame.hcat).bind fun rowParts =>
  (rowParts.mapM (splitFrame le true true false cols)).bind fun splits => (colBlocks splits).mapM Frame.vcat

/-- modin/core/dataframe/pandas/partitioning/partition_manager.py:1937-2052 `shuffle_partitions` with `right_partitions`:
    both frames are divided into the same ranges, `func` is applied to each pair.  With a single range, `func` is
    applied to the pairs of row partitions standing at the same place. -/
def shuffleBroadcast [DecidableEq ι] [DecidableEq ι'] [DecidableEq κ] (le : Q → Q → Bool) (cols rightCols : List (KeyCol α Q))
    (func : Frame ι κ α → Frame ι' κ α → Option (Frame Nat κ α)) (g : Grid ι κ α) (right : Grid ι' κ α) :
    Option (Grid Nat κ α) :=
  if numBins cols > 1 then
    (gatherRanges le cols g).bind fun ls => (gatherRanges le rightCols right).bind fun rs =>
    (ls.zip rs).mapM fun p => (func p.1 p.2).map fun x => [x]
  else
    (g.mapM Frame.hcat).bind fun ls => (right.mapM Frame.hcat).bind fun rs =>
    (ls.zip rs).mapM fun p => (func p.1 p.2).map fun x => [x]

/-- modin/core/storage_formats/pandas/merge.py:38-101 `range_partitioning_merge` with
    modin/core/dataframe/pandas/dataframe/dataframe.py:4087-4160 `_apply_func_to_range_partitioning_broadcast`.
    `none`: the method gives up (not one key column of the same name, another `how`, key not a column) and
    `row_axis_merge` is used. The pivots come from samples of `left` alone. Simplified: with one row partition the row
    labels are computed first and then replaced; here they are replaced without computing them. -/
def rangeMerge [DecidableEq ι] [DecidableEq ι'] [DecidableEq κ] [DecidableEq α] (cfg : Cfg) (o : MergeOn κ) (nan : α)
    (how : How) (le : Q → Q → Bool) (col : KeyCol α Q) (draw : Nat → List (Option Q)) (k : κ) (left : MFrame ι κ α)
    (right : MFrame ι' κ α) : Option (MFrame Nat κ α) :=
  if how = .right ∨ ¬ k ∈ left.getColumns ∨ ¬ k ∈ right.getColumns then none
  else if left.parts.length = 1 then
    right.combined.bind fun r =>
    (applyFullRows cfg (fun _ b => some (Frame.merge o nan how b r)) true none (mergeColumns o left right) left).bind
      (resetIndexDropLazy cfg)
  else
    let pivots := pickPivots draw left.parts.length
    (shuffleBroadcast le [{ col with pos := left.getColumns.idxOf k, pivots := pivots }]
      [{ col with pos := right.getColumns.idxOf k, pivots := pivots }] (fun l r => some (Frame.merge o nan how l r))
      left.parts right.parts).bind fun g =>
    (MFrame.mk' { parts := g, index := none, columns := mergeColumns o left right, rowLens := none, colWidths := none }).bind
      (resetIndexDropLazy cfg)
