import Verif.Model.GroupAgg
import Verif.Model.GroupBy
import Verif.Model.Select
import Verif.Model.RangeOps
import Verif.Pandas.ValueCounts
/-
`value_counts` of frames and series, and `groupby(...).size()` by map and reduce.
Models modin/pandas/base.py (`value_counts`), modin/pandas/series.py (`value_counts`), modin/core/storage_formats/pandas/query_compiler.py
(`groupby_size`, `_groupby_dict_reduce`), modin/core/dataframe/algebra/groupby.py (`GroupByReduce` with a dictionary) and
modin/core/dataframe/pandas/dataframe/dataframe.py (`groupby_reduce` with `apply_indices`).
Left out: the label of the column of counts, the names of the levels and whether a single key makes a `MultiIndex`.  Not modelled:
empty frames (pandas), `RangePartitioning`, `bins`, categorical keys.
-/

variable {ι κ α K : Type}

/-- modin/core/storage_formats/pandas/query_compiler.py:3105-3122 `getitem_column_array(labels)`.  A label that is not there
    is refused before (`none`). -/
def takeLabels [DecidableEq ι] [DecidableEq κ] (cfg : Cfg) (known : Nat → Nat → Bool × Bool) (labels : List κ) (m : MFrame ι κ α) :
    Option (MFrame ι κ α) :=
  ((getIndexerFor m.getColumns labels).mapM id).bind fun ps => take2d cfg known m none (some (.array ps))

/-- modin/core/dataframe/algebra/groupby.py:123-208 `GroupByReduce.map` with the dictionary `{c: size}` (453-490: an entry is used in
    the blocks that have its column; 660-663: a block without gives a frame without columns). -/
def sizeMap [DecidableEq ι] [DecidableEq κ] [DecidableEq α] (G : Grouping (List α)) (na : α) (drop : Bool) (c : κ)
    (b other : Frame ι κ α) : Option (Frame (List α) κ Nat) :=
  (blockKeys na drop b other).map fun keys =>
    if b.columns.contains c then (b.withoutCols fun l => decide (l ≠ c)).groupByKeys G keys List.length else Frame.mk [] [] []

/-- modin/core/storage_formats/pandas/query_compiler.py:3830-3874 `groupby_size`: the dictionary `{columns[0]: size}`, then
    modin/core/dataframe/pandas/dataframe/dataframe.py:4568-4589 and
    modin/core/dataframe/pandas/partitioning/partition_manager.py:302-357 `groupby_reduce` with `apply_indices`: the block column of the
    first column only; the counts of the blocks are summed up. -/
def groupbySize [DecidableEq ι] [DecidableEq κ] [DecidableEq α] (cfg : Cfg) (G : Grouping (List α)) (na : α) (drop : Bool)
    (m by' : MFrame ι κ α) : Option (MFrame (List α) κ Nat) :=
  if m.getIndex = [] then none else
  m.getColumns.head?.bind fun c =>
  (m.appliedBlocks (some [c])).bind fun idx =>
  let m := if by'.parts.length ≠ m.parts.length then filterEmpties m else m
  (m.parts.mapM fun row => idx.mapM fun j => row[j]?).bind fun left =>
  if by'.parts.length ≠ left.length then none else
  (broadcastApply0 (sizeMap G na drop c) left by'.parts).bind fun g =>
  (mapAxisPartitions cfg true (fun f => some (groupbyRed G List.sum f)) g false (some (min left.length cfg.nPartitions)) none).bind
    fun parts =>
  MFrame.mk' { parts := parts, index := none, columns := none, rowLens := none, colWidths := none }

/-- modin/core/dataframe/algebra/groupby.py:389-405: with by-data from a frame the groups are sorted whatever `sort` is -/
def groupSort (_asked : Bool) : Bool := true

/-- modin/pandas/base.py:3837-3845: sorting the counts, `na_position` and `key` left at their defaults -/
def sortCounts [DecidableEq κ] [DecidableEq K] (cfg : Cfg) (over : Bool) (draw : Nat → List (Option Nat)) (ascending : Bool)
    (counts : MFrame K κ Nat) : Option (MFrame K κ Nat) :=
  sortByValues cfg over (fun a b => decide (a ≤ b)) (fun _ => false) some true true draw [(0, ascending)] counts

/-- modin/pandas/base.py:3817-3845 `value_counts` of a frame, up to `normalize`.  `G`: the grouping for `sort` as given and `dropna`. -/
def valueCounts [DecidableEq ι] [DecidableEq κ] [DecidableEq α] (cfg : Cfg) (known : Nat → Nat → Bool × Bool)
    (G : Bool → Grouping (List α)) (na : α) (over : Bool) (draw : Nat → List (Option Nat)) (subset : Option (List κ))
    (sort ascending : Bool) (m : MFrame ι κ α) : Option (MFrame (List α) κ Nat) :=
  (takeLabels cfg known (subset.getD m.getColumns) m).bind fun keys =>
  (groupbySize cfg (G (groupSort false)) na true m keys).bind fun counts =>
  if sort then sortCounts cfg over draw ascending counts else some counts

/-- modin/pandas/series.py:2362-2387 `value_counts` of a series (a frame of one column): it is grouped by itself, the by-data does not
    count as taken from it (1254-1292). -/
def seriesValueCounts [DecidableEq ι] [DecidableEq κ] [DecidableEq α] (cfg : Cfg) (G : Bool → Grouping (List α)) (na : α) (over : Bool)
    (draw : Nat → List (Option Nat)) (sort ascending : Bool) (m : MFrame ι κ α) : Option (MFrame (List α) κ Nat) :=
  (groupbySize cfg (G (groupSort false)) na false m m).bind fun counts =>
  if sort then sortCounts cfg over draw ascending counts else some counts

/-- modin/pandas/base.py:3846-3847 `counted_values / counted_values.sum()`: the sum by map and reduce, the division in every block
    (`C04` for the other plans) -/
def normalizeCounts [DecidableEq κ] [DecidableEq K] (cfg : Cfg) (counts : MFrame K κ Nat) : Option (MFrame K κ Rat) :=
  (treeReduceOp cfg List.sum List.sum counts).bind fun s =>
  (assemble s.parts).bind fun f => f.rows.flatten.head?.bind fun total =>
  MFrame.mk' { parts := counts.parts.map fun row => row.map fun b => b.mapCells fun (n : Nat) => (n : Rat) / (total : Rat), index := counts.index,
               columns := counts.columns, rowLens := counts.rowLens, colWidths := counts.colWidths }
