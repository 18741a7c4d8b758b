import Verif.Model.Shuffle
import Verif.Model.Duplicated
import Verif.Pandas.Resample
/-
`resample`.
Models modin/core/storage_formats/pandas/query_compiler.py (`_resample_func`, `resample_size`),
modin/core/dataframe/pandas/dataframe/utils.py (`ShuffleResample`) and modin/core/dataframe/pandas/dataframe/dataframe.py
(`_apply_func_to_range_partitioning` with an index level as key).
Not modelled: rules that are not a fixed step (months, weeks, business days), time zones, missing times, several levels of row
labels, `kind` and `convention`, `on` together with range partitioning, aggregations that make several columns (`ohlc`), dtypes.
-/

variable {ι κ α β : Type}

/-- modin/core/storage_formats/pandas/query_compiler.py:1177-1287 `_resample_func` without range partitioning and without `on`:
    pandas' `resample` in every column partition.  (Line 1217: a block without rows is handed back as it is, which is what
    `resample` makes of it.) -/
def LFrame.resample [DecidableEq κ] (cfg : Cfg) (R : ResampleRule) (agg : List α → β) (m : LFrame Int κ α) : Option (LFrame Int κ β) :=
  m.applyFullColumns cfg (fun b => some (b.resample R agg)) none none

/-- the same with `on`: every column partition is asked for the column -/
def LFrame.resampleOn [DecidableEq ι] [DecidableEq κ] (cfg : Cfg) (R : ResampleRule) (agg : List α → β) (time : α → Int) (k : κ)
    (m : LFrame ι κ α) : Option (LFrame Int κ β) :=
  m.applyFullColumns cfg (fun b => b.resampleOn R agg time k) none none

/-- modin/core/storage_formats/pandas/query_compiler.py:1436-1442 `resample_size`: every column partition gives a column of counts
    (labelled `zero`), one label is given for all. -/
def LFrame.resampleSize [DecidableEq κ] (cfg : Cfg) (R : ResampleRule) (zero label : κ) (m : LFrame Int κ α) : Option (LFrame Int κ Nat) :=
  m.applyFullColumns cfg (fun b => some (b.resampleSize R zero)) none (some [label])

/-- modin/core/dataframe/pandas/dataframe/utils.py:553-595 `pick_pivots_from_samples_for_sort`: edges at even distances, counted
    from the first to the last edge.  (The quotient is computed with floats; here exactly.) -/
def resamplePivots (R : ResampleRule) (ideal : Nat) (a z : Int) : List Int :=
  (List.range (ideal - 1)).map fun i =>
    R.edge (R.origin a z) (R.bin (R.origin a z) a +
      (((R.bin (R.origin a z) z + 2 - R.bin (R.origin a z) a).toNat * (i + 1) / ideal : Nat) : Int))

/-- modin/core/dataframe/pandas/dataframe/utils.py:644-656 and 435-440: the number of the range a time is in.  (`closed_on_right` is
    not handed on by `ShuffleResample.split_partitions_using_pivots_for_sort`: `side="right"` always.) -/
def resampleCode (pivots : List Int) (t : Int) : Nat := (pivots.filter fun p => decide (p ≤ t)).length

/-- modin/core/dataframe/pandas/dataframe/utils.py:644-669 `split_partitions_using_pivots_for_sort`: the pieces of a row partition -/
def resampleSplit (pivots : List Int) (f : Frame Int κ α) : List (Frame Int κ α) :=
  (List.range (pivots.length + 1)).map fun k =>
    Frame.ofRecords f.columns (f.records.filter fun r => decide (resampleCode pivots r.1 = k))

/-- modin/core/dataframe/pandas/dataframe/utils.py:665-668: the times written to `attrs` of range `k` -/
def resampleBounds (pivots : List Int) (k : Nat) : List Int :=
  (if k = 0 then [] else (pivots[k - 1]?.map (· + 1)).toList) ++ (pivots[k]?.map (· - 1)).toList

/-- modin/core/storage_formats/pandas/query_compiler.py:1215-1262 `map_func` for a range: rows of missing cells are put at its
    bounds, so that all of its bins appear; a range without rows is handed back as it is. -/
def resampleRangeKernel (R : ResampleRule) (agg : List α → β) (nan : α) (bounds : List Int) (b : Frame Int κ α) : Frame Int κ β :=
  if b.index = [] then b.resample R agg
  else (Frame.ofRecords b.columns (b.records ++ bounds.map fun t => (t, List.replicate b.columns.length nan))).resample R agg

/-- modin/core/dataframe/pandas/partitioning/partition_manager.py:1937-2052 `shuffle_partitions` with `ShuffleResample`: the first and
    last time of all row partitions give the edges; row partitions are split, the pieces of a range are put together. -/
def resampleShuffle [DecidableEq κ] (R : ResampleRule) (agg : List α → β) (nan : α) (ideal : Nat) (g : Grid Int κ α) :
    Option (Grid Int κ β) :=
  (g.mapM Frame.hcat).bind fun bands =>
  (bands.map (·.index)).flatten.min?.bind fun a => (bands.map (·.index)).flatten.max?.bind fun z =>
  ((colBlocks (bands.map (resampleSplit (resamplePivots R ideal a z)))).zipIdx).mapM fun pk =>
    (Frame.vcat pk.1).map fun b => [resampleRangeKernel R agg nan (resampleBounds (resamplePivots R ideal a z) pk.2) b]

/-- modin/core/storage_formats/pandas/query_compiler.py:1280-1286 and modin/core/dataframe/pandas/dataframe/dataframe.py:2564-2740
    `_apply_func_to_range_partitioning`: `resample` with range partitioning.  `over`: the sampling probability is at least 1. -/
def LFrame.resampleRange [DecidableEq κ] (cfg : Cfg) (over : Bool) (R : ResampleRule) (agg : List α → β) (nan : α) (m : LFrame Int κ α) :
    Option (LFrame Int κ β) :=
  m.operation fun m1 =>
  if m1.parts.length = 1 then
    (mapAxisPartitions cfg false (fun b => some (b.resample R agg)) m1.parts true none none).bind fun parts =>
    MFrame.mk' { parts := parts, index := none, columns := none, rowLens := none, colWidths := none }
  else if over && (decide (m1.getIndex.length < cfg.minRow) ||
      decide (idealPartitions cfg over m1.parts.length m1.getIndex.length < 2)) then
    combineAndApply cfg (fun b => some (b.resample R agg)) m1
  else
    (if over then joinRows m1.parts (idealPartitions cfg over m1.parts.length m1.getIndex.length) else some m1.parts).bind fun g =>
    (resampleShuffle R agg nan (idealPartitions cfg over m1.parts.length m1.getIndex.length) g).bind fun parts =>
    MFrame.mk' { parts := parts, index := none, columns := none, rowLens := none, colWidths := none }
