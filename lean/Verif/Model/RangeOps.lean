import Verif.Model.Shuffle
import Verif.Model.Reduce
import Verif.Pandas.KeyParts
/-
Operations done range by range when `RangePartitioning` is on.
Models modin/core/storage_formats/pandas/query_compiler.py (`nunique`, `unique`) and
modin/core/dataframe/pandas/dataframe/dataframe.py (`groupby`).
-/

variable {ι κ α β Q K : Type}

/-- the defaults of `_apply_func_to_range_partitioning` and its shuffling functions:
    modin/core/dataframe/pandas/dataframe/dataframe.py:2565-2576 (`ascending=True`),
    modin/core/dataframe/pandas/dataframe/utils.py:113-162 (`closed_on_right=False`) and 335-345
    (`na_position` "last") -/
def rangeReq (le : Q → Q → Bool) (cols : List (KeyCol α Q × (Nat → List (Option Q)))) : RangeReq α Q :=
  { le := le, asc := true, naLast := true, closedRight := false, cols := cols }

/-- the cells of the key columns -/
def keyCells (cols : List (KeyCol α Q × (Nat → List (Option Q)))) (r : ι × List α) : List (Option α) :=
  cols.map fun x => r.2[x.1.pos]?

/-- modin/core/storage_formats/pandas/query_compiler.py:2231-2267 `unique` with range partitioning and
    `ignore_index=False`: duplicates are dropped in every range. -/
def dropDuplicatesRange [DecidableEq ι] [DecidableEq κ] [DecidableEq α] (cfg : Cfg) (over : Bool) (le : Q → Q → Bool)
    (cols : List (KeyCol α Q × (Nat → List (Option Q)))) (keep : Keep) (m : MFrame ι κ α) : Option (MFrame ι κ α) :=
  applyRangePartitioning cfg over (rangeReq le cols)
    (fun b => some (Frame.ofRecords b.columns (dropDuplicates keep (keyCells cols) b.records))) (some id) m

/-- modin/core/storage_formats/pandas/query_compiler.py:1109-1141 `nunique` of a single-column frame: the number of
    distinct values of every range, then the sum. -/
def nuniqueRange [DecidableEq ι] [DecidableEq κ] [DecidableEq α] (cfg : Cfg) (over : Bool) (le : Q → Q → Bool)
    (col : KeyCol α Q) (draw : Nat → List (Option Q)) (dropna : Bool) (m : MFrame ι κ α) : Option (MFrame String Nat Nat) :=
  (applyRangePartitioning cfg over (rangeReq le [(col, draw)])
    (fun b => some { index := b.columns, columns := [0], rows := b.cols.map fun c => [Pandas.nunique col.isna dropna c] })
    none m).bind (fullReduce0 cfg List.sum)

/-- modin/core/dataframe/pandas/dataframe/dataframe.py:4163-4528 `groupby` by columns of the frame itself, with an
    operator giving one row per group; the ranges' results are put one under another.
    Not modelled: alignment of result columns, missing categories, external keys, index levels. -/
def groupbyRange [DecidableEq ι] [DecidableEq κ] [DecidableEq K] (cfg : Cfg) (over : Bool) (le : Q → Q → Bool)
    (cols : List (KeyCol α Q × (Nat → List (Option Q)))) (G : Grouping K) (key : ι × List α → K)
    (agg : K → List (ι × List α) → List β) (resCols : List κ) (m : MFrame ι κ α) : Option (MFrame K κ β) :=
  applyRangePartitioning cfg over (rangeReq le cols)
    (fun b => some (Frame.ofRecords resCols (groupRecords G key agg b.records))) none m
