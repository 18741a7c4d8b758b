import Verif.Pandas.Reduce
import Verif.Model.Select
import Verif.Model.MapPlans
/-
Reductions along an axis.
Models modin/core/dataframe/pandas/dataframe/dataframe.py (`_build_treereduce_func`, `reduce`,
`tree_reduce`, `_compute_tree_reduce_metadata`), modin/core/dataframe/algebra/tree_reduce.py and the
reductions registered in modin/core/storage_formats/pandas/query_compiler.py.
dtypes: see Verif/Model/Dtypes.lean.  Numbers are exact integers with missing values; floats,
strings, dates and `numeric_only` are not modelled.
-/

variable {ι κ α ι' κ' β γ : Type}

/-- `MODIN_UNNAMED_SERIES_LABEL`, modin/utils.py -/
def unnamed : String := "__reduced__"

/-- modin/core/dataframe/pandas/dataframe/dataframe.py:2103-2121 `_tree_reduce_func`, axis 0, for a
    `func` giving one value per column (`DataFrame(series).T` with the reserved label). -/
def reduceBlock0 (h : List α → β) (b : Frame ι κ α) : Frame String κ β :=
  b.mapColumns (fun _ => [unnamed]) (fun c => [h c])

/-- The same for axis 1. -/
def reduceBlock1 (h : List α → β) (b : Frame ι κ α) : Frame ι String β :=
  b.mapRows (fun _ => [unnamed]) (fun r => [h r])

/-- modin/core/dataframe/pandas/dataframe/dataframe.py:2125-2169 `_compute_tree_reduce_metadata`,
    axis 0: one row, the frame's own columns and column widths. -/
def reduceMeta0 (m : MFrame ι κ α) (parts : Grid String κ β) : Option (MFrame String κ β) :=
  MFrame.mk' { parts := parts, index := some [unnamed], columns := some m.getColumns,
               rowLens := some [1], colWidths := some m.getColWidths }

/-- The same for axis 1. -/
def reduceMeta1 (m : MFrame ι κ α) (parts : Grid ι String β) : Option (MFrame ι String β) :=
  MFrame.mk' { parts := parts, index := some m.getIndex, columns := some [unnamed],
               rowLens := some m.getRowLens, colWidths := some [1] }

/-- modin/core/dataframe/pandas/dataframe/dataframe.py:2208-2250 `tree_reduce`, axis 0, with
    `DynamicPartitioning` off (so `map_partitions` is `base_map_partitions`). -/
def treeReduce0 [DecidableEq ι'] [DecidableEq κ] (cfg : Cfg) (mapF : Frame ι κ α → Option (Frame ι' κ β))
    (redF : Frame ι' κ β → Option (Frame String κ γ)) (m : MFrame ι κ α) : Option (MFrame String κ γ) :=
  (baseMapPartitions mapF m.parts).bind fun g =>
  (mapAxisPartitions cfg true redF g false none none).bind (reduceMeta0 m)

/-- The same for axis 1. -/
def treeReduce1 [DecidableEq ι] [DecidableEq κ'] (cfg : Cfg) (mapF : Frame ι κ α → Option (Frame ι κ' β))
    (redF : Frame ι κ' β → Option (Frame ι String γ)) (m : MFrame ι κ α) : Option (MFrame ι String γ) :=
  (baseMapPartitions mapF m.parts).bind fun g =>
  (mapAxisPartitions cfg false redF g false none none).bind (reduceMeta1 m)

/-- modin/core/dataframe/pandas/dataframe/dataframe.py:2170-2205 `reduce`, axis 0. -/
def fullReduce0 [DecidableEq ι] [DecidableEq κ] (cfg : Cfg) (h : List α → β) (m : MFrame ι κ α) :
    Option (MFrame String κ β) :=
  (mapAxisPartitions cfg true (fun b => some (reduceBlock0 h b)) m.parts false none none).bind (reduceMeta0 m)

/-- The same for axis 1. -/
def fullReduce1 [DecidableEq ι] [DecidableEq κ] (cfg : Cfg) (h : List α → β) (m : MFrame ι κ α) :
    Option (MFrame ι String β) :=
  (mapAxisPartitions cfg false (fun b => some (reduceBlock1 h b)) m.parts false none none).bind (reduceMeta1 m)

/-- `TreeReduce.register(map_function, reduce_function)` for functions giving one value per column
    (row), modin/core/dataframe/algebra/tree_reduce.py:32-82.  Both get the same keyword arguments. -/
def treeReduceOp [DecidableEq ι] [DecidableEq κ] (cfg : Cfg) (h : List α → β) (r : List β → γ)
    (m : MFrame ι κ α) : Option (MFrame String κ γ) :=
  treeReduce0 cfg (fun b => some (reduceBlock0 h b)) (fun b => some (reduceBlock0 r b)) m

/-- The same for `axis=1`. -/
def treeReduceOp1 [DecidableEq ι] [DecidableEq κ] (cfg : Cfg) (h : List α → β) (r : List β → γ)
    (m : MFrame ι κ α) : Option (MFrame ι String γ) :=
  treeReduce1 cfg (fun b => some (reduceBlock1 h b)) (fun b => some (reduceBlock1 r b)) m

/-! ### the registered reductions: modin/core/storage_formats/pandas/query_compiler.py:976-1094.
    Each is given as (map function, reduce function) on one column; pandas' own reductions of a
    block are `Pandas.sum` etc. -/

/-- A reduction: what is done to a column of a block, and to the column of block results. -/
structure TreeOp (α β γ : Type) where
  map : List α → β
  reduce : List β → γ

/-- Line 984: `sum`; modin/pandas/dataframe.py:2229-2247 sends only `min_count <= 1` here. -/
def sumOp (skipna : Bool) (minCount : Nat) : TreeOp (Option Int) (Option Int) (Option Int) :=
  ⟨Pandas.sum skipna minCount, Pandas.sum skipna minCount⟩
/-- Line 985: `prod` -/
def prodOp (skipna : Bool) (minCount : Nat) : TreeOp (Option Int) (Option Int) (Option Int) :=
  ⟨Pandas.prod skipna minCount, Pandas.prod skipna minCount⟩
/-- Line 976: `count`, combined with `DataFrame.sum` -/
def countOp : TreeOp (Option Int) (Option Int) (Option Int) :=
  ⟨fun c => some (Pandas.count c), Pandas.sum true 0⟩
/-- Line 986: `any` -/
def anyOp (skipna : Bool) : TreeOp (Option Int) (Option Int) Bool :=
  ⟨fun c => some (if Pandas.any skipna c then 1 else 0), Pandas.any skipna⟩
/-- Line 987: `all` -/
def allOp (skipna : Bool) : TreeOp (Option Int) (Option Int) Bool :=
  ⟨fun c => some (if Pandas.all skipna c then 1 else 0), Pandas.all skipna⟩
/-- Lines 1013-1023: `max` -/
def maxOp (skipna : Bool) : TreeOp (Option Int) (Option Int) (Option Int) :=
  ⟨Pandas.max skipna, Pandas.max skipna⟩
/-- Lines 1025-1035: `min` -/
def minOp (skipna : Bool) : TreeOp (Option Int) (Option Int) (Option Int) :=
  ⟨Pandas.min skipna, Pandas.min skipna⟩

/-- modin/pandas/dataframe.py:2202-2217: the shortcut of `sum` and `prod` for a `min_count` larger than
    the axis, a series of missing values. -/
def nanFrame (m : MFrame ι κ (Option Int)) : Option (MFrame String κ (Option Int)) :=
  MFrame.mk' { parts := [[{ index := [unnamed], columns := m.getColumns,
                            rows := [m.getColumns.map fun _ => none] }]],
               index := some [unnamed], columns := some m.getColumns,
               rowLens := some [1], colWidths := some [m.getColumns.length] }

/-- modin/pandas/dataframe.py:2188-2247 `sum`, axis 0, `numeric_only=False`: the shortcut, the full-axis
    `sum_min_count` for `min_count > 1`, else block sums.  The check for dates is not modelled. -/
def frameSum [DecidableEq ι] [DecidableEq κ] (cfg : Cfg) (skipna : Bool) (minCount : Nat)
    (m : MFrame ι κ (Option Int)) : Option (MFrame String κ (Option Int)) :=
  if skipna && decide (minCount > m.getIndex.length) then nanFrame m
  else if minCount > 1 then fullReduce0 cfg (Pandas.sum skipna minCount) m
  else treeReduceOp cfg (sumOp skipna minCount).map (sumOp skipna minCount).reduce m

/-- modin/pandas/dataframe.py:1641-1691 `prod`, axis 0, `numeric_only=False`. -/
def frameProd [DecidableEq ι] [DecidableEq κ] (cfg : Cfg) (skipna : Bool) (minCount : Nat)
    (m : MFrame ι κ (Option Int)) : Option (MFrame String κ (Option Int)) :=
  if skipna && decide (minCount > m.getIndex.length) then nanFrame m
  else if minCount > 1 then fullReduce0 cfg (Pandas.prod skipna minCount) m
  else treeReduceOp cfg (prodOp skipna minCount).map (prodOp skipna minCount).reduce m

/-! ### mean: modin/core/storage_formats/pandas/query_compiler.py:1037-1094 -/

/-- a partial result of `mean` is either the sum or the number of values of a block -/
inductive MeanLabel | sum | count
deriving DecidableEq, Repr

/-- Lines 1044-1057 `map_fn`: sum and number of elements of a block.  `count` skips missing values
    whatever `skipna` says. -/
def meanMapCells (skipna : Bool) (c : List (Option Int)) : List (Option Int) :=
  [Pandas.sum skipna 0 c, some (Pandas.count c)]

def meanMap0 (skipna : Bool) (b : Frame ι κ (Option Int)) : Frame MeanLabel κ (Option Int) :=
  b.mapColumns (fun _ => [.sum, .count]) (meanMapCells skipna)

def meanMap1 (skipna : Bool) (b : Frame ι κ (Option Int)) : Frame ι MeanLabel (Option Int) :=
  b.mapRows (fun _ => [.sum, .count]) (meanMapCells skipna)

/-- Lines 1059-1075 `reduce_fn`, for one column: `sum / count` with `skipna=False` for combining.
    Dividing by zero or by a missing value gives a missing value. -/
def meanReduceCells (labels : List MeanLabel) (c : List (Option Int)) : Option Rat :=
  match Pandas.sum false 0 (cellsAt .sum labels c), Pandas.sum false 0 (cellsAt .count labels c) with
  | some s, some n => if n = 0 then none else some ((s : Rat) / (n : Rat))
  | _, _ => none

/-- `reduce_fn` on a column of blocks: the labels are the frame's index. -/
def meanReduce0 (f : Frame MeanLabel κ (Option Int)) : Frame String κ (Option Rat) :=
  f.mapColumns (fun _ => [unnamed]) (fun c => [meanReduceCells f.index c])

/-- `reduce_fn` on a row of blocks: the labels are the frame's columns. -/
def meanReduce1 (f : Frame ι MeanLabel (Option Int)) : Frame ι String (Option Rat) :=
  f.mapRows (fun _ => [unnamed]) (fun c => [meanReduceCells f.columns c])

def frameMean0 [DecidableEq κ] (cfg : Cfg) (skipna : Bool) (m : MFrame ι κ (Option Int)) :
    Option (MFrame String κ (Option Rat)) :=
  treeReduce0 cfg (fun b => some (meanMap0 skipna b)) (fun b => some (meanReduce0 b)) m

def frameMean1 [DecidableEq ι] (cfg : Cfg) (skipna : Bool) (m : MFrame ι κ (Option Int)) :
    Option (MFrame ι String (Option Rat)) :=
  treeReduce1 cfg (fun b => some (meanMap1 skipna b)) (fun b => some (meanReduce1 b)) m
