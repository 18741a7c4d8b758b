import Verif.Model.Chunking
/-
The partitioned frame: construction from pandas and conversion back.
Models modin/core/dataframe/pandas/partitioning/partition_manager.py
(`split_pandas_df_into_partitions`, `from_pandas`, `get_indices`, `to_pandas`),
modin/core/dataframe/pandas/utils.py (`create_pandas_df_from_partitions`) and
modin/core/dataframe/pandas/dataframe/dataframe.py (`__init__`, `_filter_empties`,
`from_pandas`, `to_pandas`).
-/

variable {ι κ α : Type}

/-- A partition grid: rows of blocks
    (modin/core/dataframe/pandas/dataframe/dataframe.py:170 `self._partitions`, a 2D array). -/
abbrev Grid (ι κ α : Type) := List (List (Frame ι κ α))

/-- The state of `PandasDataframe` that matters for content:
    modin/core/dataframe/pandas/dataframe/dataframe.py:161-189 `__init__`.
    `none` in a cache is "not materialised".  dtypes and the pandas backend are not modelled
    here (dtypes: see `Verif/Model/Dtypes.lean`). -/
structure MFrame (ι κ α : Type) where
  parts : Grid ι κ α
  index : Option (List ι)
  columns : Option (List κ)
  rowLens : Option (List Nat)
  colWidths : Option (List Nat)
deriving DecidableEq, Repr

/-- modin/core/dataframe/pandas/dataframe/dataframe.py:191-228 `_validate_axes_lengths`, one
    axis: `true` when no bug is reported.  Negative lengths cannot occur in `Nat`. -/
def validAxis {τ : Type} (lens : Option (List Nat)) (labels : Option (List τ)) : Bool :=
  match lens, labels with
  | some l, some lab =>
    if lab.length > 0 then (if l.sum > 0 then l.sum == lab.length else true) else true
  | _, _ => true

/-- Keep the entries of `xs` whose position has a non-zero recorded length; positions past the
    end of `lens` are dropped (`if j < len(widths) and widths[j] != 0`,
    modin/core/dataframe/pandas/dataframe/dataframe.py:895-903). -/
def keepNonzero {τ : Type} : List τ → List Nat → List τ
  | x :: xs, l :: ls => if l ≠ 0 then x :: keepNonzero xs ls else keepNonzero xs ls
  | _, _ => []

/-- modin/core/dataframe/pandas/dataframe/dataframe.py:865-914
    `_filter_empties(compute_metadata=False)`. -/
def filterEmpties (m : MFrame ι κ α) : MFrame ι κ α :=
  match m.rowLens, m.colWidths with
  | some rl, some cw =>
    if m.index.any (·.length == 0) || m.columns.any (·.length == 0)
        || rl.sum == 0 || cw.sum == 0 then m
    else
      { m with
        parts := (keepNonzero m.parts rl).map (fun row => keepNonzero row cw)
        rowLens := some (rl.filter (· ≠ 0))
        colWidths := some (cw.filter (· ≠ 0)) }
  | _, _ => m

/-- modin/core/dataframe/pandas/dataframe/dataframe.py:161-189 `__init__`:
    validate (a detected bug raises: `none`), then filter empty partitions. -/
def MFrame.mk' (m : MFrame ι κ α) : Option (MFrame ι κ α) :=
  if validAxis m.rowLens m.index && validAxis m.colWidths m.columns then some (filterEmpties m)
  else none

/-- Configuration read by `from_pandas`: NPartitions, MinRowPartitionSize,
    MinColumnPartitionSize
    (modin/core/dataframe/pandas/partitioning/partition_manager.py:1087-1089). -/
structure Cfg where
  nPartitions : Nat
  minRow : Nat
  minCol : Nat
deriving DecidableEq, Repr

/-- modin/core/dataframe/pandas/partitioning/partition_manager.py:1029-1067
    `split_pandas_df_into_partitions`.  The progress bar is not modelled. -/
def splitPandas (df : Frame ι κ α) (rowChunk colChunk : Nat) : Grid ι κ α :=
  let colParts :=
    if colChunk ≥ df.ncols then [df]
    else (pyRangeStep df.ncols colChunk).map fun i => df.ilocCols i (i + colChunk)
  (pyRangeStep df.nrows rowChunk).map fun i =>
    colParts.map fun cp => cp.ilocRows i (i + rowChunk)

/-- modin/core/dataframe/pandas/partitioning/partition_manager.py:1069-1150 `from_pandas` with
    `return_dims=True` (partitions, row lengths, column widths). -/
def pmFromPandas (cfg : Cfg) (df : Frame ι κ α) :
    Option (Grid ι κ α × List Nat × List Nat) := do
  let rowChunk ← computeChunksize df.nrows cfg.nPartitions cfg.minRow
  let colChunk ← computeChunksize df.ncols cfg.nPartitions cfg.minCol
  return (splitPandas df rowChunk colChunk,
          fromPandasLengths df.nrows rowChunk,
          fromPandasLengths df.ncols colChunk)

/-- modin/core/dataframe/pandas/dataframe/dataframe.py:4591-4620 `PandasDataframe.from_pandas`. -/
def fromPandas (cfg : Cfg) (df : Frame ι κ α) : Option (MFrame ι κ α) := do
  let (parts, rl, cw) ← pmFromPandas cfg df
  MFrame.mk' { parts := parts, index := some df.index, columns := some df.columns,
               rowLens := some rl, colWidths := some cw }

/-- modin/core/dataframe/pandas/utils.py:74-146 `create_pandas_df_from_partitions` for blocks
    that are DataFrames (Series blocks are not modelled), without `new_index`/`new_columns`:
    rows of the grid consisting only of blocks with no columns are left out, the others are
    concatenated horizontally and then vertically (`concatenate`, lines 23-71, asserts equal
    columns).  With nothing left the result is `pandas.DataFrame()`. -/
def assemble [DecidableEq ι] [DecidableEq κ] (g : Grid ι κ α) : Option (Frame ι κ α) := do
  let rows ← (g.filter fun row => !(row.all fun b => b.isEmpty && b.columns.length == 0)).mapM
    Frame.hcat
  if rows.isEmpty then return { index := [], columns := [], rows := [] }
  else Frame.vcat rows

/-- modin/core/dataframe/pandas/partitioning/partition_manager.py:1219-1267 `get_indices` for
    axis 0: labels of the blocks in the first block column (an empty grid has none).
    `filter(len, ...)` then `append` is concatenation. -/
def gridIndex (g : Grid ι κ α) : List ι :=
  (g.filterMap fun row => row.head?.map (·.index)).flatten

/-- `get_indices` for axis 1: labels of the blocks in the first row of the grid. -/
def gridColumns (g : Grid ι κ α) : List κ :=
  match g with
  | [] => []
  | row :: _ => (row.map (·.columns)).flatten

/-- modin/core/dataframe/pandas/dataframe/dataframe.py:726-742 `_get_index` (the value). -/
def MFrame.getIndex (m : MFrame ι κ α) : List ι :=
  match m.index with
  | some i => i
  | none => gridIndex m.parts

/-- modin/core/dataframe/pandas/dataframe/dataframe.py:744-760 `_get_columns` (the value). -/
def MFrame.getColumns (m : MFrame ι κ α) : List κ :=
  match m.columns with
  | some c => c
  | none => gridColumns m.parts

/-- modin/core/dataframe/pandas/dataframe/dataframe.py:4691-4722 `to_pandas`.
    `nan` is the missing value with which `pandas.DataFrame(columns=..., index=...)` fills the
    cells.  Deferred label propagation is done before (see `Verif/Model/Labels.lean`).
    A mismatch of internal and external labels is reported as a bug (`none`). -/
def MFrame.toPandas [DecidableEq ι] [DecidableEq κ] (nan : α) (m : MFrame ι κ α) :
    Option (Frame ι κ α) := do
  let df ← assemble m.parts
  if df.isEmpty then
    return { index := m.getIndex, columns := m.getColumns,
             rows := List.replicate m.getIndex.length (List.replicate m.getColumns.length nan) }
  else
    if m.index.all (· == df.index) && m.columns.all (· == df.columns) then
      return { df with index := m.index.getD df.index, columns := m.columns.getD df.columns }
    else none
