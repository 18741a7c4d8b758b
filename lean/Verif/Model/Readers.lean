import Verif.Pandas.Parquet
import Verif.Model.Labels
import Verif.Model.MapPlans
import Verif.Model.Shuffle
/-
Readers of column stores and of databases.
Models modin/core/io/column_stores/column_store_dispatcher.py (`build_columns`, `build_index`, `call_deploy`,
`build_query_compiler`), modin/core/io/column_stores/parquet_dispatcher.py (`_determine_partitioning`, `call_deploy`,
`build_index`, `_normalize_partitioning`, `build_query_compiler`, `_read`), the parsers of
modin/core/storage_formats/pandas/parsers.py and modin/core/io/sql/sql_dispatcher.py `_read`.
-/

variable {ι κ α : Type}

/-! ### which row groups are read by which partition -/

/-- A file and a range of its row groups (modin/core/storage_formats/pandas/parsers.py:680-697 `ParquetFileToRead`);
    the file is given by its position. -/
structure PqRange where
  file : Nat
  start : Nat
  stop : Nat
deriving DecidableEq, Repr

/-- Where the loop stands: `file_idx`, `row_group_idx`, `row_groups_left_in_current_file`
    (modin/core/io/column_stores/parquet_dispatcher.py:384-386). -/
structure PqState where
  file : Nat
  group : Nat
  left : Nat
deriving DecidableEq, Repr

/-- modin/core/io/column_stores/parquet_dispatcher.py:373-380: how many row groups each partition reads. -/
def pqPartSizes (nPartitions numRowGroups : Nat) : List Nat :=
  let numSplits := min nPartitions numRowGroups
  let partSize := numRowGroups / numSplits
  let reminder := numRowGroups % numSplits
  List.replicate (numSplits - reminder) partSize ++ List.replicate reminder (partSize + 1)

/-- modin/core/io/column_stores/parquet_dispatcher.py:393-397: go to the next file if nothing is left of the current
    one; `none`: there is no next file (`IndexError`). -/
def PqState.advance (counts : List Nat) (st : PqState) : Option PqState :=
  if st.left < 1 then (counts[st.file + 1]?).map fun n => { file := st.file + 1, group := 0, left := n }
  else some st

/-- modin/core/io/column_stores/parquet_dispatcher.py:392-409, the `while` loop: `need` is
    `size - row_groups_taken`.  The first argument bounds the number of rounds (the loop of the code has no such
    bound); `none`: the bound is reached, or a file past the last is asked for. -/
def pqTake (counts : List Nat) : Nat → PqState → Nat → Option (List PqRange × PqState)
  | 0, _, _ => none
  | fuel + 1, st, need =>
    if need = 0 then some ([], st)
    else
      (st.advance counts).bind fun st1 =>
      let toTake := min need st1.left
      (pqTake counts fuel { file := st1.file, group := st1.group + toTake, left := st1.left - toTake }
        (need - toTake)).map fun r =>
      ({ file := st1.file, start := st1.group, stop := st1.group + toTake } :: r.1, r.2)

/-- modin/core/io/column_stores/parquet_dispatcher.py:389-412, the `for` loop over the sizes. -/
def pqTakeAll (counts : List Nat) (fuel : Nat) : PqState → List Nat → Option (List (List PqRange))
  | _, [] => some []
  | st, size :: sizes =>
    (pqTake counts fuel st size).bind fun r =>
    (pqTakeAll counts fuel r.2 sizes).map fun rs => r.1 :: rs

/-- modin/core/io/column_stores/parquet_dispatcher.py:349-422 `_determine_partitioning`.  The final sanity check
    compares sums that agree by construction and is not modelled. -/
def pqPartitioning (nPartitions : Nat) (counts : List Nat) : Option (List (List PqRange)) :=
  if counts.sum = 0 then some []
  else
    pqTakeAll counts (counts.sum + counts.length + 1) { file := 0, group := 0, left := counts[0]?.getD 0 }
      (pqPartSizes nPartitions counts.sum)

/-! ### which columns are read by which partition -/

/-- modin/core/io/column_stores/column_store_dispatcher.py:173-181: the smallest number of columns of a
    partition; `none`: `ZeroDivisionError` -/
def columnBlockSize (cfg : Cfg) (ncols : Nat) (numRowParts : Option Nat) : Option Nat :=
  match numRowParts with
  | none => some 1
  | some k =>
    if k = 0 then none
    else if pyRoundDiv cfg.nPartitions k = 0 then none
    else some (min (ncols / pyRoundDiv cfg.nPartitions k) cfg.minCol)

/-- modin/core/io/column_stores/column_store_dispatcher.py:149-190 `build_columns` -/
def buildColumns (cfg : Cfg) (cols : List κ) (numRowParts : Option Nat) : Option (List (List κ) × List Nat) :=
  if cols.length = 0 then some ([], [])
  else
    (columnBlockSize cfg cols.length numRowParts).bind fun mb =>
    (computeChunksize cols.length cfg.nPartitions (max 1 mb)).map fun c =>
    let parts := (pyRangeStep cols.length c).map fun i => pySlice cols i (i + c)
    (parts, parts.map List.length)

/-! ### read_parquet -/

/-- The rows in a range of row groups of a file
    (`ParquetFile(f).read_row_groups(range(start, stop))`, modin/core/storage_formats/pandas/parsers.py:757-767). -/
def PqDataset.rangeRows (ds : PqDataset ι κ α) (r : PqRange) : List (StoredRow ι κ α) :=
  match ds.files[r.file]? with
  | some groups => (pySlice groups r.start r.stop).flatten
  | none => []

/-- modin/core/storage_formats/pandas/parsers.py:794-822 `PandasParquetParser.parse` with 698-784
    `_read_row_group_chunk` (pyarrow): each range is read by itself, with the labels pyarrow gives it, and the chunks
    are concatenated.  `none`: `pandas.concat` of nothing. -/
def pqParse (num : Int → ι) (ds : PqDataset ι κ α) (filter : Option (StoredRow ι κ α → Bool)) (ranges : List PqRange)
    (cols : List κ) : Option (Frame ι κ α) :=
  if ranges = [] then none
  else
    let chunks := ranges.map fun r => pqFrame num ds.info cols (keptRows filter (ds.rangeRows r))
    some { index := (chunks.map (·.index)).flatten, columns := cols, rows := (chunks.map (·.rows)).flatten }

/-- modin/core/io/column_stores/parquet_dispatcher.py:424-473 `call_deploy` -/
def pqDeploy (num : Int → ι) (ds : PqDataset ι κ α) (filter : Option (StoredRow ι κ α → Bool))
    (parts : List (List PqRange)) (colParts : List (List κ)) : Option (Grid ι κ α) :=
  if colParts = [] then some []
  else parts.mapM fun rs => colParts.mapM fun cs => pqParse num ds filter rs cs

/-- modin/core/io/column_stores/parquet_dispatcher.py:575-603: the range of labels given to `total` rows left by a
    filter (pyarrow: the described range only if its length, computed by true division, is `total`). -/
def pqFilteredRange (num : Int → ι) (info : IndexInfo) (total : Nat) : List ι :=
  match info with
  | .range start stop step =>
    if step ≠ 0 ∧ (total : Int) * step = stop - start then rangeLabels num start step total
    else rangeLabels num 0 1 total
  | _ => rangeLabels num 0 1 total

/-- modin/core/io/column_stores/parquet_dispatcher.py:507-607 `build_index`: the labels of the frame, and whether the
    blocks have to be given them.  The case `filters is None` reads the whole dataset. -/
def pqIndex (num : Int → ι) (ds : PqDataset ι κ α) (filter : Option (StoredRow ι κ α → Bool)) (g : Grid ι κ α) :
    List ι × Bool :=
  let rangeIndex := ds.info != .stored
  let sync := rangeIndex
  if (rangeIndex && filter.isNone) || (g.isEmpty && ds.info == .stored) then (pqLabels num ds.info ds.rows, sync)
  else if g.isEmpty then ([], false)
  else
    let objs := g.filterMap fun row => row.head?.map (·.index)
    if rangeIndex then (pqFilteredRange num ds.info ((objs.map List.length).sum), sync)
    else (objs.flatten, sync)

/-- modin/core/io/column_stores/parquet_dispatcher.py:655-686: one row of blocks cut into `k` rows of blocks. -/
def pqSplitStrip [DecidableEq ι] [DecidableEq κ] (cfg : Cfg) (k : Nat) (len : Nat) (row : List (Frame ι κ α)) :
    Option (Grid ι κ α × List Nat) :=
  if k = 1 then some ([row], [len])
  else
    (row.mapM fun b => deployAxisFunc true some k false [b] cfg.minRow none false).bind fun splits =>
    ((List.range k).mapM fun i => splits.mapM fun s => s[i]?).bind fun g =>
    (getLengthList len k cfg.minRow).map fun lens => (g, lens)

/-- modin/core/io/column_stores/parquet_dispatcher.py:635-689: more row partitions if there are far too few. -/
def pqNormRows [DecidableEq ι] [DecidableEq κ] (cfg : Cfg) (g : Grid ι κ α) (rl : List Nat) :
    Option (Grid ι κ α × List Nat) :=
  let actual := g.length
  let desired := max 1 (min (rl.sum / cfg.minRow) cfg.nPartitions)
  -- `1.5 * actual_row_nparts < desired_row_nparts`
  if 3 * actual < 2 * desired then
    ((rl.zip g).mapIdx fun i e =>
      pqSplitStrip cfg (desired / actual + if i < desired % actual then 1 else 0) e.1 e.2).mapM id |>.map fun l =>
    ((l.map (·.1)).flatten, (l.map (·.2)).flatten)
  else some (g, rl)

/-- modin/core/io/column_stores/parquet_dispatcher.py:691-714: fewer column partitions if there are far too many. -/
def pqNormCols [DecidableEq ι] [DecidableEq κ] (cfg : Cfg) (g : Grid ι κ α) (cw : List Nat) :
    Option (Grid ι κ α × List Nat) :=
  let desired := max 1 (min (cw.sum / cfg.minCol) cfg.nPartitions)
  if 3 * desired < 2 * gridWidth g then
    (g.mapM fun row => deployAxisFunc false some desired false row cfg.minCol none false).bind fun g' =>
    (getLengthList cw.sum desired cfg.minCol).map fun cw' => (g', cw')
  else some (g, cw)

/-- modin/core/io/column_stores/parquet_dispatcher.py:609-716 `_normalize_partitioning`, with the row lengths of
    `build_query_compiler` (lines 757-761): the lengths of the blocks of the first column. -/
def pqNormalize [DecidableEq ι] [DecidableEq κ] (cfg : Cfg) (g : Grid ι κ α) (cw : List Nat) :
    Option (Grid ι κ α × Option (List Nat) × List Nat) :=
  if g.isEmpty then some (g, none, cw)
  else
    (pqNormRows cfg g (g.filterMap fun row => row.head?.map (·.nrows))).bind fun r =>
    (pqNormCols cfg r.1 cw).map fun c => (c.1, some r.2, c.2)

/-- modin/core/io/column_stores/parquet_dispatcher.py:899-906: the columns that are read; an empty request counts as
    none. -/
def pqColumns (ds : PqDataset ι κ α) (requested : Option (List κ)) : List κ :=
  let names := match requested with
    | some (c :: cs) => c :: cs
    | _ => ds.names
  names.filter fun c => !ds.isIndex c

/-- modin/core/io/column_stores/parquet_dispatcher.py:718-786 `build_query_compiler` and 788-910 `_read` for one path
    without directory-level partitioning (pyarrow engine).  Integer column names and dtypes are not modelled. -/
def readParquet [DecidableEq ι] [DecidableEq κ] (cfg : Cfg) (num : Int → ι) (ds : PqDataset ι κ α)
    (requested : Option (List κ)) (filter : Option (StoredRow ι κ α → Bool)) : Option (LFrame ι κ α) :=
  let cols := pqColumns ds requested
  (pqPartitioning cfg.nPartitions (ds.files.map List.length)).bind fun parts =>
  (buildColumns cfg cols (some parts.length)).bind fun cp =>
  (pqDeploy num ds filter parts cp.1).bind fun g =>
  let index := pqIndex num ds filter g
  (pqNormalize cfg g cp.2).bind fun n =>
  (MFrame.mk' { parts := n.1, index := some index.1, columns := some cols, rowLens := n.2.1,
                colWidths := some n.2.2 }).map fun m =>
  { m with defIndex := index.2, defColumns := false }

/-! ### read_feather -/

/-- modin/core/io/column_stores/column_store_dispatcher.py:132-146: the recorded row lengths -/
def columnStoreRowLens (cfg : Cfg) (n : Nat) : Option (List Nat) :=
  (computeChunksize n cfg.nPartitions cfg.minRow).map fun c =>
    if n < c then n :: List.replicate (cfg.nPartitions - 1) 0
    else (List.range cfg.nPartitions).map fun i => if (i + 1) * c < n then c else n - c * i

/-- modin/core/io/column_stores/column_store_dispatcher.py:38-71 `call_deploy` with
    modin/core/storage_formats/pandas/parsers.py:851-874: each group of columns is read whole and cut into
    `NPartitions` row pieces; the result, one list per group of columns, is transposed. -/
def featherDeploy (num : Int → ι) (cfg : Cfg) (rows : List (StoredRow ι κ α)) (colParts : List (List κ)) :
    Option (Grid ι κ α) :=
  (colParts.mapM fun cs => splitResult true cfg.nPartitions (pqFrame num .unknown cs rows) cfg.minRow none).bind
    fun splits => (List.range cfg.nPartitions).mapM fun i => splits.mapM fun s => s[i]?

/-- modin/core/io/column_stores/column_store_dispatcher.py:213-251 `build_query_compiler` for a file with at least one
    column (a feather file has the row labels 0, 1, 2, ...). -/
def readFeather (cfg : Cfg) (num : Int → ι) (cols : List κ) (rows : List (StoredRow ι κ α)) : Option (MFrame ι κ α) :=
  (buildColumns cfg cols none).bind fun cp =>
  (featherDeploy num cfg rows cp.1).bind fun g =>
  (columnStoreRowLens cfg rows.length).bind fun rl =>
  MFrame.mk' { parts := g, index := some (rangeLabels num 0 1 rows.length), columns := some cols, rowLens := some rl,
               colWidths := some cp.2 }

/-! ### read_sql -/

/-- `math.ceil(row_cnt / num_partitions)` (modin/core/io/sql/sql_dispatcher.py:103) -/
def sqlLimit (rowCnt n : Nat) : Nat := (rowCnt + n - 1) / n

/-- modin/core/io/sql/sql_dispatcher.py:88-128 `_read` with modin/db_conn.py:156-181 `partition_query` and
    modin/core/storage_formats/pandas/parsers.py:891-920: one query per row partition, each result cut into
    `NPartitions` column pieces. -/
def readSql (cfg : Cfg) (num : Int → ι) (indexCol : Bool) (cols : List κ) (rows : List (StoredRow ι κ α)) :
    Option (LFrame ι κ α) :=
  let limit := sqlLimit rows.length cfg.nPartitions
  let results := (List.range cfg.nPartitions).map fun part => pandasReadSql num indexCol cols (limitOffset rows limit (part * limit))
  (results.mapM fun df => splitResult false cfg.nPartitions df cfg.minCol none).bind fun g =>
  let index := if indexCol then (results.map (·.index)).flatten
    else rangeLabels num 0 1 ((results.map (·.nrows)).sum)
  (MFrame.mk' { parts := g, index := some index, columns := some cols, rowLens := none, colWidths := none }).map
    fun m => { m with defIndex := true, defColumns := false }
