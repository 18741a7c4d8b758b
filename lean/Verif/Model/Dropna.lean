import Verif.Model.FullAxis
import Verif.Model.Labels
import Verif.Model.Concat
import Verif.Pandas.Dropna
/-
Dropping rows and columns with missing values.
Models modin/pandas/base.py (`dropna`), modin/core/storage_formats/pandas/query_compiler.py (`dropna`),
modin/core/dataframe/pandas/dataframe/dataframe.py (`filter`, `broadcast_apply` with `copartition=False, labels="drop"`) and
modin/core/dataframe/pandas/partitioning/partition_manager.py (`base_broadcast_apply`, `broadcast_apply`).
What is done to one partition by pandas' own `dropna` is `Frame.dropnaRows`, `Frame.dropnaCols` of Verif/Pandas/Dropna.lean.
`inplace` only decides which object receives the result.  dtypes: see Verif/Model/Dtypes.lean.
-/

variable {ι κ α : Type}

/-- modin/core/storage_formats/pandas/query_compiler.py:3264 `condition`, on one column -/
def condition (how : NaHow) (cells : List Bool) : Bool :=
  match how with
  | .any => cells.any id
  | .all => cells.all id

/-- modin/core/storage_formats/pandas/query_compiler.py:3269-3271 `df.loc[df.index.intersection(subset)]`; pandas orders these
    rows by label, which does not matter to `any` and `all`. -/
def subsetRows [DecidableEq ι] (subset : Option (List ι)) (b : Frame ι κ α) : List (List α) :=
  match subset with
  | none => b.rows
  | some l => ((b.index.zip b.rows).filter fun p => l.contains p.1).map (·.2)

/-- modin/core/storage_formats/pandas/query_compiler.py:3266-3282 `mapper`: one row with a flag for every column.
    (`mask.update(subset_mask)` overwrites all entries: the column labels are the same.) -/
def dropnaMapper [DecidableEq ι] (isna : α → Bool) (how : NaHow) (subset : Option (List ι)) (b : Frame ι κ α) : Frame Nat κ Bool :=
  { index := [0]
    columns := b.columns
    rows := [(List.range b.columns.length).map fun j => condition how ((columnCells (subsetRows subset b) j).map isna)] }

/-- modin/core/storage_formats/pandas/query_compiler.py:3288-3306 `reduce`: `df[to_take]` selects by label, every column of
    that label for every mention of it. -/
def dropnaReduce [DecidableEq κ] (how : NaHow) (b : Frame ι κ α) (mask : Frame Nat κ Bool) : Frame ι κ α :=
  let toTakeMask := (List.range mask.columns.length).map fun j => !condition how (columnCells mask.rows j)
  let toTake := (keepWhere toTakeMask mask.columns).filter fun c => b.columns.contains c
  b.takeCols (toTake.flatMap fun c => (List.range b.columns.length).filter fun p => b.columns[p]? == some c)

/-- modin/core/dataframe/pandas/partitioning/partition_manager.py:443-494 `base_broadcast_apply(axis=1)`: every block with the
    block column of the same number of the other frame. -/
def broadcastApply1 {ι' β : Type} [DecidableEq κ] (F : Frame ι κ α → Frame ι' κ β → Frame ι κ α) (left : Grid ι κ α)
    (right : Grid ι' κ β) : Option (Grid ι κ α) :=
  left.mapM fun row => row.zipIdx.mapM fun (e : Frame ι κ α × Nat) =>
    ((colBlocks right)[e.2]?).bind fun others => (Frame.vcat others).map fun other => F e.1 other

/-- modin/core/dataframe/pandas/partitioning/partition_manager.py:693-703 `broadcast_apply(axis=1)` with
    `DynamicPartitioning`: whole block columns; modin/core/dataframe/pandas/partitioning/axis_partition.py:502-592
    `deploy_func_between_two_axis_partitions`, which splits the result anew whatever `keep_partitioning` says. -/
def broadcastApply1Dynamic {ι' β : Type} [DecidableEq ι] [DecidableEq κ] (cfg : Cfg) (F : Frame ι κ α → Frame ι' κ β → Frame ι κ α)
    (left : Grid ι κ α) (right : Grid ι' κ β) : Option (Grid ι κ α) :=
  ((colBlocks left).zipIdx.mapM fun (e : List (Frame ι κ α) × Nat) =>
    ((colBlocks right)[e.2]?).bind fun others => (Frame.vcat others).bind fun other =>
      deployAxisFunc true (fun b => some (F b other)) left.length false e.1 cfg.minRow none false).map fun bs => colBlocks bs

/-- modin/core/storage_formats/pandas/query_compiler.py:3284-3319 with
    modin/core/dataframe/pandas/dataframe/dataframe.py:3233-3335 `broadcast_apply(axis=1, copartition=False, labels="drop")`:
    the row labels and the recorded row lengths are kept. -/
def MFrame.dropnaMapReduce [DecidableEq ι] [DecidableEq κ] (cfg : Cfg) (dyn : Bool) (isna : α → Bool) (how : NaHow)
    (subset : Option (List ι)) (m : MFrame ι κ α) : Option (MFrame ι κ α) :=
  (applyFullRows cfg (fun _ b => some (dropnaMapper isna how subset b)) true none none m).bind fun masks =>
  (if dyn then broadcastApply1Dynamic cfg (dropnaReduce how) m.parts masks.parts
    else broadcastApply1 (dropnaReduce how) m.parts masks.parts).bind fun g =>
  MFrame.mk' { parts := g, index := m.index, columns := none, rowLens := m.rowLens, colWidths := none }

/-- modin/core/dataframe/pandas/dataframe/dataframe.py:2815-2857 `filter`.  `axis0 = true`: `func` sees whole block columns
    and may drop columns; otherwise it sees whole block rows and may drop rows. -/
def MFrame.filterAxis [DecidableEq ι] [DecidableEq κ] (cfg : Cfg) (axis0 : Bool) (func : Frame ι κ α → Option (Frame ι κ α))
    (m : MFrame ι κ α) : Option (MFrame ι κ α) :=
  (mapAxisPartitions cfg axis0 func m.parts true none none).bind fun g =>
  MFrame.mk' { parts := g
               index := if axis0 then m.index else none
               columns := if axis0 then none else m.columns
               rowLens := if axis0 then m.rowLens else none
               colWidths := if axis0 then none else m.colWidths }

/-- modin/core/dataframe/pandas/dataframe/dataframe.py:230-239 `num_parts` -/
def numParts (g : Grid ι κ α) : Nat := g.length * gridWidth g

/-- modin/core/storage_formats/pandas/query_compiler.py:3249-3324 `dropna` with `axis=1`.  `cpu` is `CpuCount`. -/
def LFrame.dropnaColsCompiled [DecidableEq ι] [DecidableEq κ] (cfg : Cfg) (dyn : Bool) (cpu : Nat) (isna : α → Bool)
    (rule : NaRule) (subset : Option (List ι)) (m : LFrame ι κ α) : Option (LFrame ι κ α) :=
  match rule with
  | .how h =>
    if numParts m.parts < cpu * 32 then m.operation fun m1 => m1.dropnaMapReduce cfg dyn isna h subset
    else m.operation fun m1 => m1.filterAxis cfg true (Frame.dropnaCols isna rule subset)
  | .thresh _ => m.operation fun m1 => m1.filterAxis cfg true (Frame.dropnaCols isna rule subset)

/-- modin/core/storage_formats/pandas/query_compiler.py:3318-3324 `dropna` with `axis=0` -/
def LFrame.dropnaRowsCompiled [DecidableEq ι] [DecidableEq κ] (cfg : Cfg) (isna : α → Bool) (rule : NaRule)
    (subset : Option (List κ)) (m : LFrame ι κ α) : Option (LFrame ι κ α) :=
  m.operation fun m1 => m1.filterAxis cfg false (Frame.dropnaRows isna rule subset)

/-- modin/pandas/base.py:1560-1563 -/
def LFrame.ignoreIndex (num : Nat → ι) (ignore : Bool) (m : LFrame ι κ α) : Option (LFrame ι κ α) :=
  if ignore then m.setIndex ((List.range m.getIndex.length).map num) else some m

/-- modin/pandas/base.py:1546-1556: `KeyError` for a label that is not there -/
def checkSubset {τ : Type} [DecidableEq τ] (labels : List τ) (subset : Option (List τ)) : Bool :=
  match subset with
  | none => true
  | some l => !((getIndexerFor labels l).any (·.isNone))

/-- modin/pandas/base.py:1523-1564 `dropna(axis=1)` -/
def LFrame.dropnaCols [DecidableEq ι] [DecidableEq κ] (cfg : Cfg) (dyn : Bool) (cpu : Nat) (isna : α → Bool) (num : Nat → ι)
    (rule : NaRule) (subset : Option (List ι)) (ignore : Bool) (m : LFrame ι κ α) : Option (LFrame ι κ α) :=
  if checkSubset m.getIndex subset then
    (m.dropnaColsCompiled cfg dyn cpu isna rule subset).bind (·.ignoreIndex num ignore)
  else none

/-- modin/pandas/base.py:1523-1564 `dropna(axis=0)` -/
def LFrame.dropnaRows [DecidableEq ι] [DecidableEq κ] (cfg : Cfg) (isna : α → Bool) (num : Nat → ι)
    (rule : NaRule) (subset : Option (List κ)) (ignore : Bool) (m : LFrame ι κ α) : Option (LFrame ι κ α) :=
  if checkSubset m.getColumns subset then
    (m.dropnaRowsCompiled cfg isna rule subset).bind (·.ignoreIndex num ignore)
  else none
