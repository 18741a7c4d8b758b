import Verif.Pandas.Describe
import Verif.Model.Insert
import Verif.Model.Duplicated
import Verif.Model.Relabel
import Verif.Model.Reindex
import Verif.Model.GroupAgg
/-
Model of `select_dtypes`, `describe`, and `apply` with a list or a dictionary of functions.
-/

variable {ι ι' κ κ' L α β K S : Type}

/-- modin/core/dataframe/pandas/partitioning/partition_manager.py:1499-1590 `apply_func_to_select_indices_along_full_axis` with
    `axis=0`, `keep_remaining=False`: the block columns of `d` are joined, `func` gets the positions inside the block, and
    modin/core/dataframe/pandas/partitioning/axis_partition.py:137-236 `apply` (`maintain_partitioning=True`) splits the result. -/
def applySelected [DecidableEq ι] [DecidableEq κ] (cfg : Cfg) (func : Nat → List Nat → Frame ι κ α → Option (Frame ι' κ' β))
    (d : List (Nat × BlockSel)) (g : Grid ι κ α) : Option (Grid ι' κ' β) :=
  (d.mapM fun (s : Nat × BlockSel) => ((colBlocks g)[s.1]?).bind fun parts =>
    deployAxisFunc true (func s.1 (s.2.positions 0)) parts.length true parts cfg.minRow none false).map fun bs => colBlocks bs

/-- modin/core/dataframe/pandas/dataframe/dataframe.py:3035-3107 `apply_full_axis_select_indices` with `axis=0` and labels.  A
    label that is not there would be looked up at position -1; the functions applied here fail for it (`none`). -/
def MFrame.applyFullSelect [DecidableEq ι] [DecidableEq κ] (cfg : Cfg) (func : Nat → List Nat → Frame ι κ α → Option (Frame ι' κ' β))
    (labels : List κ) (newIndex : Option (List ι')) (newColumns : Option (List κ')) (m : MFrame ι κ α) : Option (MFrame ι' κ' β) :=
  ((getIndexerFor m.getColumns labels).mapM id).bind fun ps =>
  (applySelected cfg func (blockDict m.getColWidths (npSort ps)) m.parts).bind fun g =>
  MFrame.mk' { parts := g, index := newIndex, columns := newColumns, rowLens := none, colWidths := none }

/-- modin/pandas/dataframe.py:2027-2044: whether each column is wanted.  `include_these[column] = ...` sets the flag of all columns
    with the label, so the last one decides. -/
def dtypeFlags [DecidableEq κ] (keep : K → Bool) (kinds : List K) (columns : List κ) : List Bool :=
  columns.map fun c => (((columns.zip kinds).filter fun e => decide (e.1 = c)).getLast?).any fun e => keep e.2

/-- modin/pandas/dataframe.py:2006-2045 `select_dtypes`: the columns not wanted are dropped by label.  With the frame go the dtypes
    of the columns left. -/
def LFrame.selectDtypes [DecidableEq ι] [DecidableEq κ] (cfg : Cfg) (known : Nat → Nat → Bool × Bool) (keep : K → Bool)
    (kinds : List K) (m : LFrame ι κ α) : Option (LFrame ι κ α × List K) :=
  let gone := ((m.getColumns.zip (dtypeFlags keep kinds m.getColumns)).filter fun e => !e.2).map (·.1)
  (m.dropCompiled cfg known none (some gone)).map fun r =>
    (r, ((m.getColumns.zip kinds).filter fun e => !gone.contains e.1).map (·.2))

/-- `df.reindex(J)` for distinct row labels -/
def Frame.reindexLabels [DecidableEq ι] (nan : α) (J : List ι) (f : Frame ι κ α) : Frame ι κ α :=
  { index := J, columns := f.columns,
    rows := J.map fun s => ((f.index.findIdx? (· == s)).bind fun i => f.rows[i]?).getD (f.columns.map fun _ => nan) }

/-- modin/core/storage_formats/pandas/query_compiler.py:2397-2410 `describe_builder`.  `kinds` are the dtypes of the block's
    columns. -/
def describeBlock [DecidableEq S] (nan : α) (D : Describer K S α) (newIndex : List S) (kinds : List K) (js : List Nat)
    (b : Frame ι κ α) : Option (Frame S κ α) :=
  ((b.takeCols js).describeAll nan D (takeList kinds js)).map (Frame.reindexLabels nan newIndex)

/-- the dtypes of the columns of block column `j` -/
def blockKinds (cw : List Nat) (kinds : List K) (j : Nat) : List K :=
  (((sliceBounds cw)[j]?).map fun p => pySlice kinds p.1 p.2).getD []

/-- modin/core/storage_formats/pandas/query_compiler.py:2388-2420 `describe`.  The row labels are those of the description of an
    empty frame with the same dtypes. -/
def LFrame.describeCompiled [DecidableEq ι] [DecidableEq κ] [DecidableEq S] (cfg : Cfg) (nan : α) (D : Describer K S α)
    (kinds : List K) (m : LFrame ι κ α) : Option (LFrame S κ α) :=
  m.operation fun m1 => m1.applyFullSelect cfg
    (fun j js b => describeBlock nan D (statLabels D kinds) (blockKinds m1.getColWidths kinds j) js b) m.getColumns
    (some (statLabels D kinds)) (some m.getColumns)

/-- modin/pandas/base.py:1404-1424: the columns to describe, with their dtypes -/
def LFrame.describeData [DecidableEq ι] [DecidableEq κ] (cfg : Cfg) (known : Nat → Nat → Bool × Bool) (isDefault : K → Bool)
    (of : DescribeOf K) (kinds : List K) (m : LFrame ι κ α) : Option (LFrame ι κ α × List K) :=
  match of with
  | .all => some (m, kinds)
  | .those keep => m.selectDtypes cfg known keep kinds
  | .byDefault => (m.selectDtypes cfg known isDefault kinds).map fun r => if r.1.getColumns = [] then (m, kinds) else r

/-- modin/pandas/base.py:1394-1430 `describe`: a frame without rows or without columns is refused. -/
def LFrame.describe [DecidableEq ι] [DecidableEq κ] [DecidableEq S] (cfg : Cfg) (nan : α) (known : Nat → Nat → Bool × Bool)
    (D : Describer K S α) (isDefault : K → Bool) (of : DescribeOf K) (kinds : List K) (m : LFrame ι κ α) :
    Option (LFrame S κ α) :=
  (m.describeData cfg known isDefault of kinds).bind fun data =>
  if data.1.getIndex = [] ∨ data.1.getColumns = [] then none else data.1.describeCompiled cfg nan D data.2

/-- modin/core/storage_formats/pandas/query_compiler.py:3544-3583 `_list_like_func` with `axis=0` -/
def LFrame.applyList [DecidableEq L] (cfg : Cfg) (pair : L → L → L) (fns : List (L × ColFn α)) (m : LFrame L L α) :
    Option (LFrame L L α) :=
  m.applyFullColumns cfg (Frame.applyList pair fns) (some (fns.map (·.1))) (some m.getColumns)

/-- modin/core/storage_formats/pandas/query_compiler.py:3544-3583 `_list_like_func` with `axis=1` -/
def LFrame.applyListRows [DecidableEq L] (cfg : Cfg) (fns : List (L × (List α → α))) (m : LFrame L L α) :
    Option (LFrame L L α) :=
  m.applyFullLines cfg (Frame.applyListRows fns) (some m.getIndex) (some (fns.map (·.1)))

/-- modin/core/storage_formats/pandas/query_compiler.py:3499-3542 `_dict_func` with `axis=0`: every block column with a key gets
    the whole dictionary.  `zero` is the label of the only column of `DataFrame(series)`. -/
def LFrame.applyDict [DecidableEq L] (cfg : Cfg) (zero : L) (d : List (L × ColFn α)) (m : LFrame L L α) : Option (LFrame L L α) :=
  m.operation fun m1 => m1.applyFullSelect cfg (fun _ _ b => b.applyDict zero d) (d.map (·.1)) none (some (d.map (·.1)))
