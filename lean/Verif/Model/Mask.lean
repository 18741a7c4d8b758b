import Verif.Model.FullAxis
import Verif.Model.Labels
import Verif.Model.Concat
import Verif.Pandas.Mask
import Verif.Pandas.Sort
/-
Selecting rows with a boolean mask, and the row-wise broadcast it rests on.
Models modin/core/storage_formats/pandas/query_compiler.py (`getitem_array`, `__getitem_bool`, `__validate_bool_indexer`,
`getitem_row_array`), modin/core/dataframe/algebra/binary.py (the broadcasting branch of `Binary.register`),
modin/core/dataframe/pandas/dataframe/dataframe.py (`broadcast_apply`, `_copartition`, `_join_index_objects`) and
modin/core/dataframe/pandas/partitioning/partition_manager.py (`base_broadcast_apply`, `broadcast_apply`).
A missing value that aligning may put in the mask is `none`.  dtypes: see Verif/Model/Dtypes.lean.
-/

variable {ι κ κ' κ'' α β γ : Type}

/-- `left.join(right, how="left", sort=True)` of pandas.  When some label repeats, every place of a left label is paired with
    every place of that label in `right`.
    `_copartition` passes `sort=True` whenever the labels differ (modin/core/dataframe/pandas/dataframe/dataframe.py:3759-3760). -/
def leftJoinSorted [DecidableEq ι] (le : ι → ι → Bool) : JoinOps ι :=
  { first := false
    merge := fun l _ => sortBy le l
    join2 := fun l r =>
      let pairs := (sortBy (fun a b => le a.1 b.1) l.zipIdx).flatMap fun e =>
        let ps := (List.range r.length).filter fun p => r[p]? == some e.1
        if ps.isEmpty then [(e.1, some e.2, none)] else ps.map fun p => (e.1, some e.2, some p)
      (pairs.map (·.1), pairs.map (·.2.1), pairs.map (·.2.2)) }

/-- modin/core/dataframe/pandas/dataframe/dataframe.py:3792-3806: the blocks of `self`, with its rows relabelled to the joined
    labels if they differ, and its row lengths -/
def rowsBase [DecidableEq ι] [DecidableEq κ] (P : JoinOps ι) (cfg : Cfg) (nan : α) (left : MFrame ι κ α) (labels : List ι) :
    Option (Grid ι κ α × List Nat) :=
  let J := joinedLabels P true left.getIndex [labels]
  if left.getIndex ≠ J then
    (reindexer P true left.getIndex [labels] 0 left.getIndex).bind fun I =>
    (mapAxisPartitions cfg true (fun b => some (b.reindexRows nan J I)) left.parts false none none).map fun g =>
      (g, g.filterMap fun row => row.head?.map (·.nrows))
  else some (left.parts, left.getRowLens)

/-- Lines 3808-3841: the blocks of `other`, relabelled and divided like `self` -/
def rowsOther [DecidableEq ι] [DecidableEq κ'] (P : JoinOps ι) (cfg : Cfg) (nan : β) (labels : List ι) (lens : List Nat)
    (right : MFrame ι κ' β) : Option (Grid ι κ' β) :=
  let J := joinedLabels P true labels [right.getIndex]
  if right.getIndex ≠ J ∨ right.getRowLens ≠ lens then
    (reindexer P true labels [right.getIndex] 1 right.getIndex).bind fun I =>
      mapAxisPartitions cfg true (fun b => some (b.reindexRows nan J I)) right.parts false none (some lens)
  else some right.parts

/-- modin/core/dataframe/pandas/dataframe/dataframe.py:3709-3848 `_copartition(axis=0)` of two frames, both with blocks, which
    may hold different kinds of cells: the blocks, the joined labels and the row lengths. -/
def copartitionRows [DecidableEq ι] [DecidableEq κ] [DecidableEq κ'] (P : JoinOps ι) (cfg : Cfg) (nanL : α) (nanR : β)
    (left : MFrame ι κ α) (right : MFrame ι κ' β) :
    Option (Grid ι κ α × Grid ι κ' β × Option (List ι) × Option (List Nat)) :=
  if right.getIndex = left.getIndex ∧ right.getRowLens = left.getRowLens then
    some (left.parts, right.parts, some left.getIndex, some left.getRowLens)
  else
    (rowsBase P cfg nanL left right.getIndex).bind fun b =>
    (rowsOther P cfg nanR left.getIndex b.2 right).map fun r =>
      (b.1, r, some (joinedLabels P true left.getIndex [right.getIndex]), some b.2)

/-- modin/core/dataframe/pandas/partitioning/partition_manager.py:443-494 `base_broadcast_apply(axis=0)`: every block with the
    block row of the same number of the other frame, its blocks put side by side. -/
def broadcastRowsApply [DecidableEq ι] (F : Frame ι κ α → Frame ι κ' β → Option (Frame ι κ'' γ)) (left : Grid ι κ α)
    (right : Grid ι κ' β) : Option (Grid ι κ'' γ) :=
  left.zipIdx.mapM fun (e : List (Frame ι κ α) × Nat) =>
    (right[e.2]?).bind fun others => (Frame.hcat others).bind fun other => e.1.mapM fun b => F b other

/-- modin/core/dataframe/pandas/partitioning/partition_manager.py:693-703 `broadcast_apply(axis=0)` with
    `DynamicPartitioning`: whole block rows; modin/core/dataframe/pandas/partitioning/axis_partition.py:502-592
    `deploy_func_between_two_axis_partitions`, which splits the result anew whatever `keep_partitioning` says. -/
def broadcastRowsApplyDynamic [DecidableEq ι] [DecidableEq κ] (cfg : Cfg) (F : Frame ι κ α → Frame ι κ' β → Option (Frame ι κ'' γ))
    (left : Grid ι κ α) (right : Grid ι κ' β) : Option (Grid ι κ'' γ) :=
  left.zipIdx.mapM fun (e : List (Frame ι κ α) × Nat) =>
    (right[e.2]?).bind fun others => (Frame.hcat others).bind fun other =>
      deployAxisFunc false (fun b => F b other) (gridWidth left) false e.1 cfg.minCol none false

/-- The parameter `labels` of `broadcast_apply`. -/
inductive BroadcastLabels where
  | keep
  | replace
  | drop
deriving DecidableEq, Repr

/-- modin/core/dataframe/pandas/dataframe/dataframe.py:3233-3335 `broadcast_apply(axis=0, copartition=True)` -/
def MFrame.broadcastApplyRows [DecidableEq ι] [DecidableEq κ] [DecidableEq κ'] (P : JoinOps ι) (cfg : Cfg) (dyn : Bool)
    (nanL : α) (nanR : β) (F : Frame ι κ α → Frame ι κ' β → Option (Frame ι κ γ)) (labels : BroadcastLabels) (m : MFrame ι κ α)
    (other : MFrame ι κ' β) : Option (MFrame ι κ γ) :=
  (copartitionRows P cfg nanL nanR m other).bind fun c =>
  (if dyn then broadcastRowsApplyDynamic cfg F c.1 c.2.1 else broadcastRowsApply F c.1 c.2.1).bind fun g =>
  MFrame.mk' { parts := g
               index := match labels with | .keep => m.index | .replace => c.2.2.1 | .drop => none
               columns := m.columns
               rowLens := match labels with | .keep => m.rowLens | .replace => c.2.2.2 | .drop => none
               colWidths := m.colWidths }

/-- One cell of a row with one cell that is a boolean. -/
def maskCell (row : List (Option Bool)) : Option Bool :=
  match row with
  | [some v] => some v
  | _ => none

/-- modin/core/storage_formats/pandas/query_compiler.py:3021-3025 `df[[r]] if is_scalar(r) else df[r]` with
    `r = right.squeeze()` (modin/core/dataframe/algebra/binary.py:397-399): pandas' own selection in one block.  The labels are
    the block's (they have been aligned); a missing value in the mask raises (`none`).  For one row the mask is a scalar and
    `df[[r]]` selects with a list of one boolean. -/
def selectRowsBlock [DecidableEq ι] (b : Frame ι κ α) (r : Frame ι κ' (Option Bool)) : Option (Frame ι κ α) :=
  if r.index = b.index then (r.rows.mapM maskCell).map fun vs => b.pickRows vs else none

/-- modin/core/storage_formats/pandas/query_compiler.py:3072-3080 `getitem_array(key)`, `key` a frame of one boolean column:
    lines 3060-3070 `__validate_bool_indexer`, modin/core/dataframe/algebra/binary.py:368-405 and `broadcast_apply` with its
    decorator (`apply_axis="both"`, which also synchronises the labels of `other`). -/
def LFrame.getitemMask [DecidableEq ι] [DecidableEq κ] [DecidableEq κ'] (le : ι → ι → Bool) (cfg : Cfg) (dyn : Bool) (nan : α)
    (m : LFrame ι κ α) (mask : LFrame ι κ' (Option Bool)) : Option (LFrame ι κ α) :=
  if mask.getIndex.length ≠ m.getIndex.length then none
  else if mask.getColumns.length ≠ 1 then none
  else mask.synced.bind fun k1 => m.operation fun m1 =>
    m1.broadcastApplyRows (leftJoinSorted le) cfg dyn nan none selectRowsBlock .drop k1.toMFrame

/-- modin/core/storage_formats/pandas/query_compiler.py:3082-3095 `getitem_array(key)`, `key` an array of booleans, with lines
    3124-3127 `getitem_row_array`. -/
def LFrame.getitemBoolArray [DecidableEq ι] [DecidableEq κ] (cfg : Cfg) (known : Nat → Nat → Bool × Bool) (m : LFrame ι κ α)
    (key : List Bool) : Option (LFrame ι κ α) :=
  if key.length ≠ m.getIndex.length then none
  else
    let ps := keepWhere key (List.range m.getIndex.length)
    if ps.length ≠ 0 then m.take2d cfg known (some (.array ps)) none
    else (fromPandas cfg { index := [], columns := m.getColumns, rows := [] }).map fun r =>
      { r with defIndex := false, defColumns := false }
