import Verif.Model.Mask
import Verif.Pandas.SeriesOp
/-
Binary operations of a frame with a Series.
Models modin/core/dataframe/algebra/binary.py (the broadcasting branch of `Binary.register`),
modin/core/dataframe/pandas/dataframe/dataframe.py (`broadcast_apply`, `_copartition`) and
modin/core/dataframe/pandas/partitioning/partition_manager.py (`base_broadcast_apply`, `broadcast_apply`) for both axes.
A Series is a frame with one column.  dtypes: see Verif/Model/Dtypes.lean.  `level` is left to pandas.
-/

variable {ι ι' κ κ' α β γ : Type}

/-! ### aligning columns -/

/-- modin/core/dataframe/pandas/dataframe/dataframe.py:3792-3806 for `axis=1`: the blocks of `self`, with its columns relabelled
    to the joined labels if they differ, and its column widths (those of its first block row) -/
def colsBase [DecidableEq ι] [DecidableEq κ] (P : JoinOps κ) (cfg : Cfg) (nan : α) (left : MFrame ι κ α) (labels : List κ) :
    Option (Grid ι κ α × List Nat) :=
  let J := joinedLabels P false left.getColumns [labels]
  if left.getColumns ≠ J then
    (reindexer P false left.getColumns [labels] 0 left.getColumns).bind fun I =>
    (mapAxisPartitions cfg false (fun b => some (b.reindexCols nan J I)) left.parts false none none).map fun g =>
      (g, (g.head?.getD []).map (·.ncols))
  else some (left.parts, left.getColWidths)

/-- Lines 3808-3841 for `axis=1`: the blocks of `other`, relabelled and divided like `self` -/
def colsOther [DecidableEq ι'] [DecidableEq κ] (P : JoinOps κ) (cfg : Cfg) (nan : β) (labels : List κ) (lens : List Nat)
    (right : MFrame ι' κ β) : Option (Grid ι' κ β) :=
  let J := joinedLabels P false labels [right.getColumns]
  if right.getColumns ≠ J ∨ right.getColWidths ≠ lens then
    (reindexer P false labels [right.getColumns] 1 right.getColumns).bind fun I =>
      mapAxisPartitions cfg false (fun b => some (b.reindexCols nan J I)) right.parts false none (some lens)
  else some right.parts

/-- modin/core/dataframe/pandas/dataframe/dataframe.py:3709-3848 `_copartition(axis=1)` of two frames, both with blocks, which
    may hold different kinds of cells: the blocks, the joined labels and the column widths. -/
def copartitionCols [DecidableEq ι] [DecidableEq ι'] [DecidableEq κ] (P : JoinOps κ) (cfg : Cfg) (nanL : α) (nanR : β)
    (left : MFrame ι κ α) (right : MFrame ι' κ β) :
    Option (Grid ι κ α × Grid ι' κ β × Option (List κ) × Option (List Nat)) :=
  if right.getColumns = left.getColumns ∧ right.getColWidths = left.getColWidths then
    some (left.parts, right.parts, some left.getColumns, some left.getColWidths)
  else
    (colsBase P cfg nanL left right.getColumns).bind fun b =>
    (colsOther P cfg nanR left.getColumns b.2 right).map fun r =>
      (b.1, r, some (joinedLabels P false left.getColumns [right.getColumns]), some b.2)

/-- modin/core/dataframe/pandas/partitioning/partition_manager.py:443-494 `base_broadcast_apply(axis=1)`: every block with the
    block column of the same number of the other frame, its blocks put one below the other. -/
def broadcastColsApply [DecidableEq κ] (F : Frame ι κ α → Frame ι' κ β → Option (Frame ι κ γ)) (left : Grid ι κ α)
    (right : Grid ι' κ β) : Option (Grid ι κ γ) :=
  left.mapM fun row => row.zipIdx.mapM fun (e : Frame ι κ α × Nat) =>
    ((colBlocks right)[e.2]?).bind fun others => (Frame.vcat others).bind fun other => F e.1 other

/-- modin/core/dataframe/pandas/dataframe/dataframe.py:3233-3335 `broadcast_apply(axis=1, copartition=True)` without
    `DynamicPartitioning` -/
def MFrame.broadcastApplyCols [DecidableEq ι] [DecidableEq ι'] [DecidableEq κ] (P : JoinOps κ) (cfg : Cfg)
    (nanL : α) (nanR : β) (F : Frame ι κ α → Frame ι' κ β → Option (Frame ι κ γ)) (labels : BroadcastLabels) (m : MFrame ι κ α)
    (other : MFrame ι' κ β) : Option (MFrame ι κ γ) :=
  (copartitionCols P cfg nanL nanR m other).bind fun c =>
  (broadcastColsApply F c.1 c.2.1).bind fun g =>
  MFrame.mk' { parts := g
               index := m.index
               columns := match labels with | .keep => m.columns | .replace => c.2.2.1 | .drop => none
               rowLens := m.rowLens
               colWidths := match labels with | .keep => m.colWidths | .replace => c.2.2.2 | .drop => none }

/-! ### the operation -/

/-- The value of a row with one cell. -/
def oneCell (row : List β) : Option β :=
  match row with
  | [v] => some v
  | _ => none

/-- The only row of a frame. -/
def oneRow (rows : List (List β)) : Option (List β) :=
  match rows with
  | [r] => some r
  | _ => none

/-- modin/core/dataframe/algebra/binary.py:397-399 `func(left, right.squeeze(), axis=0)`: pandas' own operation in one block, the
    labels having been aligned.  For one row the Series is a scalar, which gives the same cells. -/
def opRowsBlock [DecidableEq ι] (f : α → β → γ) (b : Frame ι κ α) (r : Frame ι κ' β) : Option (Frame ι κ γ) :=
  if r.index = b.index then (r.rows.mapM oneCell).map fun vs => b.opRows f vs else none

/-- The same with `axis=1`; the Series is a frame of one row (lines 374-375). -/
def opColsBlock [DecidableEq κ] (f : α → β → γ) (b : Frame ι κ α) (r : Frame ι' κ β) : Option (Frame ι κ γ) :=
  if r.columns = b.columns then (oneRow r.rows).map fun vs => b.opCols f vs else none

/-- modin/core/dataframe/algebra/binary.py:365-405 with `broadcast=True`, `axis=0`, `join_type="outer"`, `labels="replace"`: the
    assertion on the number of columns and `broadcast_apply` with its decorator (`apply_axis="both"`, which also synchronises
    the labels of `other`). -/
def LFrame.opSeriesRows [DecidableEq ι] [DecidableEq κ] [DecidableEq κ'] (P : JoinOps ι) (cfg : Cfg) (dyn : Bool) (nanL : α)
    (nanR : β) (f : α → β → γ) (m : LFrame ι κ α) (s : LFrame ι κ' β) : Option (LFrame ι κ γ) :=
  if s.getColumns.length ≠ 1 then none
  else s.synced.bind fun s1 => m.operation fun m1 =>
    m1.broadcastApplyRows P cfg dyn nanL nanR (opRowsBlock f) .replace s1.toMFrame

/-- The same with `axis=1`: the Series is transposed first (lines 374-375). -/
def LFrame.opSeriesCols [DecidableEq ι] [DecidableEq κ] [DecidableEq κ'] (P : JoinOps κ) (cfg : Cfg) (nanL : α) (nanR : β)
    (f : α → β → γ) (m : LFrame ι κ α) (s : LFrame κ κ' β) : Option (LFrame ι κ γ) :=
  if s.getColumns.length ≠ 1 then none
  else s.transpose.bind fun t => t.synced.bind fun t1 => m.operation fun m1 =>
    m1.broadcastApplyCols P cfg nanL nanR (opColsBlock f) .replace t1.toMFrame
