import Verif.Model.Relabel
import Verif.Pandas.Melt
/-
`melt`.  Models modin/core/storage_formats/pandas/query_compiler.py (`melt`),
modin/core/dataframe/pandas/dataframe/dataframe.py (`broadcast_apply_select_indices`, `apply_select_indices`) and
modin/core/dataframe/pandas/partitioning/partition_manager.py (`broadcast_apply_select_indices`,
`apply_func_to_select_indices`).
-/

variable {ι κ α : Type}

/-- modin/core/storage_formats/pandas/query_compiler.py:2933-2948: `None` becomes an empty list; without value columns,
    all but the id columns (`columns.drop` raises for an id that is no column). -/
def meltValueVars [DecidableEq κ] (columns ids : List κ) (vals : Option (List κ)) : Option (List κ) :=
  if (vals.getD []).length ≠ 0 then some (vals.getD [])
  else if ids.all (columns.contains ·) then some (columns.filter fun c => !(ids.contains c))
  else none

/-- modin/core/storage_formats/pandas/query_compiler.py:2978-2981: the block with the id columns it lacks.
    `columns.difference` also sorts the added labels, which are then looked up by name only (not modelled). -/
def withIdColumns [DecidableEq ι] [DecidableEq κ] (nan : α) (b : Frame ι κ α) : Option (List (Frame ι κ α)) → Option (Frame ι κ α)
  | none => some b
  | some others => (Frame.hcat others).bind fun o =>
      Frame.concatOuter nan b (o.takeCols ((List.range o.columns.length).filter fun j => o.columns[j]?.any fun k => !(b.columns.contains k)))

/-- modin/core/storage_formats/pandas/query_compiler.py:2955-2988 `applyier` -/
def meltBlock [DecidableEq ι] [DecidableEq κ] (nan : α) (lab : κ → α) (ids : List κ) (var value : κ) (internal : BlockSel)
    (b : Frame ι κ α) (other : Option (List (Frame ι κ α))) : Option (Frame Nat κ α) :=
  (withIdColumns nan b other).bind fun df => (checkedTake df.columns (internal.positions b.ncols)).bind fun vals =>
    df.melt lab ids (some vals) var value

/-- modin/core/storage_formats/pandas/query_compiler.py:2950-2953: the frame of the id columns. -/
def LFrame.meltOther [DecidableEq ι] [DecidableEq κ] (cfg : Cfg) (known : Nat → Nat → Bool × Bool) (ids : List κ)
    (m : LFrame ι κ α) : Option (Option (Grid ι κ α)) :=
  if ids.length ≠ 0 then
    (m.takeColLabels cfg known ids).bind fun o => o.synced.map fun o1 => some o1.parts
  else some none

/-- The partitions of `other` that go with the row partitions of `self`: one row partition each, as far as they go
    (modin/core/dataframe/pandas/partitioning/partition_manager.py:1293-1298 `zip(partitions, other.T)`). -/
def broadcastRows (n : Nat) : Option (Grid ι κ α) → List (Option (List (Frame ι κ α)))
  | none => List.replicate n none
  | some g => g.map some

/-- `old_index.get_indexer_for(apply_indices)` followed by `indices % len(axis)`: a label that is not there has position -1,
    which is the last column (modin/core/dataframe/pandas/dataframe/dataframe.py:1925-1938, 3454-3456). -/
def indexerOrLast [DecidableEq κ] (columns vals : List κ) : List Nat :=
  (getIndexerFor columns vals).map (·.getD (columns.length - 1))

/-- modin/core/dataframe/pandas/partitioning/partition_manager.py:361-437 `broadcast_apply_select_indices` and 1377-1495
    `apply_func_to_select_indices` (`axis=0`, `keep_remaining=False`) on the column partitions that hold value columns, and
    modin/core/storage_formats/pandas/query_compiler.py:3002-3004: the pieces of one column partition after those of the
    one before. -/
def meltPieces [DecidableEq ι] [DecidableEq κ] (nan : α) (lab : κ → α) (ids : List κ) (var value : κ) (parts : Grid ι κ α)
    (other : Option (Grid ι κ α)) (d : List (Nat × BlockSel)) : Option (List (Frame Nat κ α)) :=
  (d.mapM fun (e : Nat × BlockSel) => (parts.mapM fun row => row[e.1]?).bind fun bs =>
    (bs.zip (broadcastRows parts.length other)).mapM fun (p : Frame ι κ α × Option (List (Frame ι κ α))) =>
      meltBlock nan lab ids var value e.2 p.1 p.2).map List.flatten

/-- modin/core/storage_formats/pandas/query_compiler.py:2918-3017 `melt`.  Both frames have their pending labels written
    before the blocks are used.  The pieces become one column of partitions; the new row labels are only recorded and are
    written into the pieces later.  `col_level` is not modelled; `ignore_index` is not looked at in the code. -/
def LFrame.melt [DecidableEq ι] [DecidableEq κ] (cfg : Cfg) (known : Nat → Nat → Bool × Bool) (nan : α) (lab : κ → α)
    (ids : List κ) (vals : Option (List κ)) (var value : κ) (m : LFrame ι κ α) : Option (LFrame Nat κ α) :=
  (meltValueVars m.getColumns ids vals).bind fun vals =>
  (m.meltOther cfg known ids).bind fun other =>
  m.synced.bind fun m1 =>
  (meltPieces nan lab ids var value m1.parts other
    (blockDict m1.getColWidths (npSort (indexerOrLast m1.getColumns vals)))).bind fun pieces =>
  let index := List.range (m1.getIndex.length * vals.length)
  (MFrame.mk' (MFrame.mk (pieces.map fun p => [p]) (some index) (some (ids ++ [var, value])) none none)).bind fun r =>
    (LFrame.mk r false false).setIndex index
