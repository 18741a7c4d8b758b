import Verif.Model.MapPlans
import Verif.Model.Select
/-
Functions applied to whole row partitions that may change the number of rows.
Models modin/core/dataframe/pandas/dataframe/dataframe.py (`broadcast_apply_full_axis`, `combine`),
modin/core/dataframe/pandas/partitioning/partition_manager.py (`broadcast_axis_partitions`) and
modin/core/storage_formats/pandas/query_compiler.py (`reset_index`).
-/

variable {ι κ α ι' κ' β : Type}

/-- modin/core/dataframe/pandas/partitioning/partition_manager.py:498-611 `broadcast_axis_partitions` along the
    columns, `enumerate_partitions=True`: every row partition is joined, `func` is applied with the partition's
    number, the result is split. What is broadcast is part of `func`. -/
def applyRowBands [DecidableEq ι] [DecidableEq κ] (cfg : Cfg) (func : Nat → Frame ι κ α → Option (Frame ι' κ' β))
    (g : Grid ι κ α) (keep : Bool) (numSplits : Option Nat) : Option (Grid ι' κ' β) :=
  (g.mapIdx fun i parts =>
    deployAxisFunc false (func i) (axisNumSplits cfg keep numSplits none (gridWidth g)) keep parts cfg.minCol none
      false).mapM id

/-- modin/core/dataframe/pandas/dataframe/dataframe.py:3618-3667: the column widths recorded for the result of a
    function applied along the columns, when the new column labels are known -/
def fullAxisWidths (cfg : Cfg) (keep : Bool) (oldWidths : Option (List Nat)) (newColumns : Option (List κ'))
    (g : Grid ι' κ' β) : Option (List Nat) :=
  newColumns.bind fun c =>
    if keep then
      oldWidths.bind fun w => if c.length = w.sum ∧ w.all (· != 0) then some w else none
    else getLengthList c.length (gridWidth g) cfg.minCol

/-- modin/core/dataframe/pandas/dataframe/dataframe.py:3483-3678 `broadcast_apply_full_axis` with `axis=1`,
    `new_index=None` and `sync_labels=False`. -/
def applyFullRows [DecidableEq ι] [DecidableEq κ] (cfg : Cfg) (func : Nat → Frame ι κ α → Option (Frame ι' κ' β))
    (keep : Bool) (numSplits : Option Nat) (newColumns : Option (List κ')) (m : MFrame ι κ α) :
    Option (MFrame ι' κ' β) :=
  (applyRowBands cfg func m.parts keep numSplits).bind fun g =>
  MFrame.mk' { parts := g, index := none, columns := newColumns, rowLens := none,
               colWidths := fullAxisWidths cfg keep m.colWidths newColumns g }

/-- modin/core/dataframe/pandas/partitioning/partition_manager.py:1328-1373 and
    modin/core/dataframe/pandas/dataframe/dataframe.py:2918-2953 `combine`: the one block holding everything
    (`create_pandas_df_from_partitions`). -/
def MFrame.combined [DecidableEq ι] [DecidableEq κ] (m : MFrame ι κ α) : Option (Frame ι κ α) := assemble m.parts

/-- modin/core/storage_formats/pandas/query_compiler.py:741-806 `reset_index(drop=True)` when the row labels are not
    known: each row partition is numbered starting after the rows of the partitions above it. -/
def resetIndexDropLazy [DecidableEq ι] [DecidableEq κ] (cfg : Cfg) (m : MFrame ι κ α) : Option (MFrame Nat κ α) :=
  applyFullRows cfg
    (fun i b =>
      let start := (m.getRowLens.take i).sum
      let stop := (m.getRowLens.take (i + 1)).sum
      -- assigning labels of another length is an error in pandas
      if stop - start = b.index.length then
        some { index := (List.range (stop - start)).map (· + start), columns := b.columns, rows := b.rows }
      else none)
    true none m.columns m
