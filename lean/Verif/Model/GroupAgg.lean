import Verif.Pandas.GroupAgg
import Verif.Model.FullAxis
import Verif.Model.Relabel
/-
Group-by computed on whole block columns.
Models modin/core/storage_formats/pandas/query_compiler.py (`groupby_agg`), modin/core/dataframe/algebra/default2pandas/groupby.py
(`handle_as_index_for_dataframe`, `handle_as_index`), modin/core/dataframe/algebra/groupby.py (`get_callable`),
modin/core/dataframe/pandas/dataframe/dataframe.py (`broadcast_apply_full_axis` with `other` along the rows) and
modin/core/dataframe/pandas/partitioning/partition_manager.py (`broadcast_axis_partitions` with `apply_indices`).
Axis 0, grouping on columns of the frame itself (`drop=True`), no `level`, no categorical keys, frames (not series).
-/

variable {ι ι' κ ℓ α β κ' : Type}

/-- modin/core/dataframe/pandas/partitioning/partition_manager.py:498-611 `broadcast_axis_partitions` along the rows with a right
    operand, `enumerate_partitions=True`: the block columns numbered `idx` are joined, `func` is applied with the place in `idx`, and
    modin/core/dataframe/pandas/partitioning/axis_partition.py:502-592 `deploy_func_between_two_axis_partitions` splits the
    result anew into as many blocks as there were. What is broadcast is part of `func`. -/
def applyColBands [DecidableEq ι] [DecidableEq κ] (cfg : Cfg) (func : Nat → Frame ι κ α → Option (Frame ι' κ' β)) (idx : List Nat)
    (g : Grid ι κ α) : Option (Grid ι' κ' β) :=
  (idx.zipIdx.mapM fun (e : Nat × Nat) => ((colBlocks g)[e.1]?).bind fun parts =>
    deployAxisFunc true (func e.2) g.length false parts cfg.minRow none false).map fun bs => colBlocks bs

/-- modin/core/dataframe/pandas/dataframe/dataframe.py:3553-3557: the block columns `func` is applied to.  A label that is not
    there would be looked up at position -1; modin/pandas/groupby.py:1128-1131 refuses them before (`none`). -/
def MFrame.appliedBlocks [DecidableEq κ] (labels : Option (List κ)) (m : MFrame ι κ α) : Option (List Nat) :=
  match labels with
  | none => some (List.range (gridWidth m.parts))
  | some l => ((getIndexerFor m.getColumns l).mapM id).map fun ps => (blockDict m.getColWidths (npSort ps)).map (·.1)

/-- modin/core/storage_formats/pandas/query_compiler.py:4361-4372: the key columns the block does not have are put behind its
    columns.  `difference` also sorts them; they are only looked up by label. -/
def addMissed [DecidableEq ι] [DecidableEq κ] (keyFrame b : Frame ι κ α) : Option (Frame ι κ α) :=
  if (keyFrame.columns.filter fun c => !b.columns.contains c) = [] then some b
  else Frame.hcat [b, keyFrame.withoutCols fun c => b.columns.contains c]

/-- modin/core/dataframe/algebra/groupby.py:453-490 `get_callable`: of a dictionary, the entries whose column the block has -/
def GroupSpec.inBlock {φ : Type} [DecidableEq κ] (columns : List κ) : GroupSpec κ ℓ φ → GroupSpec κ ℓ φ
  | .each fns => .each fns
  | .dict d => .dict (d.filter fun e => columns.contains e.1)

/-- modin/core/storage_formats/pandas/query_compiler.py:4410-4422 and 4451-4452: new columns of key columns the block did not have are
    dropped -/
def GroupSpec.misaggregated {φ : Type} [DecidableEq κ] [DecidableEq ℓ] (key : κ → ℓ) (keyColumns columns : List κ) (result : List ℓ) :
    GroupSpec κ ℓ φ → List ℓ
  | .each _ => ((keyColumns.filter fun c => !columns.contains c).map key).filter fun l => result.contains l
  | .dict _ => []

/-- modin/core/storage_formats/pandas/query_compiler.py:4325-4459 `groupby_agg_builder` with `as_index=True` -/
def groupBlock [DecidableEq ι] [DecidableEq κ] [DecidableEq ℓ] (labels : List (List α) → List ι → List ι') (key : κ → ℓ) (by' : List κ)
    (spec : GroupSpec κ ℓ (GroupFn α)) (keyFrame b : Frame ι κ α) : Option (Frame ι' ℓ α) :=
  (addMissed keyFrame b).bind fun df => (df.groupCalc labels by' (spec.inBlock b.columns)).map fun r =>
    r.withoutCols fun l => (spec.misaggregated key keyFrame.columns b.columns r.columns).contains l

/-- modin/core/dataframe/algebra/default2pandas/groupby.py:383-555 `handle_as_index`: the key columns that are not inserted -/
def GroupSpec.taken {φ : Type} [DecidableEq ℓ] (key : κ → ℓ) (by' : List κ) (result : List ℓ) : GroupSpec κ ℓ φ → List κ
  | .each _ => by'.filter fun c => result.contains (key c)
  | .dict d => d.map (·.1)

/-- modin/core/dataframe/algebra/default2pandas/groupby.py:320-381 `handle_as_index_for_dataframe`: only the first block gets key
    columns, the others lose the labels. -/
def handleAsIndex [DecidableEq κ] [DecidableEq ℓ] (key : κ → ℓ) (by' : List κ) (spec : GroupSpec κ ℓ (GroupFn α)) (i : Nat)
    (r : Frame (List α) ℓ α) : Frame Nat ℓ α :=
  if i = 0 then r.withKeys key by' (spec.taken key by' r.columns) else { index := List.range r.index.length, columns := r.columns, rows := r.rows }

/-- modin/core/storage_formats/pandas/query_compiler.py:4325-4459 `groupby_agg_builder` with `as_index=False`; `i` is the number
    of the block column among those applied to. -/
def groupBlockFlat [DecidableEq ι] [DecidableEq κ] [DecidableEq ℓ] [DecidableEq α] (G : Grouping (List α)) (key : κ → ℓ) (by' : List κ)
    (spec : GroupSpec κ ℓ (GroupFn α)) (keyFrame : Frame ι κ α) (i : Nat) (b : Frame ι κ α) : Option (Frame Nat ℓ α) :=
  (addMissed keyFrame b).bind fun df => (df.groupCalc (fun keys _ => G.groups keys) by' (spec.inBlock b.columns)).map fun r =>
    (handleAsIndex key by' spec i r).withoutCols fun l =>
      (spec.misaggregated key keyFrame.columns b.columns r.columns).contains l

/-- modin/core/storage_formats/pandas/query_compiler.py:4461-4466: the labels of the columns the function is applied to -/
def GroupSpec.applyLabels {φ : Type} [DecidableEq κ] (isList : Bool) (by' columns : List κ) : GroupSpec κ ℓ φ → Option (List κ)
  | .each _ => if isList then some (indexDifference columns by') else none
  | .dict d => some (d.map (·.1))

/-- modin/core/storage_formats/pandas/query_compiler.py:4236-4505 `groupby_agg` (`how="axis_wise"` or `"transform"`, no
    range-partitioning, no map-reduce dictionary).  `dflt`: what pandas computes, used for empty frames; `block`: what is
    computed on a block column, given the whole key columns.  modin/core/dataframe/pandas/dataframe/dataframe.py:3482 writes
    pending labels of both frames first. -/
def LFrame.groupbyAgg [DecidableEq ι] [DecidableEq κ] (cfg : Cfg) (known : Nat → Nat → Bool × Bool) (nan : α)
    (dflt : Frame ι κ α → Option (Frame ι' ℓ α)) (block : Frame ι κ α → Nat → Frame ι κ α → Option (Frame ι' ℓ α)) (by' : List κ)
    (isList : Bool) (spec : GroupSpec κ ℓ (GroupFn α)) (m : LFrame ι κ α) : Option (LFrame ι' ℓ α) :=
  if m.getColumns.length = 0 ∨ m.getIndex.length = 0 then
    (m.toPandas nan).bind fun df => (dflt df).bind fun r => (fromPandas cfg r).map fun x => { x with defIndex := false, defColumns := false }
  else
    (m.takeColLabels cfg known by').bind fun k =>
    m.synced.bind fun m1 => k.synced.bind fun k1 => k1.toMFrame.combined.bind fun keyFrame =>
    (m1.toMFrame.appliedBlocks (spec.applyLabels isList by' m.getColumns)).bind fun idx =>
    (applyColBands cfg (block keyFrame) idx m1.parts).bind fun g =>
    (MFrame.mk' { parts := g, index := none, columns := none, rowLens := none, colWidths := none }).map fun x =>
      { x with defIndex := false, defColumns := false }

/-- `df.groupby(by).agg(...)` computed on whole block columns -/
def LFrame.groupAgg [DecidableEq ι] [DecidableEq κ] [DecidableEq ℓ] [DecidableEq α] (cfg : Cfg) (known : Nat → Nat → Bool × Bool) (nan : α)
    (G : Grouping (List α)) (key : κ → ℓ) (by' : List κ) (isList : Bool) (spec : GroupSpec κ ℓ (List α → α)) (m : LFrame ι κ α) :
    Option (LFrame (List α) ℓ α) :=
  m.groupbyAgg cfg known nan (Frame.groupCalc (fun keys _ => G.groups keys) by' (spec.map (perGroup G)))
    (fun keyFrame _ b => groupBlock (fun keys _ => G.groups keys) key by' (spec.map (perGroup G)) keyFrame b) by' isList
    (spec.map (perGroup G))

/-- `df.groupby(by, as_index=False).agg(...)` computed on whole block columns -/
def LFrame.groupAggFlat [DecidableEq ι] [DecidableEq κ] [DecidableEq ℓ] [DecidableEq α] (cfg : Cfg) (known : Nat → Nat → Bool × Bool)
    (nan : α) (G : Grouping (List α)) (key : κ → ℓ) (by' : List κ) (isList : Bool) (spec : GroupSpec κ ℓ (List α → α)) (m : LFrame ι κ α) :
    Option (LFrame Nat ℓ α) :=
  m.groupbyAgg cfg known nan (Frame.groupAggFlat G key by' (spec.map (perGroup G)))
    (groupBlockFlat G key by' (spec.map (perGroup G))) by' isList (spec.map (perGroup G))

/-- `df.groupby(by).transform(...)` and the cumulative functions (`how="transform"`), `as_index=True`: the rows keep their labels. -/
def LFrame.groupTransform [DecidableEq ι] [DecidableEq κ] [DecidableEq α] (cfg : Cfg) (known : Nat → Nat → Bool × Bool) (nan : α)
    (G : Grouping (List α)) (by' : List κ) (t : List α → List α) (m : LFrame ι κ α) : Option (LFrame ι κ α) :=
  m.groupbyAgg cfg known nan (Frame.groupCalc (fun _ index => index) by' (.each fun c => [(c, perRow G nan t)]))
    (fun keyFrame _ b => groupBlock (fun _ index => index) id by' (.each fun c => [(c, perRow G nan t)]) keyFrame b) by' false
    (.each fun c => [(c, perRow G nan t)])
