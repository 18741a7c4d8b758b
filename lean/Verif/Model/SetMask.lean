import Verif.Model.Corr
import Verif.Pandas.SetMask
/-
`df.loc[mask, cols] = v` where `mask` is a boolean Series held by Modin.
Models modin/pandas/indexing.py:936-959 (`_LocIndexer._set_item_existing_loc`, the first branch),
modin/core/storage_formats/pandas/query_compiler.py:3028-3056 (`setitem_bool`) and
modin/core/dataframe/pandas/dataframe/dataframe.py (`broadcast_apply_full_axis` with `other`, `axis=1`, `keep_partitioning=False`).
What pandas does to one row partition is `Frame.setMask` of Verif/Pandas/SetMask.lean.  dtypes: see Verif/Model/Dtypes.lean.
-/

variable {ι κ κ' α : Type}

/-- modin/core/dataframe/pandas/dataframe/dataframe.py:3483-3676 `broadcast_apply_full_axis` with `axis=1`,
    `keep_partitioning=False`, `num_splits=None` and `sync_labels=True` (`apply_axis="both"`); what is broadcast is part of `func` -/
def LFrame.applyFullRowsAnew {ι' κ' β : Type} [DecidableEq ι] [DecidableEq κ] (cfg : Cfg)
    (func : Frame ι κ α → Option (Frame ι' κ' β)) (newIndex : Option (List ι')) (newColumns : Option (List κ')) (m : LFrame ι κ α) :
    Option (LFrame ι' κ' β) :=
  m.synced.bind fun m1 =>
  (applyRowBands cfg (fun _ => func) m1.parts false none).bind fun g =>
  (MFrame.mk' { parts := g, index := newIndex, columns := newColumns,
                rowLens := newIndex.bind fun i =>
                  if g.length = 1 then some [i.length]
                  else m1.rowLens.bind fun l => if i.length = l.sum then some l else none
                colWidths := fullAxisWidths cfg false m1.colWidths newColumns g }).map fun r =>
  { r with defIndex := newIndex.isSome, defColumns := newColumns.isSome }

/-- modin/core/storage_formats/pandas/query_compiler.py:3028-3056 `setitem_bool`.  Every row partition is given the whole mask
    (modin/core/dataframe/pandas/partitioning/axis_partition.py:502-592 joins all its blocks; `broadcast_all=True`). -/
def LFrame.setitemBool [DecidableEq ι] [DecidableEq κ] [DecidableEq κ'] (cfg : Cfg) (m : LFrame ι κ α) (mask : LFrame ι κ' Bool)
    (cols : List κ) (v : α) : Option (LFrame ι κ α) :=
  mask.synced.bind fun k =>
  (assemble k.parts).bind fun rowLoc =>
  m.applyFullRowsAnew cfg (Frame.setMask rowLoc.series cols v) m.index m.columns
