import Verif.Model.Reduce
import Verif.Model.Labels
import Verif.Pandas.Duplicated
/-
`duplicated`.
Models modin/core/storage_formats/pandas/query_compiler.py (`duplicated`) and
modin/core/dataframe/pandas/dataframe/dataframe.py (`apply_full_axis(axis=0)`, that is `broadcast_apply_full_axis` without
another frame).  dtypes: see Verif/Model/Dtypes.lean.
-/

variable {ι κ α ι' κ' β K T D : Type}

/-- modin/core/dataframe/pandas/dataframe/dataframe.py:3483-3676 `broadcast_apply_full_axis` with `axis=0`, `other=None`,
    `keep_partitioning=True`, `num_splits=None` and `sync_labels=True` (`apply_axis="both"`): the labels given are written
    into the blocks later. -/
def LFrame.applyFullColumns [DecidableEq ι] [DecidableEq κ] (cfg : Cfg) (func : Frame ι κ α → Option (Frame ι' κ' β))
    (newIndex : Option (List ι')) (newColumns : Option (List κ')) (m : LFrame ι κ α) : Option (LFrame ι' κ' β) :=
  m.synced.bind fun m1 =>
  (mapAxisPartitions cfg true func m1.parts true none none).bind fun g =>
  (MFrame.mk' { parts := g, index := newIndex, columns := newColumns,
                rowLens := newIndex.bind fun i => m1.rowLens.bind fun l =>
                  if i.length = l.sum ∧ l.all (· != 0) then some l else none,
                colWidths := newColumns.bind fun c => if gridWidth g = 1 then some [c.length] else none }).map fun r =>
  { r with defIndex := newIndex.isSome, defColumns := newColumns.isSome }

/-- modin/core/storage_formats/pandas/query_compiler.py:3346-3386 `duplicated`.  `text` is the `repr` of a cell, `digest` is
    `md5` of the texts of a row put together by `str(tuple(...))`.  (`DataFrame.apply(axis=1)` first casts the cells of a row
    to a common dtype; this cast is part of `text`.)  `reduce` computes and keeps the row labels of the frame. -/
def LFrame.duplicated [DecidableEq ι] [DecidableEq κ] [DecidableEq K] [DecidableEq D] (cfg : Cfg) (key : α → K) (text : α → T)
    (digest : List T → D) (keep : DupKeep) (m : LFrame ι κ α) : Option (LFrame ι String Bool) :=
  if gridWidth m.parts > 1 then
    (m.operation fun m1 => fullReduce1 cfg (fun row => digest (row.map text)) m1).bind fun hashed =>
    hashed.applyFullColumns cfg (fun b => some (b.duplicated unnamed id keep)) (some m.getIndex) (some [unnamed])
  else m.applyFullColumns cfg (fun b => some (b.duplicated unnamed key keep)) m.index (some [unnamed])
