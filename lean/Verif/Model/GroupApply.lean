import Verif.Model.RangeOps
import Verif.Pandas.GroupApply
/-
`groupby(...).apply` with range partitioning, whose results may have different columns in different blocks.
Models modin/core/dataframe/pandas/dataframe/dataframe.py:4163-4528 (`groupby` with `align_result_columns=True`) as called by
modin/core/storage_formats/pandas/query_compiler.py:3993-4134 (`_groupby_shuffle`).
-/

variable {ι κ α β Q K ι' : Type}

/-- A frame with the flag `__skip_me_on_aligning__` in its `attrs`.  Here the flag is kept beside every column label: it stays with a frame
    when the frame is cut, as `attrs` do.  (A frame without columns has no flag; it has nothing to align either.) -/
def Frame.tag (skip : Bool) (f : Frame ι κ α) : Frame ι (κ × Bool) α :=
  { index := f.index, columns := f.columns.map fun c => (c, skip), rows := f.rows }

/-- the frame without the flag -/
def Frame.untag (f : Frame ι (κ × Bool) α) : Frame ι κ α :=
  { index := f.index, columns := f.columns.map (·.1), rows := f.rows }

/-- `df.attrs.get(skip_on_aligning_flag, False)` -/
def Frame.skipped (f : Frame ι (κ × Bool) α) : Bool := f.columns.any (·.2)

/-- modin/core/dataframe/pandas/dataframe/dataframe.py:4250-4310 `apply_func` with keys among the columns of the frame: pandas' `groupby` and
    `apply` on one range; the result is flagged if the range is empty and so is the result -/
def applyBlock [DecidableEq K] [DecidableEq κ] (G : Grouping K) (key : ι × List α → K) (nan : β)
    (f : K → List (ι × List α) → Frame ι' κ β) (b : Frame ι κ α) : Option (Frame (K × ι') (κ × Bool) β) :=
  (groupApply G key nan f b.columns b.records).map fun r =>
    r.tag ((b.nrows == 0 || b.ncols == 0) && (r.nrows == 0 || r.ncols == 0))

/-- modin/core/dataframe/pandas/dataframe/dataframe.py:4379-4421 `compute_aligned_columns` without missing categories: the joined columns of
    the blocks that are not flagged, of all if all are -/
def alignedColumns [DecidableEq κ] (blocks : List (Frame ι (κ × Bool) β)) : Option (List κ) :=
  let valid := blocks.filter fun b => !b.skipped
  let valid := if valid.isEmpty then blocks else valid
  concatColumns (valid.map fun b => b.untag.columns)

/-- modin/core/dataframe/pandas/dataframe/dataframe.py:4477-4490 `join_cols`, used on a Ray cluster: the same, but a frame stays as it is if
    all blocks are flagged -/
def joinCols [DecidableEq κ] (nan : β) (blocks : List (Frame ι (κ × Bool) β)) (b : Frame ι (κ × Bool) β) : Option (Frame ι κ β) :=
  let valid := blocks.filter fun b => !b.skipped
  if valid.isEmpty then some b.untag
  else (concatColumns (valid.map fun b => b.untag.columns)).bind fun cols => b.untag.reindexColumns nan cols

/-- modin/core/dataframe/pandas/dataframe/dataframe.py:4348-4516: if there are several row blocks the columns of all are made the same.
    `cluster`: whether Modin runs on a Ray cluster (`IsRayCluster`). -/
def alignBlocks [DecidableEq κ] (cluster : Bool) (nan : β) (r : MFrame ι (κ × Bool) β) : Option (MFrame ι κ β) :=
  if r.parts.length > 1 then
    if gridWidth r.parts > 1 then none
    else
      let blocks := r.parts.flatten
      (if cluster then blocks.mapM (joinCols nan blocks)
        else (alignedColumns blocks).bind fun cols => blocks.mapM fun b => b.untag.reindexColumns nan cols).bind fun bs =>
      MFrame.mk' { parts := bs.map fun b => [b], index := r.index, columns := none, rowLens := r.rowLens, colWidths := none }
  else
    some { parts := r.parts.map fun row => row.map Frame.untag, index := r.index, columns := r.columns.map fun c => c.map (·.1),
           rowLens := r.rowLens, colWidths := r.colWidths }

/-- `df.groupby(by).apply(f)` with `RangePartitioning`: modin/core/dataframe/pandas/dataframe/dataframe.py:4163-4528.
    Not modelled: external keys, index levels, missing categories, functions returning scalars or Series. -/
def groupApplyRange [DecidableEq ι] [DecidableEq κ] [DecidableEq K] (cfg : Cfg) (over cluster : Bool) (le : Q → Q → Bool)
    (cols : List (KeyCol α Q × (Nat → List (Option Q)))) (G : Grouping K) (key : ι × List α → K) (nan : β)
    (f : K → List (ι × List α) → Frame ι' κ β) (m : MFrame ι κ α) : Option (MFrame (K × ι') κ β) :=
  (applyRangePartitioning cfg over (rangeReq le cols) (applyBlock G key nan f) none m).bind (alignBlocks cluster nan)
