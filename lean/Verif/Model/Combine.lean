import Verif.Model.Concat
import Verif.Model.Mask
import Verif.Model.GroupAgg
import Verif.Pandas.Combine
/-
`update`, `combine_first` and `compare`.
Models modin/core/storage_formats/pandas/query_compiler.py (`df_update`, `series_update`, `combine_first`, `compare`),
modin/core/dataframe/algebra/binary.py (`Binary.register` with a frame), modin/pandas/dataframe.py (`update`, `compare`),
modin/pandas/series.py (`update`) and modin/pandas/base.py (`combine_first`, `_binary_op`).
Row and column labels have the same type `L` where frames are aligned.  Not modelled: dtypes, `result_names`, a `filter_func` that looks at
more than one value.
-/

variable {ι κ α L : Type}

/-- `left.join(right, how="left", sort=False)`: the labels of `left`, in their order -/
def leftJoin [DecidableEq L] : JoinOps L := leftJoinSorted fun _ _ => true

/-- modin/core/storage_formats/pandas/query_compiler.py:227-255 `copy_df_for_func(pandas.DataFrame.update)` on two blocks with the same
    labels; `none`: it raises.  Where the other block has no value of its own it has the missing value put there by the alignment. -/
def updateBlock [DecidableEq L] (isna : α → Bool) (a : UpdateArgs α) (b : Frame L L α) (os : List (Frame L L α)) : Option (Frame L L α) :=
  (cellwiseBlock (fun v os => updateCell isna a v os.head?) b os).bind Frame.allSome

/-- modin/core/storage_formats/pandas/query_compiler.py:572-576 `df_update`: `n_ary_op` with `join_type="left"`, `sort=False`;
    modin/pandas/dataframe.py:2508-2523 puts the result in the place of the frame -/
def MFrame.update [DecidableEq L] (cfg : Cfg) (nan : α) (isna : α → Bool) (a : UpdateArgs α) (m other : MFrame L L α) :
    Option (MFrame L L α) :=
  nAryOp leftJoin cfg nan (updateBlock isna a) m [other]

/-- modin/core/storage_formats/pandas/query_compiler.py:577-584 `series_update`; modin/pandas/series.py:2353-2361: a series is a frame of
    one column labelled with its name; the names are not made the same first (`_prepare_inter_op` is not called) -/
def MFrame.seriesUpdate [DecidableEq L] (cfg : Cfg) (nan : α) (isna : α → Bool) (m other : MFrame L L α) : Option (MFrame L L α) :=
  nAryOp leftJoin cfg nan (updateBlock isna ⟨true, none, false⟩) m [other]

/-- one cell of `combine_first` -/
def firstPresent (isna : α → Bool) (nan v : α) (os : List α) : α := if isna v then os.head?.getD nan else v

/-- modin/core/storage_formats/pandas/query_compiler.py:538-540 `combine_first`: `n_ary_op` with `join_type="outer"`; `P` is that join, of
    rows and columns.  The same for series (modin/pandas/base.py:1297-1301). -/
def MFrame.combineFirst [DecidableEq L] (P : JoinOps L) (cfg : Cfg) (nan : α) (isna : α → Bool) (m other : MFrame L L α) :
    Option (MFrame L L α) :=
  nAryOp P cfg nan (cellwiseBlock (firstPresent isna nan)) m [other]

/-- modin/core/storage_formats/pandas/query_compiler.py:4807-4816 `compare`: modin/core/dataframe/pandas/dataframe/dataframe.py:3483-3676
    `broadcast_apply_full_axis(0, ..., other)`: each block column of the left frame, full height, with all of the other frame
    (modin/core/dataframe/pandas/partitioning/axis_partition.py:548-575). -/
def MFrame.compare [DecidableEq ι] [DecidableEq κ] (cfg : Cfg) (same : α → α → Bool) (nan : α) (args : CompareArgs) (m other : MFrame ι κ α) :
    Option (MFrame (ι × Option Side) (κ × Option Side) α) :=
  (assemble other.parts).bind fun right =>
  (applyColBands cfg (fun _ left => left.compareWith same nan args right) (List.range (gridWidth m.parts)) m.parts).bind fun g =>
  MFrame.mk' { parts := g, index := none, columns := none, rowLens := none, colWidths := none }
