import Verif.Model.Duplicated
import Verif.Model.Mask
import Verif.Model.Relabel
import Verif.Model.Dropna
import Verif.Pandas.DropDuplicates
/-
`drop_duplicates` and `Series.unique`.
Models modin/pandas/base.py (`drop_duplicates`), modin/pandas/series.py (`unique`), modin/core/storage_formats/base/query_compiler.py
(`unique`) and modin/core/storage_formats/pandas/query_compiler.py (`unique`, `getitem_column_array` with `ignore_order`, `invert`).
With `RangePartitioning` see Verif/Model/RangeOps.lean.
`inplace` only decides which object receives the result.
-/

variable {ι κ α K T D : Type}

/-- modin/core/storage_formats/pandas/query_compiler.py:3115-3122 `getitem_column_array(key, ignore_order=True)` -/
def LFrame.subsetColumns [DecidableEq ι] [DecidableEq κ] (cfg : Cfg) (known : Nat → Nat → Bool × Bool) (key : List κ)
    (m : LFrame ι κ α) : Option (LFrame ι κ α) :=
  m.takeColLabels cfg known (m.getColumns.filter fun c => key.contains c)

/-- modin/core/storage_formats/base/query_compiler.py:2428-2431 -/
def LFrame.comparedColumns [DecidableEq ι] [DecidableEq κ] (cfg : Cfg) (known : Nat → Nat → Bool × Bool) (subset : Option (List κ))
    (m : LFrame ι κ α) : Option (LFrame ι κ α) :=
  match subset with
  | some l => m.subsetColumns cfg known l
  | none => some m

/-- modin/core/storage_formats/base/query_compiler.py:2410-2435 `unique`; `invert` is
    modin/core/storage_formats/pandas/query_compiler.py:2063 -/
def LFrame.baseUnique [DecidableEq ι] [DecidableEq κ] [DecidableEq K] [DecidableEq D] (le : ι → ι → Bool) (cfg : Cfg) (dyn : Bool) (cpu : Nat)
    (known : Nat → Nat → Bool × Bool) (nan : α) (num : Nat → ι) (cell : ι → α) (indexName levelName : κ) (name : Option κ)
    (namesKnown : Bool) (key : α → K) (text : α → T) (digest : List T → D) (keep : DupKeep) (ignore : Bool)
    (subset : Option (List κ)) (m : LFrame ι κ α) : Option (LFrame ι κ α) :=
  (m.comparedColumns cfg known subset).bind fun s =>
  (s.duplicated cfg key text digest keep).bind fun marks =>
  (marks.mapBlocks cfg dyn cpu (Frame.mapCells fun b => some (!b))).bind fun mask =>
  (m.getitemMask le cfg dyn nan mask).bind fun r =>
  if ignore then r.resetIndex cfg num cell indexName levelName name true namesKnown else some r

/-- modin/core/storage_formats/pandas/query_compiler.py:2267 `x.squeeze(axis=1).unique()` in one block column, made a frame numbered from
    zero by `_build_treereduce_func` (dataframe.py:2116-2119).  pandas' `unique` gives the first of equal cells.  A block without columns has
    no `unique`.  The label `0` of the new frame's column is not modelled: `new_columns` replaces it. -/
def Frame.uniqueKernel [DecidableEq K] (num : Nat → ι) (key : α → K) (b : Frame ι κ α) : Option (Frame ι κ α) :=
  if b.ncols = 1 then some ((b.pickRows ((duplicatedMarks .first (b.rows.map (·.map key))).map not)).ignoreIndex num true) else none

/-- modin/core/storage_formats/pandas/query_compiler.py:2261-2270: the branch of `unique` for one column -/
def LFrame.uniqueColumn [DecidableEq ι] [DecidableEq κ] [DecidableEq K] (cfg : Cfg) (num : Nat → ι) (key : α → K) (m : LFrame ι κ α) :
    Option (LFrame ι κ α) :=
  m.applyFullColumns cfg (fun b => b.uniqueKernel num key) none (some m.getColumns)

/-- modin/core/storage_formats/pandas/query_compiler.py:2231-2270 `unique` without `RangePartitioning` -/
def LFrame.unique [DecidableEq ι] [DecidableEq κ] [DecidableEq K] [DecidableEq D] (le : ι → ι → Bool) (cfg : Cfg) (dyn : Bool) (cpu : Nat)
    (known : Nat → Nat → Bool × Bool) (nan : α) (num : Nat → ι) (cell : ι → α) (indexName levelName : κ) (name : Option κ)
    (namesKnown : Bool) (key : α → K) (text : α → T) (digest : List T → D) (keep : DupKeep) (ignore : Bool)
    (subset : Option (List κ)) (m : LFrame ι κ α) : Option (LFrame ι κ α) :=
  if subset.isNone && ignore && decide (m.getColumns.length = 1) && decide (keep ≠ .none) then m.uniqueColumn cfg num key
  else m.baseUnique le cfg dyn cpu known nan num cell indexName levelName name namesKnown key text digest keep ignore subset

/-- modin/pandas/series.py:2341-2351 `Series.unique`: the cells of the new column -/
def LFrame.seriesUnique [DecidableEq ι] [DecidableEq κ] [DecidableEq K] [DecidableEq D] (le : ι → ι → Bool) (cfg : Cfg) (dyn : Bool)
    (cpu : Nat) (known : Nat → Nat → Bool × Bool) (nan : α) (num : Nat → ι) (cell : ι → α) (indexName levelName : κ)
    (name : Option κ) (namesKnown : Bool) (key : α → K) (text : α → T) (digest : List T → D) (m : LFrame ι κ α) : Option (List α) :=
  (m.unique le cfg dyn cpu known nan num cell indexName levelName name namesKnown key text digest .first true none).bind fun r =>
  (r.toPandas nan).map fun f => f.rows.flatten

/-- modin/pandas/base.py:1600-1624 `drop_duplicates`; `none`: an exception -/
def LFrame.dropDuplicates [DecidableEq ι] [DecidableEq κ] [DecidableEq K] [DecidableEq D] (le : ι → ι → Bool) (cfg : Cfg) (dyn : Bool)
    (cpu : Nat) (known : Nat → Nat → Bool × Bool) (nan : α) (num : Nat → ι) (cell : ι → α) (indexName levelName : κ)
    (name : Option κ) (namesKnown : Bool) (key : α → K) (text : α → T) (digest : List T → D) (keep : DupKeep) (ignore : Bool)
    (subset : Option (List κ)) (m : LFrame ι κ α) : Option (LFrame ι κ α) :=
  if checkSubset m.getColumns subset then
    m.unique le cfg dyn cpu known nan num cell indexName levelName name namesKnown key text digest keep ignore subset
  else none
