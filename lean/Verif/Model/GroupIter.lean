import Verif.Model.ValueCounts
import Verif.Pandas.GroupIter
/-
Going through the groups of a frame: `for k, g in df.groupby(...)`, `groups`, `indices`, `len`.
Models modin/pandas/groupby.py (`_iter`, `_compute_index_grouped`, `groups`, `indices`, `__len__`, `ngroups`, `__getitem__`).
A key is the list of the values of the key columns in a row.  Keys that pandas can sort.  Not modelled: `axis=1`, `level`, categorical keys,
functions, groupers and lists with data from other frames.
-/

variable {ι κ α K : Type}

/-- what a frame is grouped by: two or more of its own columns, or one column (its own, or a series), which is kept as a frame -/
inductive GroupSource (ι κ α : Type) where
  | own (labels : List κ)
  | one (data : MFrame ι κ α)

/-- modin/pandas/groupby.py:1780-1800 and 1802-1803: the keys of the rows.  One column is made an array by `squeeze().values`: a frame of one
    row becomes a scalar, which has no `values` (`none`). -/
def GroupSource.keys [DecidableEq ι] [DecidableEq κ] (cfg : Cfg) (known : Nat → Nat → Bool × Bool) (nan : α) (m : MFrame ι κ α) :
    GroupSource ι κ α → Option (List (List α))
  | .own labels => (takeLabels cfg known labels m).bind fun k => (k.toPandas nan).map (·.rows)
  | .one b => (b.toPandas nan).bind fun f => if f.nrows = 1 then none else some f.rows

/-- `pandas.Index.groupby(keys)` of a `RangeIndex` (modin/pandas/groupby.py:1816-1828), or pandas' `groupby(by, dropna=dropna).indices`
    (1800): the groups, sorted (`sort` is not passed on), with the positions of their rows -/
def groupIndices [DecidableEq K] (le : K → K → Bool) (dropped : K → Bool) (keys : List K) : List (K × List Nat) :=
  ((Grouping.mk le true dropped).groups keys).map fun k => (k, (List.range keys.length).filter fun p => keys[p]? == some k)

/-- modin/pandas/groupby.py:571-573, 1816-1828 `groups`: the labels in place of the positions -/
def groupLabelsOf [DecidableEq ι] [DecidableEq κ] [DecidableEq α] (cfg : Cfg) (known : Nat → Nat → Bool × Bool) (nan : α)
    (le : List α → List α → Bool) (dropped : List α → Bool) (src : GroupSource ι κ α) (m : MFrame ι κ α) : Option (List (List α × List ι)) :=
  (src.keys cfg known nan m).map fun keys => (groupIndices le dropped keys).map fun e => (e.1, e.2.filterMap (m.getIndex[·]?))

/-- modin/pandas/groupby.py:1293-1294 `len(df.groupby(...))` and `ngroups` -/
def groupCountOf [DecidableEq ι] [DecidableEq κ] [DecidableEq α] (cfg : Cfg) (known : Nat → Nat → Bool × Bool) (nan : α)
    (le : List α → List α → Bool) (dropped : List α → Bool) (src : GroupSource ι κ α) (m : MFrame ι κ α) : Option Nat :=
  (src.keys cfg known nan m).map fun keys => (groupIndices le dropped keys).length

/-- modin/pandas/groupby.py:1698-1723 `_iter`: `m` is the frame grouped, the rows of a group are taken by position
    (modin/core/storage_formats/pandas/query_compiler.py:3124-3127) -/
def groupIter [DecidableEq ι] [DecidableEq κ] [DecidableEq α] (cfg : Cfg) (known : Nat → Nat → Bool × Bool) (nan : α)
    (le : List α → List α → Bool) (dropped : List α → Bool) (sort : Bool) (src : GroupSource ι κ α) (m : MFrame ι κ α) :
    Option (List (List α × MFrame ι κ α)) :=
  (src.keys cfg known nan m).bind fun keys =>
  let indices := groupIndices le dropped keys
  (if sort then sortBy le (indices.map (·.1)) else indices.map (·.1)).mapM fun k =>
    (indices.find? fun e => decide (e.1 = k)).bind fun e => (take2d cfg known m (some (.array e.2)) none).map fun g => (k, g)

/-- modin/pandas/groupby.py:988-1012 `df.groupby(by)[key]` with a list `key`: the key columns of the frame are kept in front -/
def groupSelect [DecidableEq ι] [DecidableEq κ] (cfg : Cfg) (known : Nat → Nat → Bool × Bool) (byLabels key : List κ) (m : MFrame ι κ α) :
    Option (MFrame ι κ α) :=
  takeLabels cfg known ((firsts (byLabels ++ key)).filter fun l => decide (l ∈ m.getColumns)) m
