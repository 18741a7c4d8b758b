import Verif.Model.Duplicated
import Verif.Model.LocAssign
import Verif.Pandas.Reindex
/-
`reindex`, and enlarging a frame through `loc`.
Models modin/pandas/base.py (`reindex`), modin/core/storage_formats/pandas/query_compiler.py (`reindex`),
modin/core/dataframe/pandas/dataframe/dataframe.py (`apply_full_axis`) and modin/pandas/indexing.py (`_LocIndexer.__setitem__`,
`_check_missing_loc`, `_setitem_with_new_columns`).
`method`, `limit`, `tolerance`, `level` and MultiIndex are not modelled; dtypes: see Verif/Model/Dtypes.lean.
-/

variable {L α ι κ ι' κ' β : Type}

/-- modin/core/dataframe/pandas/dataframe/dataframe.py:3483-3676 `broadcast_apply_full_axis` with `axis=1`, `other=None`,
    `keep_partitioning=True`, `num_splits=None` and `sync_labels=True`: the labels given are written into the blocks later. -/
def LFrame.applyFullLines [DecidableEq ι] [DecidableEq κ] (cfg : Cfg) (func : Frame ι κ α → Option (Frame ι' κ' β))
    (newIndex : Option (List ι')) (newColumns : Option (List κ')) (m : LFrame ι κ α) : Option (LFrame ι' κ' β) :=
  m.synced.bind fun m1 =>
  (mapAxisPartitions cfg false func m1.parts true none none).bind fun g =>
  (MFrame.mk' { parts := g, index := newIndex, columns := newColumns,
                rowLens := newIndex.bind fun i => if g.length = 1 then some [i.length] else none,
                colWidths := newColumns.bind fun c => m1.colWidths.bind fun w =>
                  if c.length = w.sum ∧ w.all (· != 0) then some w else none }).map fun r =>
  { r with defIndex := newIndex.isSome, defColumns := newColumns.isSome }

/-- `Index.reindex(labels)` succeeds: pandas raises for repeated labels, unless nothing changes -/
def canReindex [DecidableEq L] (labels J : List L) : Bool := decide (labels = J) || decide labels.Nodup

/-- modin/core/storage_formats/pandas/query_compiler.py:713-739 `reindex(axis=0, labels)`: pandas' own `reindex` in every column
    partition -/
def LFrame.reindexRowsTo [DecidableEq ι] [DecidableEq κ] (cfg : Cfg) (fill : α) (J : List ι) (m : LFrame ι κ α) :
    Option (LFrame ι κ α) :=
  if canReindex m.getIndex J then m.applyFullColumns cfg (fun b => b.reindexIndex fill J) (some J) (some m.getColumns) else none

/-- modin/core/storage_formats/pandas/query_compiler.py:713-739 `reindex(axis=1, labels)` -/
def LFrame.reindexColsTo [DecidableEq L] (cfg : Cfg) (fill : α) (K : List L) (m : LFrame L L α) : Option (LFrame L L α) :=
  if canReindex m.getColumns K then m.applyFullLines cfg (fun b => b.reindexColumns fill K) (some m.getIndex) (some K) else none

/-- labels given by the user: a `pandas.Index` or some other list -/
structure LabelArg (L : Type) where
  isIndex : Bool
  labels : List L
deriving DecidableEq, Repr

/-- modin/pandas/base.py:2533-2539: the `index` argument of `reindex` -/
def LFrame.reindexIndexArg [DecidableEq L] (cfg : Cfg) (fill : α) (index : Option (LabelArg L)) (m : LFrame L L α) :
    Option (LFrame L L α) :=
  match index with
  | none => some m
  | some J => if J.isIndex ∧ J.labels = m.getIndex then some m else m.reindexRowsTo cfg fill J.labels

/-- modin/pandas/base.py:2522-2550 `reindex`.  Line 2542 asks whether the `index` argument is a `pandas.Index` and then calls
    `columns.equals`, which another list does not have. -/
def LFrame.reindex [DecidableEq L] (cfg : Cfg) (fill : α) (index columns : Option (LabelArg L)) (m : LFrame L L α) :
    Option (LFrame L L α) :=
  (m.reindexIndexArg cfg fill index).bind fun m1 =>
  match columns with
  | none => some m1
  | some K =>
    if (index.map LabelArg.isIndex).getD false then
      if K.isIndex then (if K.labels = m.getColumns then some m1 else m1.reindexColsTo cfg fill K.labels) else none
    else m1.reindexColsTo cfg fill K.labels

/-! ### enlarging -/

/-- `_compute_ndim`, modin/pandas/indexing.py:254-280 -/
def locNdim (r c : LKey L) : Nat :=
  if r.isScalar && c.isScalar then 0 else if r.isScalar || c.isScalar then 1 else 2

/-- modin/pandas/indexing.py:1007-1014: whether the columns key names a column that does not exist -/
def columnsMissing [DecidableEq L] (columns : List L) : LKey L → Option Nat
  | .list ys => if ys.any (fun y => decide (y ∉ columns)) then some 1 else none
  | .label y => if y ∈ columns then none else some 1
  | _ => none

/-- modin/pandas/indexing.py:976-1015 `_check_missing_loc`: `0` if a row is to be added, `1` for columns, `none` for neither; the
    outer `none` is a `KeyError`.  Lists of labels are Python lists, masks are NumPy arrays.  Lines 992-1000 and 1050: a list of
    rows of which none exists, or of which two or more are missing, is an error. -/
def checkMissing [DecidableEq L] (index columns : List L) (r c : LKey L) : Option (Option Nat) :=
  match r with
  | .label x => some (if x ∈ index then none else some 0)
  | .list xs =>
    if xs.all (fun x => decide (x ∉ index)) then none
    else if (xs.filter (fun x => decide (x ∉ index))).eraseDups.length > 1 then none else some (columnsMissing columns c)
  | _ => some (columnsMissing columns c)

/-- modin/pandas/indexing.py:881-883: the columns named, a single label as a list of one -/
def LKey.named : LKey L → List L
  | .label y => [y]
  | .list ys => ys
  | _ => []

/-- modin/pandas/indexing.py:912-925: the item agrees with the number `n` of columns named -/
def itemFits (n : Nat) : Item α → Bool
  | .scalar _ => true
  | .arr1 _ => decide (n = 1)
  | .arr2 M => decide ((M.headD []).length = n)

/-- modin/pandas/indexing.py:852-898 `df.loc[r, c] = item` on a frame with rows and columns, with 900-934
    `_setitem_with_new_columns`.  `zero` is the literal 0 of line 892, `nan` the missing value. -/
def LFrame.locSetAny [DecidableEq L] (cfg : Cfg) (zero nan : α) (known : Nat → Nat → Bool × Bool) (knownG : Grid L L α → Bool)
    (unnamed : L) (r c : LKey L) (item : Item α) (m : LFrame L L α) : Option (LFrame L L α) :=
  (checkMissing m.getIndex m.getColumns r c).bind fun axis =>
  if locNdim r c ≥ 1 then
    match axis with
    | none => m.locSet cfg nan known knownG unnamed r c item
    | some 0 =>
      match r with
      | .label x =>
        (m.reindexRowsTo cfg zero (m.getIndex ++ [x])).bind fun m1 => m1.locSet cfg nan known knownG unnamed r c item
      | _ => m.locSet cfg nan known knownG unnamed r c item
    | some _ =>
      if itemFits c.named.length item then
        (m.reindexColsTo cfg nan (m.getColumns ++ c.named.filter (fun y => decide (y ∉ m.getColumns)))).bind fun m1 =>
        m1.locSet cfg nan known knownG unnamed r (.list c.named) item
      else none
  else m.locSet cfg nan known knownG unnamed r c item
