import Verif.Model.LocAssign
import Verif.Model.Relabel
import Verif.Pandas.LocGet
/-
`df.iloc[r, c]`, `df.loc[r, c]` and `df[key]` from the user's key to the object that is returned.
Models modin/pandas/indexing.py (`_iLocIndexer.__getitem__`, `_compute_lookup`, `_LocIndexer.__getitem__`, `_helper_for__getitem__`,
`_compute_ndim`, `_get_pandas_object_from_qc_view`), modin/core/storage_formats/base/query_compiler.py (`take_2d_labels`,
`get_positions_from_labels`, `columnarize`), modin/pandas/dataframe.py (`squeeze`, `_getitem`, `_getitem_column`),
modin/pandas/series.py (`squeeze`, `_reduce_dimension`) and modin/pandas/base.py (`__getitem__`, `_getitem_slice`).
Frames with rows and columns (an empty frame is handed to pandas) and without multi-level labels; slices go forwards, those of
`iloc` with step 1; masks are lists of booleans (a Series as mask is the subject of C51).
-/

variable {L α : Type}

/-- the object that is returned: a DataFrame, a Series (a query compiler of one column) or a value -/
inductive Located (L α : Type) where
  | frame (m : LFrame L L α)
  | series (m : LFrame L L α)
  | scalar (a : α)

/-- what the user sees of it: the pandas object it prints as -/
def Located.observe [DecidableEq L] (nan : α) : Located L α → Option (Selected L α)
  | .frame m => (m.toPandas nan).map .frame
  | .series m => (m.toPandas nan).bind fun f =>
    match f.columns with
    | [name] => some (.series name f.index f.rows.flatten)
    | _ => none
  | .scalar a => some (.scalar a)

/-! ### keys -/

/-- modin/pandas/indexing.py:1197-1235 `_compute_lookup` for one axis and 1102-1114: `slice(None)` becomes `None` -/
def IKey.readLookup (n : Nat) : IKey → Option (Option Positions)
  | .slice none none => some none
  | k => (k.lookup n).map some

/-- `RangeIndex(start, stop, step)` as an indexer: a range if the step is 1
    (modin/core/dataframe/pandas/dataframe/dataframe.py:1187-1192), and its positions otherwise -/
def rangePositions (start stop step : Nat) : Positions := if step = 1 then .range start stop else .array (stepRange start stop step)

/-- modin/core/storage_formats/base/query_compiler.py:4882-4953 `get_positions_from_labels` for one axis and 4828-4841.
    `minus x s` is `x - s` for labels that are numbers and `x` for others (lines 4894-4899: one step is taken off the end, also off
    the end of a slice).  A `RangeIndex` is taken for positions. -/
def LocKey.readLookup [DecidableEq L] (P : LabelOps L) (minus : L → Nat → L) (labels : List L) : LocKey L → Option (Option Positions)
  | .key .all => some none
  | .key k => (k.lookup labels).map some
  | .slice a b s =>
    if a = none ∧ b = none ∧ s = none then some none
    else (P.slicer labels a (b.map fun x => minus x (s.getD 0))).map fun e => some (rangePositions e.1 e.2 (s.getD 1))
  | .range a b s =>
    (P.slicer labels (some (P.ofNat a)) (some (minus (P.ofNat b) s))).map fun e => some (rangePositions e.1 e.2 s)
  | .rangeIndex a b s => some (some (rangePositions a b s))

/-- `is_scalar(loc)` -/
def LocKey.isScalar : LocKey L → Bool
  | .key k => k.isScalar
  | _ => false

/-! ### the object -/

/-- modin/pandas/series.py:2601-2614 `_reduce_dimension`: `to_pandas().squeeze()`, which is a value when there is one cell.  (`none`
    otherwise: this is not reached.) -/
def LFrame.onlyCell [DecidableEq L] (nan : α) (m : LFrame L L α) : Option α :=
  (m.toPandas nan).bind fun f =>
  match f.rows with
  | [[a]] => some a
  | _ => none

/-- modin/core/storage_formats/base/query_compiler.py:1879-1900 `columnarize` without a hint; `unnamed` is
    `MODIN_UNNAMED_SERIES_LABEL` -/
def LFrame.columnarize [DecidableEq L] (unnamed : L) (m : LFrame L L α) : Option (LFrame L L α) :=
  if m.getColumns.length ≠ 1 ∨ (m.getIndex.length = 1 ∧ m.getIndex.head? = some unnamed) then m.transpose else some m

/-- modin/pandas/series.py:2099-2109 `Series.squeeze` -/
def LFrame.seriesSqueeze [DecidableEq L] (nan : α) (m : LFrame L L α) : Option (Located L α) :=
  if m.getIndex.length = 1 then (m.onlyCell nan).map .scalar else m.copy.map .series

/-- modin/pandas/dataframe.py:2116-2135 `DataFrame.squeeze(axis)` -/
def LFrame.squeeze [DecidableEq L] (nan : α) (unnamed : L) (axis : Option Nat) (m : LFrame L L α) : Option (Located L α) :=
  if axis = none ∧ (m.getColumns.length = 1 ∨ m.getIndex.length = 1) then
    (m.columnarize unnamed).bind fun s => s.seriesSqueeze nan
  else if axis = some 1 ∧ m.getColumns.length = 1 then some (.series m)
  else if axis = some 0 ∧ m.getIndex.length = 1 then m.transpose.map .series
  else m.copy.map .frame

/-- modin/pandas/indexing.py:254-278 `_compute_ndim` and 449-484 `_get_pandas_object_from_qc_view` -/
def LFrame.shaped [DecidableEq L] (nan : α) (unnamed : L) (rowScalar colScalar : Bool) (m : LFrame L L α) : Option (Located L α) :=
  if !rowScalar && !colScalar then some (.frame m)
  else if rowScalar && colScalar then m.squeeze nan unnamed none
  else m.squeeze nan unnamed (if colScalar then some 1 else some 0)

/-! ### reading -/

/-- modin/pandas/indexing.py:1089-1128 `df.iloc[r, c]` -/
def LFrame.ilocAt [DecidableEq L] (cfg : Cfg) (known : Nat → Nat → Bool × Bool) (nan : α) (unnamed : L) (r c : IKey)
    (m : LFrame L L α) : Option (Located L α) :=
  (r.readLookup m.getIndex.length).bind fun rp => (c.readLookup m.getColumns.length).bind fun cp =>
  (m.take2d cfg known rp cp).bind fun v => v.shaped nan unnamed r.isScalar c.isScalar

/-- modin/pandas/indexing.py:728-748 and 770-808 `df.loc[r, c]` -/
def LFrame.locAt [DecidableEq L] (P : LabelOps L) (minus : L → Nat → L) (cfg : Cfg) (known : Nat → Nat → Bool × Bool) (nan : α)
    (unnamed : L) (r c : LocKey L) (m : LFrame L L α) : Option (Located L α) :=
  (r.readLookup P minus m.getIndex).bind fun rp => (c.readLookup P minus m.getColumns).bind fun cp =>
  (m.take2d cfg known rp cp).bind fun v => v.shaped nan unnamed r.isScalar c.isScalar

/-- modin/pandas/indexing.py:841-850 `df.loc[key]`, `key` a `pandas.Index`: the key becomes the row labels -/
def LFrame.locIndex [DecidableEq L] (P : LabelOps L) (minus : L → Nat → L) (cfg : Cfg) (known : Nat → Nat → Bool × Bool) (nan : α)
    (unnamed : L) (key : List L) (m : LFrame L L α) : Option (Located L α) :=
  (m.locAt P minus cfg known nan unnamed (.key (.list key)) (.key .all)).bind fun r =>
  match r with
  | .frame v => (v.setIndex key).map .frame
  | r => some r

/-- modin/pandas/utils.py:181-188 `is_full_grab_slice(key, sequence_len)` for a slice without step -/
def fullGrab (n : Nat) (start stop : Option Int) : Bool :=
  (match start with | none => true | some a => a == 0) && (match stop with | none => true | some b => decide ((n : Int) ≤ b))

/-- `df[key]`: modin/pandas/base.py:4001-4011 and 4129-4135 for a slice; modin/pandas/dataframe.py:3300-3322 and 2628-2632 for a column,
    with modin/core/storage_formats/pandas/query_compiler.py:3096-3122 for a list of columns (a label that is not there raises) -/
def LFrame.itemAt [DecidableEq L] (cfg : Cfg) (known : Nat → Nat → Bool × Bool) (nan : α) (unnamed : L) (key : ItemKey L)
    (m : LFrame L L α) : Option (Located L α) :=
  match key with
  | .column x =>
    if x ∈ m.getColumns then (m.takeColLabels cfg known [x]).bind fun v => v.squeeze nan unnamed (some 1) else none
  | .columns xs =>
    if xs.all (m.getColumns.contains ·) then (m.takeColLabels cfg known xs).map .frame else none
  | .rows a b =>
    if fullGrab m.getIndex.length a b then m.copy.map .frame
    else m.ilocAt cfg known nan unnamed (.slice a b) (.slice none none)
