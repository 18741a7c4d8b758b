import Verif.Model.Insert
import Verif.Model.Assign
import Verif.Model.Mask
import Verif.Pandas.LocAssign
/-
`df.iloc[r, c] = item` and `df.loc[r, c] = item` from the user's key to the blocks.
Models modin/pandas/indexing.py (`_iLocIndexer.__setitem__`, `_compute_lookup`, `_determine_setitem_axis`,
`_setitem_positional`, `_LocIndexer._set_item_existing_loc`), modin/pandas/dataframe.py (`__setitem__` with an array),
modin/core/storage_formats/base/query_compiler.py (`get_positions_from_labels`),
modin/core/storage_formats/pandas/query_compiler.py (`_setitem` along `axis=1`, `_wrap_column_data`) and
modin/core/dataframe/pandas/partitioning/partition_manager.py (`apply_func_to_select_indices`,
`apply_func_to_select_indices_along_full_axis`, both with `axis=1`).
Frames with rows and columns (an empty frame is handed to pandas).  The item is a scalar or a NumPy array; slices have step 1;
enlarging by a missing label is not modelled here.
-/

variable {L α : Type}

/-! ### specification of the item -/

/-- The value an item holds for the `i`-th addressed row and the `j`-th addressed column out of `c`: an array of one dimension
    goes down a single column, and otherwise along a single row. -/
def Item.at (c : Nat) : Item α → Nat → Nat → Option α
  | .scalar a, _, _ => some a
  | .arr1 xs, i, j => if c = 1 then xs[i]? else xs[j]?
  | .arr2 M, i, j => entry M i j

/-- The item has the shape of a selection of `r` rows and `c` columns: a scalar, a matrix of `r` rows of length `c`, or an array
    of one dimension for a single column or a single row. -/
def Item.Matches (r c : Nat) : Item α → Prop
  | .scalar _ => True
  | .arr1 xs => (c = 1 ∧ xs.length = r) ∨ (r = 1 ∧ xs.length = c)
  | .arr2 M => M.length = r ∧ ∀ x ∈ M, x.length = c

/-! ### keys -/

/-- modin/pandas/indexing.py:1216-1231: an array without negative entries is taken as it is, whatever the length of the axis -/
def lookupInts (n : Nat) (is : List Int) : Option Positions :=
  if is.all (fun i => decide (0 ≤ i)) then some (.array (is.map Int.toNat)) else (is.mapM (axisPos n)).map .array

/-- modin/pandas/indexing.py:1197-1235 `_compute_lookup` for one axis of length `n`.  The length of a boolean list is not
    checked. -/
def IKey.lookup (n : Nat) : IKey → Option Positions
  | .int i => lookupInts n [i]
  | .list is => lookupInts n is
  | .mask bs => some (.array (keepWhere bs (List.range bs.length)))
  | .slice a b => some (.range ((a.map (sliceBound n)).getD 0) ((b.map (sliceBound n)).getD n))

/-- `is_scalar(loc)` -/
def IKey.isScalar : IKey → Bool
  | .int _ => true
  | _ => false

/-- modin/core/storage_formats/base/query_compiler.py:4880-4953 `get_positions_from_labels` for one axis (`slice(None)` becomes
    a range in modin/pandas/indexing.py:505-508) -/
def LKey.lookup [DecidableEq L] (labels : List L) : LKey L → Option Positions
  | .label x => ((getIndexerFor labels [x]).mapM id).map .array
  | .list xs => ((getIndexerFor labels xs).mapM id).map .array
  | .mask bs => some (.array (keepWhere bs (List.range bs.length)))
  | .all => some (.range 0 labels.length)

def LKey.isScalar : LKey L → Bool
  | .label _ => true
  | _ => false

/-! ### which way an assignment goes -/

/-- along which axis a whole line is assigned, or both -/
inductive SetAxis where
  | both
  | column
  | row
deriving DecidableEq, Repr

/-- modin/pandas/indexing.py:532-585 `_determine_setitem_axis` of a frame of `n` rows and `c` columns -/
def setitemAxis (n c : Nat) (rowScalar colScalar : Bool) (rows cols : Positions) : SetAxis :=
  if n = 1 ∧ c = 1 then
    if rowScalar == colScalar then .both else if rowScalar then .row else .column
  else if cols.count = 1 ∧ rows.count = 1 then .both
  else if rows.count = n ∧ cols.count = 1 then .column
  else if cols.count = c ∧ rows.count = 1 then .row
  else .both

/-! ### a whole column -/

/-- `value.T.reshape(-1)[:n]`, modin/pandas/dataframe.py:2853-2866.  A matrix is read column by column; `none`: a scalar -/
def Item.asColumn (n : Nat) : Item α → Option (List α)
  | .scalar _ => none
  | .arr1 xs => some (xs.take n)
  | .arr2 M => some (((List.range (M.headD []).length).flatMap fun j => M.filterMap (·[j]?)).take n)

/-- modin/pandas/dataframe.py:2853-2870 `df[key] = item` for an existing column, with
    modin/core/storage_formats/pandas/query_compiler.py:3440-3459 `_wrap_column_data`: an array becomes a frame of one column
    with the row labels of `self`, so it must have their number. -/
def LFrame.setColumnItem [DecidableEq L] (cfg : Cfg) (nan : α) (known : Nat → Nat → Bool × Bool) (knownG : Grid L L α → Bool)
    (unnamed key : L) (item : Item α) (m : LFrame L L α) : Option (LFrame L L α) :=
  match item, item.asColumn m.getIndex.length with
  | .scalar v, _ => (m.setItem cfg nan known knownG key (.scalar v)).map (·.1)
  | _, some vals =>
    if vals.length = m.getIndex.length then
      (fromPandas cfg (Frame.ofColumn m.getIndex unnamed vals)).bind fun c =>
      (m.setItem cfg nan known knownG key (.column ⟨c, false, false⟩)).map (·.1)
    else none
  | _, none => none

/-! ### a whole row -/

/-- modin/core/storage_formats/pandas/query_compiler.py:3184-3197 `setitem_builder` with `axis=1`: pandas'
    `df.iloc[internal_indices] = value` in one block or one row partition.  `none`: an exception.  (A one-dimensional array of
    length 1 is broadcast by pandas for some dtypes; that is not modelled.) -/
def setRows (item : Item α) (internal : BlockSel) (b : Frame L L α) : Option (Frame L L α) :=
  let ps := internal.positions b.nrows
  match item with
  | .scalar v => some (b.assign ps (List.range b.ncols) fun _ _ => some v)
  | .arr1 xs => if xs.length = b.ncols then some (b.assign ps (List.range b.ncols) fun _ j => xs[j]?) else none
  | .arr2 [xs] => if xs.length = b.ncols then some (b.assign ps (List.range b.ncols) fun _ j => xs[j]?) else none
  | .arr2 _ => none

/-- modin/core/dataframe/pandas/partitioning/partition_manager.py:1454-1497
    `apply_func_to_select_indices(1, partitions, func, indices, keep_remaining=True)` -/
def applySelectedRows (func : BlockSel → Frame L L α → Option (Frame L L α)) (d : List (Nat × BlockSel)) (g : Grid L L α) :
    Option (Grid L L α) :=
  if g.all (·.isEmpty) then some [[]]
  else (List.zipIdx g).mapM fun (e : List (Frame L L α) × Nat) =>
    match d.find? (fun (s : Nat × BlockSel) => s.1 == e.2) with
    | none => some e.1
    | some s => e.1.mapM (func s.2)

/-- modin/core/dataframe/pandas/partitioning/partition_manager.py:1533-1614
    `apply_func_to_select_indices_along_full_axis(1, partitions, func, indices, keep_remaining=True)` -/
def applyRowPartitions [DecidableEq L] (cfg : Cfg) (func : BlockSel → Frame L L α → Option (Frame L L α)) (d : List (Nat × BlockSel))
    (g : Grid L L α) : Option (Grid L L α) :=
  if g.all (·.isEmpty) then some [[]]
  else (List.zipIdx g).mapM fun (e : List (Frame L L α) × Nat) =>
    match d.find? (fun (s : Nat × BlockSel) => s.1 == e.2) with
    | none => some e.1
    | some s => deployAxisFunc false (func s.2) e.1.length true e.1 cfg.minCol none false

/-- modin/core/storage_formats/pandas/query_compiler.py:3143-3241 `_setitem(axis=1, key, value)` of a scalar or an array, with
    modin/core/dataframe/pandas/dataframe/dataframe.py:3076-3107 and 3168-3201.  The rows are found by their label. -/
def MFrame.setRow [DecidableEq L] (cfg : Cfg) (key : L) (item : Item α) (m : MFrame L L α) : Option (MFrame L L α) :=
  let d := blockDict m.getRowLens ((getIndexerFor m.getIndex [key]).filterMap id)
  match item with
  | .scalar _ =>
    (applySelectedRows (setRows item) d m.parts).bind fun g =>
    MFrame.mk' { parts := g, index := some m.getIndex, columns := some m.getColumns, rowLens := some m.getRowLens,
                 colWidths := some m.getColWidths }
  | _ =>
    (applyRowPartitions cfg (setRows item) d m.parts).bind fun g =>
    MFrame.mk' { parts := g, index := some m.getIndex, columns := some m.getColumns, rowLens := none, colWidths := none }

/-! ### the assignment -/

/-- modin/pandas/indexing.py:486-530 `_setitem_positional`.  `self.df.columns[col_lookup][0]` and `self.qc.index[row_lookup[0]]`
    raise out of bounds. -/
def LFrame.setPositional [DecidableEq L] (cfg : Cfg) (nan : α) (known : Nat → Nat → Bool × Bool) (knownG : Grid L L α → Bool)
    (unnamed : L) (axis : SetAxis) (rows cols : Positions) (item : Item α) (m : LFrame L L α) : Option (LFrame L L α) :=
  match axis with
  | .column => ((cols.toList.head?).bind (m.getColumns[·]?)).bind fun key =>
      m.setColumnItem cfg nan known knownG unnamed key item
  | .row => ((rows.toList.head?).bind (m.getIndex[·]?)).bind fun key => m.operation (fun m1 => m1.setRow cfg key item)
  | .both => m.operation (fun m1 => writeItems m1 rows cols item)

/-- modin/pandas/indexing.py:1130-1170 `df.iloc[r, c] = item` on a frame with rows and columns -/
def LFrame.ilocSet [DecidableEq L] (cfg : Cfg) (nan : α) (known : Nat → Nat → Bool × Bool) (knownG : Grid L L α → Bool)
    (unnamed : L) (r c : IKey) (item : Item α) (m : LFrame L L α) : Option (LFrame L L α) :=
  (r.lookup m.getIndex.length).bind fun rows =>
  (c.lookup m.getColumns.length).bind fun cols =>
  m.setPositional cfg nan known knownG unnamed
    (setitemAxis m.getIndex.length m.getColumns.length r.isScalar c.isScalar rows cols) rows cols item

/-- modin/pandas/indexing.py:936-974 `_set_item_existing_loc`.  Line 962-966: an array is first restricted to the rows a boolean
    list marks (`item.take`, on the flat data). -/
def LFrame.locSet [DecidableEq L] (cfg : Cfg) (nan : α) (known : Nat → Nat → Bool × Bool) (knownG : Grid L L α → Bool)
    (unnamed : L) (r c : LKey L) (item : Item α) (m : LFrame L L α) : Option (LFrame L L α) :=
  (r.lookup m.getIndex).bind fun rows =>
  (c.lookup m.getColumns).bind fun cols =>
  (match r, item with
    | .mask _, .arr1 xs => (checkedTake xs rows.toList).map Item.arr1
    | .mask _, .arr2 M => (checkedTake M.flatten rows.toList).map Item.arr1
    | _, it => some it).bind fun item =>
  m.setPositional cfg nan known knownG unnamed
    (setitemAxis m.getIndex.length m.getColumns.length r.isScalar c.isScalar rows cols) rows cols item
