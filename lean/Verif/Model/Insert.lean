import Verif.Model.Concat
import Verif.Model.Labels
import Verif.Pandas.Insert
/-
Inserting and assigning one column.
Models modin/pandas/dataframe.py (`insert`, `__setitem__` with one column label),
modin/core/storage_formats/pandas/query_compiler.py (`insert`, `setitem`, `_setitem`),
modin/core/storage_formats/base/query_compiler.py (`insert_item`),
modin/core/dataframe/pandas/dataframe/dataframe.py (`apply_full_axis_select_indices`, `apply_select_indices`) and
modin/core/dataframe/pandas/partitioning/partition_manager.py (`apply_func_to_select_indices_along_full_axis`,
`apply_func_to_select_indices`).
Frames with rows and columns: inserting into a frame without rows or without columns builds a new frame in
modin/pandas/dataframe.py:1118-1139 (and 2752-2759) and is not modelled.  dtypes: see Verif/Model/Dtypes.lean.
-/

variable {L α : Type}

/-- modin/core/storage_formats/pandas/query_compiler.py:3400-3414 the inner `insert`: pandas' `df.insert` on one column
    partition, without `allow_duplicates`: it raises if the partition has a column of that name. -/
def insertBlock [DecidableEq L] (name : L) (v : α) (internal : BlockSel) (b : Frame L L α) : Option (Frame L L α) :=
  match internal with
  | .list (i :: _) => if name ∈ b.columns then none else some (b.insertColumn i name (List.replicate b.index.length v))
  | _ => none

/-- modin/core/dataframe/pandas/partitioning/partition_manager.py:1533-1614
    `apply_func_to_select_indices_along_full_axis(0, partitions, func, indices, keep_remaining=True)` -/
def applyColumnBands [DecidableEq L] (cfg : Cfg) (func : BlockSel → Frame L L α → Option (Frame L L α)) (d : List (Nat × BlockSel))
    (g : Grid L L α) : Option (Grid L L α) :=
  if g.all (·.isEmpty) then some [[]]
  else ((List.zipIdx (colBlocks g)).mapM fun (e : List (Frame L L α) × Nat) =>
    match d.find? (fun (s : Nat × BlockSel) => s.1 == e.2) with
    | none => some e.1
    | some s => deployAxisFunc true (func s.2) e.1.length true e.1 cfg.minRow none false).map fun bs => colBlocks bs

/-- modin/core/storage_formats/pandas/query_compiler.py:3416-3438 `insert` of a scalar, with
    modin/core/dataframe/pandas/dataframe/dataframe.py:3076-3107. -/
def MFrame.insertScalar [DecidableEq L] (cfg : Cfg) (loc : Nat) (name : L) (v : α) (m : MFrame L L α) : Option (MFrame L L α) :=
  (applyColumnBands cfg (insertBlock name v) (blockDict m.getColWidths [loc]) m.parts).bind fun g =>
  MFrame.mk' { parts := g, index := some m.getIndex, columns := some (insertAt m.getColumns loc name), rowLens := none,
               colWidths := none }

/-- modin/core/dataframe/pandas/dataframe/dataframe.py:3952-4085 `concat` with its decorator: pending labels of all frames
    are written into their blocks first. -/
def LFrame.concatCols [DecidableEq L] (P : JoinOps L) (cfg : Cfg) (nan : α) (known : Grid L L α → Bool)
    (self : LFrame L L α) (others : List (LFrame L L α)) : Option (LFrame L L α) :=
  self.synced.bind fun s => (others.mapM LFrame.synced).bind fun os =>
  (_root_.concatCols P cfg nan known s.toMFrame (os.map (·.toMFrame))).map fun r => { r with defIndex := false, defColumns := false }

/-- modin/core/storage_formats/base/query_compiler.py:5009-5016 `mask` -/
def LFrame.maskColumns [DecidableEq L] (cfg : Cfg) (known : Nat → Nat → Bool × Bool) (m : LFrame L L α) (ps : List Nat) :
    Option (LFrame L L α) :=
  if ps.length = m.getColumns.length then some m else m.take2d cfg known none (some (.array ps))

/-- modin/core/storage_formats/base/query_compiler.py:4982-5024 `insert_item` for columns.  `P` is the way of joining row
    labels (`how`). -/
def LFrame.insertItem [DecidableEq L] (P : JoinOps L) (cfg : Cfg) (nan : α) (known : Nat → Nat → Bool × Bool)
    (knownG : Grid L L α → Bool) (loc : Nat) (value : LFrame L L α) (replace : Bool) (m : LFrame L L α) : Option (LFrame L L α) :=
  let n := m.getColumns.length
  if loc < n then
    (m.maskColumns cfg known (List.range loc)).bind fun first =>
    let second := if replace then loc + 1 else loc
    (m.maskColumns cfg known (List.range' second (n - second))).bind fun second =>
    first.concatCols P cfg nan knownG [value, second]
  else m.concatCols P cfg nan knownG [value]

/-- `how=None`: the row labels of the first frame are kept.  (`merge` and `join2` are not used then, see
    modin/core/dataframe/pandas/dataframe/dataframe.py:2029-2060.) -/
def keepFirst (L : Type) [DecidableEq L] : JoinOps L :=
  { first := true
    merge := fun a _ => a
    join2 := fun a b => (a, (List.range a.length).map some,
      if b = a then (List.range a.length).map some else a.map fun x => b.findIdx? (· == x)) }

/-- A value as it reaches the query compiler: a scalar, or a frame of one column.  A list becomes a column with the row
    labels of the frame it is written to (query_compiler.py:3440-3459 `_wrap_column_data`). -/
inductive MColValue (L α : Type) where
  | scalar (v : α)
  | column (c : LFrame L L α)

/-- modin/core/storage_formats/pandas/query_compiler.py:3394-3438 `insert`.  The second component is the value after the call:
    its column is renamed in place (line 3397). -/
def LFrame.insertCompiled [DecidableEq L] (cfg : Cfg) (nan : α) (known : Nat → Nat → Bool × Bool) (knownG : Grid L L α → Bool)
    (loc : Nat) (name : L) (value : MColValue L α) (m : LFrame L L α) : Option (LFrame L L α × MColValue L α) :=
  match value with
  | .column c =>
    (c.setColumns [name]).bind fun c' =>
    (LFrame.insertItem (keepFirst L) cfg nan known knownG loc c' false m).map fun r => (r, .column c')
  | .scalar v => (m.operation (fun m1 => m1.insertScalar cfg loc name v)).map fun r => (r, .scalar v)

/-- modin/pandas/dataframe.py:1140-1164 `insert` on a frame with rows and columns, `loc ≥ 0` -/
def LFrame.insert [DecidableEq L] (cfg : Cfg) (nan : α) (known : Nat → Nat → Bool × Bool) (knownG : Grid L L α → Bool)
    (dups : Bool) (loc : Nat) (name : L) (value : MColValue L α) (m : LFrame L L α) : Option (LFrame L L α × MColValue L α) :=
  if !dups && m.getColumns.contains name then none
  else if loc > m.getColumns.length then none
  else m.insertCompiled cfg nan known knownG loc name value

/-- modin/core/storage_formats/pandas/query_compiler.py:3168-3197 `setitem_builder` for columns -/
def setBlock [DecidableEq L] (v : α) (internal : BlockSel) (b : Frame L L α) : Frame L L α :=
  let labels := takeList b.columns (internal.positions b.columns.length)
  { b with rows := b.rows.map fun r => List.zipWith (fun c x => if c ∈ labels then v else x) b.columns r }

/-- modin/core/dataframe/pandas/partitioning/partition_manager.py:1454-1497
    `apply_func_to_select_indices(0, partitions, func, indices, keep_remaining=True)` -/
def applySelectedColumns (func : BlockSel → Frame L L α → Frame L L α) (d : List (Nat × BlockSel)) (g : Grid L L α) : Grid L L α :=
  if g.all (·.isEmpty) then [[]]
  else colBlocks ((List.zipIdx (colBlocks g)).map fun (e : List (Frame L L α) × Nat) =>
    match d.find? (fun s => s.1 == e.2) with
    | none => e.1
    | some s => e.1.map (func s.2))

/-- modin/core/storage_formats/pandas/query_compiler.py:3143-3241 `_setitem` of a scalar, with
    modin/core/dataframe/pandas/dataframe/dataframe.py:3164-3205 `apply_select_indices`. -/
def MFrame.setScalar [DecidableEq L] (key : L) (v : α) (m : MFrame L L α) : Option (MFrame L L α) :=
  MFrame.mk' { parts := applySelectedColumns (setBlock v) (blockDict m.getColWidths ((getIndexerFor m.getColumns [key]).filterMap id)) m.parts
               index := some m.getIndex, columns := some m.getColumns, rowLens := some m.getRowLens,
               colWidths := some m.getColWidths }

/-- modin/pandas/dataframe.py:2751-2767, 2840-2854 `__setitem__` with one column label, on a frame with rows and columns, and
    modin/core/storage_formats/pandas/query_compiler.py:3129-3241. -/
def LFrame.setItem [DecidableEq L] (cfg : Cfg) (nan : α) (known : Nat → Nat → Bool × Bool) (knownG : Grid L L α → Bool)
    (key : L) (value : MColValue L α) (m : LFrame L L α) : Option (LFrame L L α × MColValue L α) :=
  if m.getColumns.contains key then
    match value with
    | .scalar v => (m.operation (fun m1 => m1.setScalar key v)).map fun r => (r, .scalar v)
    | .column c =>
      (c.setColumns [key]).bind fun c' =>
      ((getIndexerFor m.getColumns [key]).head?.bind id).bind fun idx =>
      (LFrame.insertItem (keepFirst L) cfg nan known knownG idx c' true m).map fun r => (r, .column c')
  else m.insert cfg nan known knownG false m.getColumns.length key value
