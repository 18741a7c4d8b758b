import Verif.Model.Select
import Verif.Pandas.Assign
/-
Positional assignment (`df.iloc[rows, cols] = item`, the two-axis path).
Models modin/core/dataframe/pandas/partitioning/partition_manager.py
(`apply_func_to_indices_both_axis`), modin/core/dataframe/pandas/dataframe/dataframe.py
(`apply_select_indices`, axis=None), modin/core/storage_formats/pandas/query_compiler.py
(`write_items`), modin/pandas/utils.py (`broadcast_item`) and modin/pandas/indexing.py
(`_setitem_positional`, `_determine_setitem_axis`).
-/

variable {ι κ α : Type}

/-- What is assigned: a scalar, a one-dimensional or a two-dimensional array.
    (pandas objects are reindexed to the target labels and become arrays first,
    modin/pandas/utils.py:328-345; that step is not modelled.) -/
inductive Item (α : Type) where
  | scalar (a : α)
  | arr1 (xs : List α)
  | arr2 (M : List (List α))
deriving DecidableEq, Repr

/-- Specification: the value an item holds for the `i`-th row and `j`-th column. -/
def Item.value : Item α → Nat → Nat → Option α
  | .scalar a, _, _ => some a
  | .arr1 _, _, _ => none
  | .arr2 M, i, j => entry M i j

/-- Specification: a scalar, or a two-dimensional item of exactly the shape of the request. -/
def Item.Fits (it : Item α) (r c : Nat) : Prop :=
  match it with
  | .scalar _ => True
  | .arr1 _ => False
  | .arr2 M => M.length = r ∧ ∀ x ∈ M, x.length = c

/-- modin/core/storage_formats/pandas/query_compiler.py:4697-4730 `iloc_mut`: pandas' own
    `iloc` assignment in one block.  An array must have the shape of the selection, or be
    broadcast from length 1; otherwise `ValueError` (`none`). -/
def ilocMut (b : Frame ι κ α) (rs cs : List Nat) : Item α → Option (Frame ι κ α)
  | .scalar a => some (b.assign rs cs fun _ _ => some a)
  | .arr1 _ => none
  | .arr2 P =>
    if (P.length = rs.length ∨ P.length = 1)
        ∧ P.all (fun r => r.length == cs.length || r.length == 1) then
      some (b.assign rs cs fun i j =>
        (P[if P.length = 1 then 0 else i]?).bind fun r => r[if r.length = 1 then 0 else j]?)
    else none

/-- modin/core/dataframe/pandas/partitioning/partition_manager.py:1673-1684 `compute_part_size`.
    `cache` is the list of cached lengths of ALL blocks along the axis, but it is indexed with
    `k`, the number of the block within the selection. -/
def partSize (cache : Option (List Nat)) (k : Nat) (sel : BlockSel) (trueLen : Nat) : Option Nat :=
  match sel with
  | .list js => some js.length
  | s => match cache with
    | none => some (s.positions trueLen).length
    | some l => (l[k]?).map fun n => (s.positions n).length

/-- One entry of a selection with the part of the item meant for it. -/
structure Slot where
  blk : Nat
  sel : BlockSel
  start : Nat
  size : Nat
deriving DecidableEq, Repr

/-- The running counters `row_position_counter` / `col_position_counter` of
    modin/core/dataframe/pandas/partitioning/partition_manager.py:1686-1720 along one axis. -/
def withOffsets (cache : Option (List Nat)) (lens : List Nat) :
    Nat → Nat → List (Nat × BlockSel) → Option (List Slot)
  | _, _, [] => some []
  | k, cnt, e :: d =>
    (partSize cache k e.2 (lens.getD e.1 0)).bind fun n =>
      (withOffsets cache lens (k + 1) (cnt + n) d).map fun rest => ⟨e.1, e.2, cnt, n⟩ :: rest

/-- `item_to_distribute[r0 : r0 + nr, c0 : c0 + nc]`
    (modin/core/dataframe/pandas/partitioning/partition_manager.py:1701-1709). -/
def Item.piece (r c : Slot) : Item α → Item α
  | .arr2 M => .arr2 ((pySlice M r.start (r.start + r.size)).map fun row =>
      pySlice row c.start (c.start + c.size))
  | it => it

/-- modin/core/dataframe/pandas/partitioning/partition_manager.py:1618-1721
    `apply_func_to_indices_both_axis` with the deferred writes applied (C06).  Python updates a
    copy of the grid slot by slot; here it is said for each block which writes it receives, in
    order.  A block number outside the grid raises `IndexError`. -/
def applyBothAxes (g : Grid ι κ α) (rp cp : List Slot) (it : Item α) : Option (Grid ι κ α) :=
  if rp.all (fun r => decide (r.blk < g.length)) && cp.all (fun c => decide (c.blk < gridWidth g)) then
    g.zipIdx.mapM fun e => e.1.zipIdx.mapM fun f =>
      (rp.filter (·.blk == e.2)).foldlM (fun b r =>
        (cp.filter (·.blk == f.2)).foldlM (fun b c =>
          ilocMut b (r.sel.positions b.nrows) (c.sel.positions b.ncols) (it.piece r c)) b) f.1
  else none

/-- `_get_dict_of_block_index(axis, indices)`: the list path sorts first. -/
def assignIndex (lens : List Nat) (n np : Nat) : Positions → Option (List (Nat × BlockSel))
  | .range a b => blockSlices lens n np a b
  | .array ps => some (blockDict lens (npSort ps))

/-- modin/core/dataframe/pandas/dataframe/dataframe.py:3203-3230: `apply_select_indices` with
    `axis=None`. -/
def applySelectBoth (m : MFrame ι κ α) (rows cols : Positions) (it : Item α) :
    Option (MFrame ι κ α) :=
  (assignIndex m.getRowLens m.getIndex.length m.parts.length rows).bind fun rd =>
  (assignIndex m.getColWidths m.getColumns.length (gridWidth m.parts) cols).bind fun cd =>
  (withOffsets m.rowLens m.getRowLens 0 0 rd).bind fun rp =>
  (withOffsets m.colWidths m.getColWidths 0 0 cd).bind fun cp =>
  (applyBothAxes m.parts rp cp it).bind fun g =>
  MFrame.mk' { parts := g, index := some m.getIndex, columns := some m.getColumns,
               rowLens := m.rowLens, colWidths := m.colWidths }

/-- `item.reshape(r, c)` of the flat data. -/
def reshape (r c : Nat) (flat : List α) : List (List α) :=
  (List.range r).map fun i => pySlice flat (i * c) ((i + 1) * c)

/-- `np.broadcast_to(item, (r, c))`; `none` is `ValueError`. -/
def npBroadcast (r c : Nat) (M : List (List α)) : Option (List (List α)) :=
  if (M.length = r ∨ M.length = 1) ∧ M.all (fun x => x.length == c || x.length == 1) then
    (List.range r).mapM fun i => (M[if M.length = 1 then 0 else i]?).map fun x =>
      if x.length = 1 then (List.replicate c x).flatten else x
  else none

/-- `sort_index` of modin/pandas/utils.py:352-367: the order (none for a range, which is not
    sorted) and the sorted positions. -/
def sortLookup : Positions → Option (List Nat) × Positions
  | .range a b => (none, .range a b)
  | .array ps => (some (npArgsort ps), .array (takeList ps (npArgsort ps)))

/-- `item[order]`: `none` leaves it, out of bounds raises. -/
def orderList {τ : Type} (order : Option (List Nat)) (l : List τ) : Option (List τ) :=
  match order with
  | none => some l
  | some o => checkedTake l o

/-- The number of positions. -/
def Positions.count (p : Positions) : Nat := p.toList.length

/-- modin/pandas/utils.py:265-411 `broadcast_item` for arrays.  A two-dimensional item is
    reordered along both axes, a one-dimensional one only by the row order, and then the column
    positions are left unsorted. -/
def broadcastItem (rows cols : Positions) : Item α → Option (Item α × Positions × Positions)
  | .scalar a => some (.scalar a, rows, cols)
  | .arr1 xs =>
    (orderList (sortLookup rows).1 xs).bind fun xs =>
      (if rows.count * cols.count = xs.length then some (reshape rows.count cols.count xs)
       else npBroadcast rows.count cols.count [xs]).map fun M =>
        (.arr2 M, (sortLookup rows).2, cols)
  | .arr2 M =>
    (orderList (sortLookup rows).1 M).bind fun M =>
      (M.mapM (orderList (sortLookup cols).1)).bind fun M =>
        (if rows.count * cols.count = M.flatten.length then
          some (reshape rows.count cols.count M.flatten)
         else npBroadcast rows.count cols.count M).map fun M =>
          (.arr2 M, (sortLookup rows).2, (sortLookup cols).2)

/-- modin/core/storage_formats/pandas/query_compiler.py:4691-4771 `write_items`. -/
def writeItems (m : MFrame ι κ α) (rows cols : Positions) (it : Item α) : Option (MFrame ι κ α) :=
  (broadcastItem rows cols it).bind fun x => applySelectBoth m x.2.1 x.2.2 x.1
