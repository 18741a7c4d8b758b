import Verif.Model.MapPlans
import Verif.Model.Select
import Verif.Pandas.Labels
/-
Labels that are assigned but not yet written into the blocks, and `transpose`.
Models modin/core/dataframe/pandas/dataframe/dataframe.py (`_set_index`, `_set_columns`, `synchronize_labels`,
`_propagate_index_objs`, `copy`, `map`, `transpose`) and modin/core/dataframe/pandas/dataframe/utils.py
(`lazy_metadata_decorator`).
-/

variable {ι κ α β : Type}

/-- A frame with its two flags (modin/core/dataframe/pandas/dataframe/dataframe.py:117-118): are the row (column) labels
    in the blocks possibly out of date? -/
structure LFrame (ι κ α : Type) extends MFrame ι κ α where
  defIndex : Bool
  defColumns : Bool

/-- modin/core/dataframe/pandas/dataframe/dataframe.py:762-774 `_set_index` with 712-724 `_validate_set_axis`: the length
    is checked only if the old labels are known. -/
def LFrame.setIndex (labels : List ι) (m : LFrame ι κ α) : Option (LFrame ι κ α) :=
  if m.index.all (fun old => old.length == labels.length) then some { m with index := some labels, defIndex := true }
  else none

/-- modin/core/dataframe/pandas/dataframe/dataframe.py:776-810 `_set_columns`: labels identical to the known ones are not
    set again. -/
def LFrame.setColumns [DecidableEq κ] (labels : List κ) (m : LFrame ι κ α) : Option (LFrame ι κ α) :=
  if m.columns = some labels then some m
  else if m.columns.all (fun old => old.length == labels.length) then
    some { m with columns := some labels, defColumns := true }
  else none

/-- modin/core/dataframe/pandas/dataframe/dataframe.py:959-1028: the new labels of the block in row `p` and column `q`
    (its bounds) are written; `none`: not written along that axis. -/
def relabel (idx : Option (List ι)) (cols : Option (List κ)) (p q : Nat × Nat) (b : Frame ι κ α) : Option (Frame ι κ α) :=
  ((match idx with
    | some i => b.setIndex (pySlice i p.1 p.2)
    | none => some b)).bind fun b =>
  match cols with
  | some c => b.setColumns (pySlice c q.1 q.2)
  | none => some b

/-- modin/core/dataframe/pandas/dataframe/dataframe.py:934-1038 `_propagate_index_objs` for the row labels (`ax0`), the
    column labels (`ax1`) or both.  The calls are queued in the code; by C06 the outcome is that of applying them.
    `none`: a block has no recorded bounds, or `set_axis` raises. -/
def LFrame.propagate (ax0 ax1 : Bool) (m : LFrame ι κ α) : Option (LFrame ι κ α) :=
  let m1 := filterEmpties m.toMFrame
  let rows := sliceBounds m1.getRowLens
  let cols := sliceBounds m1.getColWidths
  if m1.parts.length ≤ rows.length ∧ m1.parts.all (fun row => row.length ≤ cols.length) then
    ((m1.parts.zip rows).mapM fun (rp : List (Frame ι κ α) × (Nat × Nat)) => (rp.1.zip cols).mapM fun bq =>
      relabel (if ax0 then some m1.getIndex else none) (if ax1 then some m1.getColumns else none) rp.2 bq.2 bq.1).map fun g =>
    { m1 with parts := g, defIndex := m.defIndex && !ax0, defColumns := m.defColumns && !ax1 }
  else none

/-- modin/core/dataframe/pandas/dataframe/utils.py:735-741, `apply_axis="both"`: what is done to a frame before an
    operation that needs the labels of both axes. -/
def LFrame.synced (m : LFrame ι κ α) : Option (LFrame ι κ α) :=
  if m.defIndex && m.defColumns then m.propagate true true
  else if m.defIndex then m.propagate true false
  else if m.defColumns then m.propagate false true
  else some m

/-- modin/core/dataframe/pandas/dataframe/utils.py:735-741 and 753: an operation declared with `apply_axis="both"`; the
    flags of its result are the defaults. -/
def LFrame.operation {ι' κ' β : Type} (op : MFrame ι κ α → Option (MFrame ι' κ' β)) (m : LFrame ι κ α) :
    Option (LFrame ι' κ' β) :=
  m.synced.bind fun m1 => (op m1.toMFrame).map fun r => { r with defIndex := false, defColumns := false }

/-- modin/core/dataframe/pandas/dataframe/dataframe.py:4691-4722 `to_pandas` with its decorator -/
def LFrame.toPandas [DecidableEq ι] [DecidableEq κ] (nan : α) (m : LFrame ι κ α) : Option (Frame ι κ α) :=
  m.synced.bind fun m1 => m1.toMFrame.toPandas nan

/-- modin/core/dataframe/pandas/dataframe/dataframe.py:1686-1704 `copy` -/
def LFrame.copy (m : LFrame ι κ α) : Option (LFrame ι κ α) :=
  m.toMFrame.mk'.map fun r => { r with defIndex := m.defIndex, defColumns := m.defColumns }

/-- modin/core/dataframe/pandas/dataframe/dataframe.py:2252-2320 `map` (`apply_axis=None`): the function is applied to the
    blocks as they are, the flags are handed on. `dtypes` and `new_columns` are not modelled. -/
def LFrame.mapBlocks [DecidableEq ι] [DecidableEq κ] (cfg : Cfg) (dyn : Bool) (cpu : Nat) (f : Frame ι κ α → Frame ι κ β)
    (m : LFrame ι κ α) : Option (LFrame ι κ β) :=
  (mapPartitions cfg dyn cpu (fun b => some (f b)) m.parts).bind fun g =>
  (MFrame.mk' { parts := g, index := m.index, columns := m.columns, rowLens := m.rowLens, colWidths := m.colWidths }).map
    fun r => { r with defIndex := m.defIndex, defColumns := m.defColumns }

/-- modin/core/dataframe/pandas/dataframe/dataframe.py:4746-4777 `transpose` with its decorator
    (modin/core/dataframe/pandas/dataframe/utils.py:757-759) -/
def LFrame.transpose (m : LFrame ι κ α) : Option (LFrame κ ι α) :=
  (MFrame.mk' { parts := colBlocks (m.parts.map fun row => row.map Frame.transpose), index := m.columns, columns := m.index,
                rowLens := m.colWidths, colWidths := m.rowLens }).map
    fun r => { r with defIndex := m.defColumns, defColumns := m.defIndex }

/-- modin/core/dataframe/pandas/dataframe/dataframe.py:1040-1111 `take_2d_labels_or_positional` (`apply_axis=None`) with
    `_take_2d_positional` (see `take2d`): the masked blocks keep the labels they have, the flags are handed on; only the
    jump to `_reorder_labels` (`apply_axis="both"`) writes the labels first. -/
def LFrame.take2d [DecidableEq ι] [DecidableEq κ] (cfg : Cfg) (known : Nat → Nat → Bool × Bool) (rows cols : Option Positions)
    (m : LFrame ι κ α) : Option (LFrame ι κ α) :=
  let rp := normPositions m.getIndex.length rows
  let cp := normPositions m.getColumns.length cols
  if rp = none ∧ cp = none then m.copy
  else if jumps m.getIndex.length m.getColumns.length rp cp then
    m.operation fun m1 => reorderLabels cfg m1 (rp.map (·.toList)) none
  else (maskThenReorder cfg known m.toMFrame rp cp).map fun r =>
    { r with defIndex := m.defIndex, defColumns := m.defColumns }
