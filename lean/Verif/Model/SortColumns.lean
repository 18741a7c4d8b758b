import Verif.Model.Reindex
import Verif.Pandas.SortColumns
/-
`DataFrame.sort_values(axis=1)`.
Models modin/pandas/base.py (`sort_values`) and modin/core/storage_formats/pandas/query_compiler.py (`sort_columns_by_row_values`,
`getitem_row_array`).
-/

variable {L α : Type}

/-- modin/core/storage_formats/pandas/query_compiler.py:3124-3127 `getitem_row_array([row])` with `to_pandas`: `row` is taken as a
    position (dataframe.py:1040-1111 `take_2d_labels_or_positional(row_positions=key)`).  `asPos` says which labels are integers from
    zero on; negative integers are not modelled.  A position past the end raises. -/
def LFrame.rowAtLabel [DecidableEq L] (cfg : Cfg) (known : Nat → Nat → Bool × Bool) (nan : α) (asPos : L → Option Nat) (row : L)
    (m : LFrame L L α) : Option (Frame L L α) :=
  (asPos row).bind fun p =>
  if p < m.getIndex.length then (m.take2d cfg known (some (.array [p])) none).bind (·.toPandas nan) else none

/-- modin/core/storage_formats/pandas/query_compiler.py:4779-4796 `sort_columns_by_row_values`, reached from
    modin/pandas/base.py:3160-3181: the rows named are fetched one by one, put together (`pandas.concat` of nothing raises) and given the
    columns of the frame, pandas sorts them with the same arguments, and the frame is reindexed by the labels that come out. -/
def LFrame.sortColsByRows [DecidableEq L] (cfg : Cfg) (known : Nat → Nat → Bool × Bool) (nan : α) (asPos : L → Option Nat)
    (order : List (List α) → List Nat) (numbers : Option (Nat → L)) (rows : List L) (m : LFrame L L α) : Option (LFrame L L α) :=
  (rows.mapM fun row => m.rowAtLabel cfg known nan asPos row).bind fun bs =>
  (Frame.vcat bs).bind fun b =>
  (b.setColumns m.getColumns).bind fun b =>
  (b.sortColumnsBy order numbers rows).bind fun s =>
  m.reindexColsTo cfg nan s.columns
