import Verif.Model.GroupBy
import Verif.Model.Select
import Verif.Model.Concat
import Verif.Pandas.PivotTable
/-
`pivot_table` by map and reduce.
Models modin/core/storage_formats/pandas/query_compiler.py (`pivot_table`, `getitem_column_array`, `drop`),
modin/core/storage_formats/pandas/groupby.py (`PivotTableImpl`) and the finalizer of modin/core/dataframe/algebra/groupby.py.
`index` and `columns` are one label each.  Not modelled: `margins`, aggregations without a map and a reduce phase (they go by range
partitioning or by whole columns), lists of aggregations, `index` equal to `columns`, frames without rows and tables of no column (they go
to pandas' `groupby`), level names.
-/

variable {ι κ α β γ δ K ι' κ' : Type}

/-- modin/core/storage_formats/pandas/query_compiler.py:3105-3122 `getitem_column_array(labels, ignore_order=True)`: the columns
    with one of the labels, in the frame's order.  A label that is not there is passed over. -/
def takeColsInOrder [DecidableEq ι] [DecidableEq κ] (cfg : Cfg) (known : Nat → Nat → Bool × Bool) (labels : List κ) (m : MFrame ι κ α) :
    Option (MFrame ι κ α) :=
  ((getIndexerFor m.getColumns (m.getColumns.filter fun k => labels.contains k)).mapM id).bind fun ps =>
  take2d cfg known m none (some (.array ps))

/-- modin/core/storage_formats/pandas/query_compiler.py:3326-3342 `drop(columns=labels)`: the positions of all other columns, sorted -/
def dropColLabels [DecidableEq ι] [DecidableEq κ] (cfg : Cfg) (known : Nat → Nat → Bool × Bool) (labels : List κ) (m : MFrame ι κ α) :
    Option (MFrame ι κ α) :=
  take2d cfg known m none (some (.array ((List.range m.getColumns.length).filter fun p =>
    (m.getColumns[p]?).any fun k => !labels.contains k)))

/-- modin/core/storage_formats/pandas/groupby.py:482-507 `_separate_data_from_grouper`: the columns to aggregate -/
def dataToGroup [DecidableEq ι] [DecidableEq κ] (cfg : Cfg) (known : Nat → Nat → Bool × Bool) (keys : List κ) (values : PivotValues κ)
    (m : MFrame ι κ α) : Option (MFrame ι κ α) :=
  match values with
  | .missing => dropColLabels cfg known keys m
  | .column v => takeColsInOrder cfg known [v] m
  | .columns vs => takeColsInOrder cfg known vs m

/-- modin/core/dataframe/pandas/dataframe/dataframe.py:4568-4589 and
    modin/core/dataframe/pandas/partitioning/partition_manager.py:302-357 `groupby_reduce`, as in `groupbyReduce`, with a finalizer: the
    last line of `GroupByReduce.reduce` (modin/core/dataframe/algebra/groupby.py:307) hands what the reduce phase gives to `fin`. -/
def groupbyReduceFinal [DecidableEq ι] [DecidableEq κ] [DecidableEq α] (cfg : Cfg) (G : Grouping (List α)) (h : List α → β)
    (r : List β → γ) (fin : Frame (List α) κ γ → Option (Frame ι' κ' δ)) (na : α) (drop : Bool) (m by' : MFrame ι κ α) :
    Option (MFrame ι' κ' δ) :=
  let m := if by'.parts.length ≠ m.parts.length then filterEmpties m else m
  if by'.parts.length ≠ m.parts.length then none
  else
    (broadcastApply0 (groupbyMap G h na drop) m.parts by'.parts).bind fun g =>
    (mapAxisPartitions cfg true (fun f => fin (groupbyRed G r f)) g false (some (min m.parts.length cfg.nPartitions)) none).bind fun parts =>
    MFrame.mk' { parts := parts, index := none, columns := none, rowLens := none, colWidths := none }

/-- `df.dropna(axis=1, how="all")` of a block -/
def Frame.dropEmptyCols (f : Frame ι κ (Option δ)) : Frame ι κ (Option δ) :=
  Frame.ofCols f.index (f.named.filter fun c => c.2.any (·.isSome))

/-- `df.fillna(fill)` of a block; `none`: nothing to fill with -/
def Frame.fillEmpty (fill : Option δ) (f : Frame ι κ (Option δ)) : Frame ι κ (Option δ) :=
  { index := f.index, columns := f.columns, rows := f.rows.map fun r => r.map fun x => x.or fill }

/-- modin/core/storage_formats/pandas/groupby.py:474-477: the end of `_pivot_table_from_groupby` -/
def pivotFinish (dropna : Bool) (fill : Option δ) (f : Frame ι κ (Option δ)) : Frame ι κ (Option δ) :=
  (if dropna then f.dropEmptyCols else f).fillEmpty fill

/-- a row label of two levels -/
def keyPair : List α → Option (α × α)
  | [a, b] => some (a, b)
  | _ => none

/-- a row label of one level -/
def keyOne : List α → Option α
  | [a] => some a
  | _ => none

/-- modin/core/storage_formats/pandas/groupby.py:443-480 `_pivot_table_from_groupby` on the groups of one column partition, `sort=False`.
    `names` are the names of the levels of the row labels: the level called `c` is unstacked, if there is more than one level; the first
    level of the column labels is dropped when `values` is a label, which fails if there is one level only. -/
def pivotFinal [DecidableEq κ] [DecidableEq α] (le : α → α → Bool) (c : κ) (values : PivotValues κ) (dropna : Bool) (fill : Option δ)
    (names : List κ) (f : Frame (List α) κ (Option δ)) : Option (Frame α (Option κ × Option α) (Option δ)) :=
  match names with
  | [_] => (f.index.mapM keyOne).bind fun idx =>
      match values with
      | .column _ => none
      | _ => some (pivotFinish dropna fill (Frame.mk idx (f.columns.map fun v => (some v, none)) f.rows))
  | [n1, n2] => (f.index.mapM keyPair).bind fun idx =>
      if n2 = c then ((Frame.mk idx f.columns f.rows).unstackInner le le none values.tableLabel).map (pivotFinish dropna fill)
      else if n1 = c then ((Frame.mk idx f.columns f.rows).unstackOuter le le none values.tableLabel).map (pivotFinish dropna fill)
      else none
  | _ => none

/-- modin/pandas/dataframe.py:1547-1581, modin/core/storage_formats/pandas/query_compiler.py:4559-4625 `pivot_table` and
    modin/core/storage_formats/pandas/groupby.py:254-310 `map_reduce_impl`.  Groups with a missing key are left out whatever `dropna` is:
    it is not handed to `groupby` (`G`).  `none`, besides exceptions: what is not modelled (`i = c`, empty data). -/
def pivotTable [DecidableEq ι] [DecidableEq κ] [DecidableEq α] (cfg : Cfg) (known : Nat → Nat → Bool × Bool) (G : Grouping (List α))
    (le : α → α → Bool) (op : TreeOp α β (Option δ)) (na : α) (i c : κ) (values : PivotValues κ) (dropna : Bool) (fill : Option δ)
    (m : MFrame ι κ α) : Option (MFrame α (Option κ × Option α) (Option δ)) :=
  if i = c then none else
  (dataToGroup cfg known [i, c] values m).bind fun data =>
  (takeColsInOrder cfg known [i, c] m).bind fun keys =>
  if data.getColumns = [] ∨ data.getIndex = [] then none else
  groupbyReduceFinal cfg G op.map op.reduce (pivotFinal le c values dropna fill keys.getColumns) na true data keys
