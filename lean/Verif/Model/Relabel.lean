import Verif.Model.FullAxis
import Verif.Model.Labels
import Verif.Model.Concat
import Verif.Pandas.Relabel
/-
Row labels turned into a column and columns into row labels; rows and columns removed by label.
Models modin/core/dataframe/pandas/dataframe/dataframe.py (`from_labels`, `to_labels`,
`take_2d_labels_or_positional` with labels), modin/core/storage_formats/pandas/query_compiler.py (`reset_index`,
`set_index_from_columns`, `drop`), modin/pandas/base.py (`reset_index`, `drop`) and modin/pandas/dataframe.py (`set_index`).
One level of row and of column labels.  The name of the row labels is a parameter `name`: it travels with the labels.
`num`, `cell`, `lab`, `indexName`, `levelName`: see Verif/Pandas/Relabel.lean.
-/

variable {ι κ α : Type}

/-- modin/core/dataframe/pandas/dataframe/dataframe.py:1473-1482 `level_names` for one level -/
def fromLabelsName [DecidableEq κ] (indexName levelName : κ) (name : Option κ) (columns : List κ) : κ :=
  match name with
  | some n => n
  | none => if !(columns.contains indexName) then indexName else levelName

/-- modin/core/dataframe/pandas/dataframe/dataframe.py:1508-1527 `from_labels_executor`: what is done to a block of the
    first block column.  If the block has a column of that name already its row labels end up being numbers. -/
def fromLabelsBlock [DecidableEq κ] (num : Nat → ι) (cell : ι → α) (new : κ) (b : Frame ι κ α) : Frame ι κ α :=
  { index := if b.columns.contains new then (List.range b.index.length).map num else b.index
    columns := new :: b.columns
    rows := List.zipWith (fun i r => cell i :: r) b.index b.rows }

/-- modin/core/dataframe/pandas/partitioning/partition_manager.py:1409-1410 and 1479-1497
    `apply_func_to_select_indices(0, partitions, func, [0], keep_remaining=True)`: `func` is applied to the blocks of the
    first block column. -/
def onFirstColumn (f : Frame ι κ α → Frame ι κ α) (g : Grid ι κ α) : Grid ι κ α :=
  if g.all (·.isEmpty) then [[]]
  else g.map fun row => match row with
    | [] => []
    | b :: bs => f b :: bs

/-- modin/core/dataframe/pandas/dataframe/dataframe.py:1450-1554 `from_labels` with its decorator
    (modin/core/dataframe/pandas/dataframe/utils.py:751-752 and 768-769): the row labels are written into the blocks first,
    the new ones are left pending.  `none`: an exception (`self.column_widths[0]` of a frame without recorded widths). -/
def LFrame.fromLabels [DecidableEq κ] (num : Nat → ι) (cell : ι → α) (indexName levelName : κ) (name : Option κ)
    (m : LFrame ι κ α) : Option (LFrame ι κ α) :=
  (m.propagate true false).bind fun m1 =>
  let new := fromLabelsName indexName levelName name m1.getColumns
  match m1.getColWidths with
  | [] => none
  | w :: ws =>
    (MFrame.mk' { parts := onFirstColumn (fromLabelsBlock num cell new) m1.parts
                  index := some ((List.range m1.getIndex.length).map num)
                  columns := some (new :: m1.getColumns)
                  rowLens := m1.rowLens
                  colWidths := some ((1 + w) :: ws) }).map
      fun r => { r with defIndex := true, defColumns := m1.defColumns }

/-- modin/core/storage_formats/pandas/query_compiler.py:744-756 `_reset`: one row partition -/
def resetBand [DecidableEq κ] (num : Nat → ι) (cell : ι → α) (indexName levelName : κ) (name : Option κ) (drop : Bool)
    (lens : List Nat) (i : Nat) (b : Frame ι κ α) : Option (Frame ι κ α) :=
  (b.resetIndex num cell indexName levelName name drop).bind fun r =>
    let start := (lens.take i).sum
    let stop := (lens.take (i + 1)).sum
    -- assigning labels of another length is an error in pandas
    if stop - start = r.index.length then
      some { r with index := (List.range (stop - start)).map fun x => num (x + start) }
    else none

/-- modin/core/storage_formats/pandas/query_compiler.py:758-794: the column labels told to the result, when they and the
    name of the row labels (`namesKnown`: their dtypes) are known.  Outer `none`: the trial `reset_index` raises. -/
def resetNewColumns [DecidableEq κ] (indexName levelName : κ) (name : Option κ) (drop namesKnown : Bool)
    (columns : Option (List κ)) : Option (Option (List κ)) :=
  if drop then some columns
  else if namesKnown then
    match columns with
    | none => some none
    | some c =>
      ((Frame.mk [()] c [c.map fun _ => ()]).resetIndex (fun _ => ()) id indexName levelName name false).map
        fun r => some r.columns
  else some none

/-- modin/core/storage_formats/pandas/query_compiler.py:742-806 `reset_index` when the row labels are not known -/
def LFrame.resetIndexLazy [DecidableEq ι] [DecidableEq κ] (cfg : Cfg) (num : Nat → ι) (cell : ι → α) (indexName levelName : κ)
    (name : Option κ) (drop namesKnown : Bool) (m : LFrame ι κ α) : Option (LFrame ι κ α) :=
  (resetNewColumns indexName levelName name drop namesKnown m.columns).bind fun newColumns =>
  m.operation fun m1 =>
    applyFullRows cfg (resetBand num cell indexName levelName name drop m1.getRowLens) true none newColumns m1

/-- modin/pandas/base.py:2691-2712 and modin/core/storage_formats/pandas/query_compiler.py:741-919 `reset_index` without
    `level`, `names`, `allow_duplicates`.  `none`: an exception. -/
def LFrame.resetIndex [DecidableEq ι] [DecidableEq κ] (cfg : Cfg) (num : Nat → ι) (cell : ι → α) (indexName levelName : κ)
    (name : Option κ) (drop namesKnown : Bool) (m : LFrame ι κ α) : Option (LFrame ι κ α) :=
  if !drop && !(m.columns.isNone || m.index.isNone) && [levelName, indexName].all (m.getColumns.contains ·) then none
  else if m.index.isNone then m.resetIndexLazy cfg num cell indexName levelName name drop namesKnown
  else if !drop then m.fromLabels num cell indexName levelName name
  else m.copy.bind fun m1 => m1.setIndex ((List.range m1.getRowLens.sum).map num)

/-- modin/core/dataframe/pandas/dataframe/dataframe.py:1040-1111 `take_2d_labels_or_positional(col_labels=labels)`.  A label
    that is not there would be looked up at position -1; the callers modelled here never pass one (`none`). -/
def LFrame.takeColLabels [DecidableEq ι] [DecidableEq κ] (cfg : Cfg) (known : Nat → Nat → Bool × Bool) (labels : List κ)
    (m : LFrame ι κ α) : Option (LFrame ι κ α) :=
  ((getIndexerFor m.getColumns labels).mapM id).bind fun ps => m.take2d cfg known none (some (.array ps))

/-- modin/core/dataframe/pandas/dataframe/dataframe.py:1570-1581: the labels made of the extracted columns.  A different
    number of columns than of keys is an error (`pandas.Index` of a frame, `names` of the wrong length). -/
def labelsFrom (lab : List α → ι) (nkeys : Nat) (f : Frame ι κ α) : Option (List ι) :=
  if f.columns.length = nkeys then some (f.rows.map lab) else none

/-- modin/core/dataframe/pandas/dataframe/dataframe.py:1556-1586 `to_labels` -/
def LFrame.toLabels [DecidableEq ι] [DecidableEq κ] (cfg : Cfg) (known : Nat → Nat → Bool × Bool) (nan : α) (lab : List α → ι)
    (keys : List κ) (m : LFrame ι κ α) : Option (LFrame ι κ α) :=
  (m.takeColLabels cfg known keys).bind fun e => (e.toPandas nan).bind fun extracted =>
  (labelsFrom lab keys.length extracted).bind fun labels =>
  (m.takeColLabels cfg known (m.getColumns.filter fun i => !(extracted.columns.contains i))).bind fun r =>
  r.setIndex labels

/-- modin/pandas/dataframe.py:2046-2107 `set_index` with column labels as keys and modin/core/storage_formats/pandas/
    query_compiler.py:921-951 `set_index_from_columns` without `append`.  A missing key raises before (`none`). -/
def LFrame.setIndexFrom [DecidableEq ι] [DecidableEq κ] (cfg : Cfg) (known : Nat → Nat → Bool × Bool) (nan : α) (lab : List α → ι)
    (keys : List κ) (drop : Bool) (m : LFrame ι κ α) : Option (LFrame ι κ α) :=
  if keys.all (m.getColumns.contains ·) then
    (m.toLabels cfg known nan lab keys).bind fun t =>
    if drop then some t else m.copy.bind fun r => r.setIndex t.getIndex
  else none

/-- `index.difference(labels)`: the distinct labels that are not listed.  pandas also sorts them; the order does not matter
    to the caller. -/
def indexDifference {τ : Type} [DecidableEq τ] (index labels : List τ) : List τ := index.eraseDups.filter fun x => !(labels.contains x)

/-- modin/core/storage_formats/pandas/query_compiler.py:3333-3338: the positions to keep along one axis -/
def dropPositions {τ : Type} [DecidableEq τ] (index labels : List τ) : List Nat :=
  npSort ((getIndexerFor index (indexDifference index labels)).filterMap id)

/-- modin/core/storage_formats/pandas/query_compiler.py:3326-3342 `drop` -/
def LFrame.dropCompiled [DecidableEq ι] [DecidableEq κ] (cfg : Cfg) (known : Nat → Nat → Bool × Bool) (rows : Option (List ι))
    (cols : Option (List κ)) (m : LFrame ι κ α) : Option (LFrame ι κ α) :=
  m.take2d cfg known (rows.map fun l => .array (dropPositions m.getIndex l))
    (cols.map fun l => .array (dropPositions m.getColumns l))

/-- modin/pandas/base.py:1492-1516: the labels to drop along one axis as handed on; outer `none`: `KeyError`.
    `lazily`: the labels of the axis are not known, nothing is checked. -/
def dropChecked {τ : Type} [DecidableEq τ] (raising lazily : Bool) (index : List τ) (labels : Option (List τ)) :
    Option (Option (List τ)) :=
  match labels with
  | none => some none
  | some l =>
    if lazily then some (some l)
    else if raising then (if l.all (index.contains ·) then some (some l) else none)
    else
      let l' := l.filter (index.contains ·)
      some (if l'.isEmpty then none else some l')

/-- modin/pandas/base.py:1450-1521 `drop(index=rows, columns=cols, errors="raise" | "ignore")` -/
def LFrame.drop [DecidableEq ι] [DecidableEq κ] (cfg : Cfg) (known : Nat → Nat → Bool × Bool) (raising : Bool)
    (rows : Option (List ι)) (cols : Option (List κ)) (m : LFrame ι κ α) : Option (LFrame ι κ α) :=
  (dropChecked raising m.index.isNone m.getIndex rows).bind fun rows =>
  (dropChecked raising m.columns.isNone m.getColumns cols).bind fun cols =>
  m.dropCompiled cfg known rows cols
