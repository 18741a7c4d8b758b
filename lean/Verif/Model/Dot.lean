import Verif.Model.Ranks
import Verif.Model.LocGet
import Verif.Pandas.Dot
/-
`dot`.
Models modin/pandas/dataframe.py (`dot`, `_reduce_dimension`), modin/pandas/series.py (`dot`, `_reduce_dimension`, `_get_name`) and
modin/core/storage_formats/pandas/query_compiler.py (`dot`).
MultiIndex labels, object columns and mixed dtypes are not modelled.
-/

variable {L α : Type}

/-- The right operand as Modin gets it.  A Series is a frame of one column. -/
inductive DotOperand (L α : Type) where
  | frame (m : LFrame L L α)
  | series (m : LFrame L L α)
  | matrix (k : Nat) (rows : List (List α))
  | vector (values : List α)

/-- modin/core/storage_formats/pandas/query_compiler.py:2554: `shape[1]` of the right operand, 1 for one dimension -/
def DotArg.numCols : DotArg L α → Nat
  | .frame f => f.ncols
  | .series _ _ => 1
  | .matrix k _ => k
  | .vector _ => 1

/-- modin/core/storage_formats/pandas/query_compiler.py:2586-2589: `pandas.DataFrame(result)`, `pandas.DataFrame([result])` -/
def DotOut.toFrame (P : DotOps L α) : DotOut L α → Frame L L α
  | .frame f => f
  | .series name index values => { index := index, columns := [name.getD (P.num 0)], rows := values.map fun v => [v] }
  | .array values => { index := (List.range values.length).map P.num, columns := [P.num 0], rows := values.map fun v => [v] }
  | .scalar a => { index := [P.num 0], columns := [P.num 0], rows := [[a]] }

/-- `df.squeeze(axis=1).dot(other)` in a column partition of one column -/
def Frame.squeezedDot [DecidableEq L] (P : DotOps L α) (f : Frame L L α) (other : DotArg L α) : Option (DotOut L α) :=
  match f.columns with
  | [c] => seriesDot P (some c) f.index (jthCells f.rows 0) other
  | _ => none

/-- modin/core/storage_formats/pandas/query_compiler.py:2582-2596 `map_func` -/
def dotKernel [DecidableEq L] (P : DotOps L α) (unnamed : L) (squeezeSelf alignIndex alignColumns : Bool) (other : DotArg L α)
    (b : Frame L L α) : Option (Frame L L α) :=
  (if squeezeSelf then b.squeezedDot P other else b.dot P other).bind fun result =>
  (if alignColumns then (result.toFrame P).setColumns [unnamed] else some (result.toFrame P)).bind fun res =>
  if alignIndex then res.setIndex [unnamed] else some res

/-- modin/core/storage_formats/pandas/query_compiler.py:2546-2603 `dot`.  Line 2574 asks whether the index given is a list: the
    index of the frame is not. -/
def LFrame.dotCompiled [DecidableEq L] (cfg : Cfg) (P : DotOps L α) (unnamed : L) (squeezeSelf : Bool) (other : DotArg L α) (m : LFrame L L α) :
    Option (LFrame L L α) :=
  let one := decide (other.numCols = 1)
  if m.getColumns.length = 1 then
    let ai := (decide (m.getIndex.length = 1) || squeezeSelf) && one
    let ac := squeezeSelf && one
    m.applyFullUnsynced cfg true (dotKernel P unnamed squeezeSelf ai ac other) (if ai then some [unnamed] else none)
      (if ac then some [unnamed] else none)
  else
    m.applyFullUnsynced cfg false (dotKernel P unnamed squeezeSelf false one other) (some m.getIndex) (if one then some [unnamed] else none)

/-- modin/pandas/dataframe.py:797-803 and modin/pandas/series.py:1058-1063: the check, and the other operand reindexed -/
def LFrame.dotAligned [DecidableEq L] (cfg : Cfg) (P : DotOps L α) (labels : List L) (other : LFrame L L α) : Option (Frame L L α) :=
  let common := labelUnion P labels other.getIndex
  if common.length > labels.length ∨ common.length > other.getIndex.length then none
  else (other.reindex cfg P.nan (some ⟨true, common⟩) none).bind fun r => r.toPandas P.nan

/-- `to_pandas().squeeze(axis=1)` of a frame with one column -/
def Frame.squeezedArg (f : Frame L L α) : DotArg L α := .series f.index (jthCells f.rows 0)

/-- modin/pandas/series.py:182 and 186-197: the Series made from a query compiler, as the user sees it -/
def LFrame.asSeries [DecidableEq L] (nan : α) (unnamed : L) (m : LFrame L L α) : Option (DotOut L α) :=
  (m.columnarize unnamed).bind fun s => (s.toPandas nan).bind fun f =>
  f.columns.head?.map fun c => .series (if c = unnamed then none else some c) f.index (jthCells f.rows 0)

/-- `to_numpy().squeeze()` of a frame with one column: with one row, an array without dimensions -/
def Frame.numpySqueezed (f : Frame L L α) : DotOut L α :=
  match jthCells f.rows 0 with
  | [a] => .scalar a
  | vs => .array vs

/-- modin/pandas/dataframe.py:791-829 `DataFrame.dot` -/
def LFrame.dot [DecidableEq L] (cfg : Cfg) (P : DotOps L α) (unnamed : L) (m : LFrame L L α) : DotOperand L α → Option (DotOut L α)
  | .frame o =>
    (LFrame.dotAligned cfg P m.getColumns o).bind fun r => (m.dotCompiled cfg P unnamed false (.frame r)).bind fun m' =>
    (m'.toPandas P.nan).map .frame
  | .series o =>
    (LFrame.dotAligned cfg P m.getColumns o).bind fun r => (m.dotCompiled cfg P unnamed false r.squeezedArg).bind fun m' =>
    m'.asSeries P.nan unnamed
  | .matrix k rows =>
    if m.getColumns.length ≠ rows.length then none
    else (m.dotCompiled cfg P unnamed false (.matrix k rows)).bind fun m' => (m'.toPandas P.nan).map .frame
  | .vector values =>
    if m.getColumns.length ≠ values.length then none
    else (m.dotCompiled cfg P unnamed false (.vector values)).bind fun m' => m'.asSeries P.nan unnamed

/-- modin/pandas/series.py:1053-1089 `Series.dot`; the Series is a frame of one column -/
def LFrame.seriesDot [DecidableEq L] (cfg : Cfg) (P : DotOps L α) (unnamed : L) (m : LFrame L L α) : DotOperand L α → Option (DotOut L α)
  | .series o =>
    (LFrame.dotAligned cfg P m.getIndex o).bind fun r => (m.dotCompiled cfg P unnamed true r.squeezedArg).bind fun m' =>
    (m'.onlyCell P.nan).map .scalar
  | .frame o =>
    (LFrame.dotAligned cfg P m.getIndex o).bind fun r => (m.dotCompiled cfg P unnamed true (.frame r)).bind fun m' =>
    m'.asSeries P.nan unnamed
  | .matrix k rows =>
    if m.getIndex.length ≠ rows.length then none
    else (m.dotCompiled cfg P unnamed true (.matrix k rows)).bind fun m' => (m'.toPandas P.nan).map Frame.numpySqueezed
  | .vector values =>
    if m.getIndex.length ≠ values.length then none
    else (m.dotCompiled cfg P unnamed true (.vector values)).bind fun m' => (m'.onlyCell P.nan).map .scalar
