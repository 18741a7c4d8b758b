import Verif.Pandas.Frame
import Verif.Pandas.Reindex
/-
Specification vocabulary: pandas' `DataFrame.dot` and `Series.dot`.
-/

variable {L α : Type}

/-- What the products depend on: the inner product of two lines of the same length (any function: no law of arithmetic is used), the
    missing value, the order in which pandas lists a union of labels (sorted when the labels can be compared, otherwise as they come),
    and the integer labels pandas makes up. -/
structure DotOps (L α : Type) where
  inner : List α → List α → α
  nan : α
  arrange : List L → List L
  num : Nat → L

/-- The right operand: a frame, a Series (its name plays no part), a 2-dimensional array with `k` columns, or a 1-dimensional array. -/
inductive DotArg (L α : Type) where
  | frame (f : Frame L L α)
  | series (index : List L) (values : List α)
  | matrix (k : Nat) (rows : List (List α))
  | vector (values : List α)
deriving DecidableEq, Repr

/-- What `dot` returns; `array`: a 1-dimensional NumPy array. -/
inductive DotOut (L α : Type) where
  | frame (f : Frame L L α)
  | series (name : Option L) (index : List L) (values : List α)
  | array (values : List α)
  | scalar (a : α)
deriving DecidableEq, Repr

/-- `Index.union`, for labels that do not repeat: equal labels are returned as they are, otherwise the labels of both -/
def labelUnion [DecidableEq L] (P : DotOps L α) (xs ys : List L) : List L :=
  if xs = ys then xs else P.arrange (xs ++ ys.filter (fun y => decide (y ∉ xs)))

/-- the common labels `DataFrame.dot` aligns both operands to; `none`: "matrices are not aligned" -/
def dotCommon [DecidableEq L] (P : DotOps L α) (xs ys : List L) : Option (List L) :=
  if (labelUnion P xs ys).length > xs.length ∨ (labelUnion P xs ys).length > ys.length then none else some (labelUnion P xs ys)

/-- the values of a Series `values` labelled `labels`, for the labels `common` (`Series.reindex`) -/
def valuesFor [DecidableEq L] (nan : α) (labels common : List L) (values : List α) : Option (List α) :=
  if labels = common then some values
  else if labels.Nodup then some (common.map fun x => (((labels.zip values).find? (·.1 == x)).map (·.2)).getD nan)
  else none

/-- the column number `j` of rows of cells -/
def jthCells (rows : List (List α)) (j : Nat) : List α := rows.filterMap (·[j]?)

/-- `df.dot(other)`: each row times each column of the other operand, aligned by labels; arrays by position -/
def Frame.dot [DecidableEq L] (P : DotOps L α) (f : Frame L L α) : DotArg L α → Option (DotOut L α)
  | .frame o =>
    (dotCommon P f.columns o.index).bind fun common =>
    (f.reindexColumns P.nan common).bind fun l => (o.reindexIndex P.nan common).map fun r =>
    .frame { index := f.index, columns := o.columns, rows := l.rows.map fun x => (List.range o.ncols).map fun j => P.inner x (jthCells r.rows j) }
  | .series index values =>
    (dotCommon P f.columns index).bind fun common =>
    (f.reindexColumns P.nan common).bind fun l => (valuesFor P.nan index common values).map fun v =>
    .series none f.index (l.rows.map fun x => P.inner x v)
  | .matrix k rows =>
    if f.ncols = rows.length then
      some (.frame { index := f.index, columns := (List.range k).map P.num,
                     rows := f.rows.map fun x => (List.range k).map fun j => P.inner x (jthCells rows j) })
    else none
  | .vector values =>
    if f.ncols = values.length then some (.series none f.index (f.rows.map fun x => P.inner x values)) else none

/-- `s.dot(other)`, for the Series with this name, these labels and these values -/
def seriesDot [DecidableEq L] (P : DotOps L α) (name : Option L) (index : List L) (values : List α) : DotArg L α → Option (DotOut L α)
  | .frame o =>
    (dotCommon P index o.index).bind fun common =>
    (valuesFor P.nan index common values).bind fun v => (o.reindexIndex P.nan common).map fun r =>
    .series name o.columns ((List.range o.ncols).map fun j => P.inner v (jthCells r.rows j))
  | .series index' values' =>
    (dotCommon P index index').bind fun common =>
    (valuesFor P.nan index common values).bind fun v => (valuesFor P.nan index' common values').map fun w => .scalar (P.inner v w)
  | .matrix k rows =>
    if values.length = rows.length then some (.array ((List.range k).map fun j => P.inner values (jthCells rows j))) else none
  | .vector values' => if values.length = values'.length then some (.scalar (P.inner values values')) else none
