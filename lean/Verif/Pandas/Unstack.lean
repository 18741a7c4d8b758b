import Verif.Pandas.GroupAgg
import Verif.Pandas.Relabel
import Verif.Pandas.Sort
/-
Specification vocabulary: `df.stack()`, `df.unstack()` and `df.pivot(...)`.
A Series is a frame with one column, whose label is `()`; a label of several levels is a pair.  Missing labels, level names and
dtypes are left out.
-/

variable {ι κ κ' α A B : Type}

/-- the Series with the given labels and values, in order -/
def seriesOf (cells : List (ι × α)) : Frame ι Unit α :=
  { index := cells.map (·.1), columns := [()], rows := cells.map fun c => [c.2] }

/-- `df.stack(dropna=drop)`: the cells row by row, each labelled by its row and its column; missing cells are left out if
    `drop` -/
def Frame.stack (isna : α → Bool) (drop : Bool) (df : Frame ι κ α) : Frame (ι × κ) Unit α :=
  seriesOf ((df.index.zip df.rows).flatMap fun r =>
    ((df.columns.zip r.2).filter fun c => !(drop && isna c.2)).map fun c => ((r.1, c.1), c.2))

/-- the cells of a frame column by column, each labelled by its column and its row -/
def Frame.byColumn (df : Frame ι κ α) : List ((κ × ι) × α) :=
  df.named.flatMap fun c => (df.index.zip c.2).map fun p => ((c.1, p.1), p.2)

/-- `df.unstack()` for one level of row labels: the cells column by column.  pandas raises (`none`) when row labels repeat. -/
def Frame.unstackFlat [DecidableEq ι] (df : Frame ι κ α) : Option (Frame (κ × ι) Unit α) :=
  if df.index.Nodup then some (seriesOf df.byColumn) else none

/-- the distinct values of a list in order (the values of a level of labels) -/
def levelValues [DecidableEq A] (le : A → A → Bool) (xs : List A) : List A := sortBy le (firsts xs)

/-- the columns `df.unstack()` makes of one column: one for each value `b` of the second level, which holds, for every value
    `a` of the first, the cell of the row labelled `(a, b)`, or `fill` -/
def unstackColumn [DecidableEq A] [DecidableEq B] (leA : A → A → Bool) (leB : B → B → Bool) (fill : α) (lab : κ → B → κ')
    (index : List (A × B)) (c : κ × List α) : List (κ' × List α) :=
  (levelValues leB (index.map (·.2))).map fun b =>
    (lab c.1 b, (levelValues leA (index.map (·.1))).map fun a => (((index.zip c.2).find? (·.1 == (a, b))).map (·.2)).getD fill)

/-- `df.unstack(level=1, fill_value=fill)` for two levels of row labels.  pandas raises (`none`) when row labels repeat.
    `lab` makes a column label of an old column label and of a value of the level. -/
def Frame.unstackInner [DecidableEq A] [DecidableEq B] (leA : A → A → Bool) (leB : B → B → Bool) (fill : α) (lab : κ → B → κ')
    (df : Frame (A × B) κ α) : Option (Frame A κ' α) :=
  if df.index.Nodup then
    some (Frame.ofCols (levelValues leA (df.index.map (·.1))) (df.named.flatMap (unstackColumn leA leB fill lab df.index)))
  else none

/-- `df.unstack(level=0, fill_value=fill)` -/
def Frame.unstackOuter [DecidableEq A] [DecidableEq B] (leA : A → A → Bool) (leB : B → B → Bool) (fill : α) (lab : κ → A → κ')
    (df : Frame (A × B) κ α) : Option (Frame B κ' α) :=
  Frame.unstackInner leB leA fill lab { index := df.index.map fun l => (l.2, l.1), columns := df.columns, rows := df.rows }

/-- the `values` argument of `pivot` -/
inductive PivotValues (κ : Type) where
  | missing
  | column (v : κ)
  | columns (vs : List κ)
deriving DecidableEq, Repr

/-- the columns whose cells `pivot` spreads out: those given, or all but the two it uses as labels -/
def PivotValues.labels [DecidableEq κ] (index columns : κ) (all : List κ) : PivotValues κ → List κ
  | .missing => all.filter fun k => decide (k ≠ index) && decide (k ≠ columns)
  | .column v => [v]
  | .columns vs => vs

/-- a column label of `pivot`: of two levels, except when a single column is asked for by its label alone -/
def PivotValues.label : PivotValues κ → κ → α → Option κ × α
  | .column _, _, b => (none, b)
  | _, v, b => (some v, b)

/-- the only column called `k`; `none`: there is none, or more than one -/
def Frame.onlyColumn [DecidableEq κ] (df : Frame ι κ α) (k : κ) : Option (List α) :=
  match df.named.filter fun c => decide (c.1 = k) with
  | [c] => some c.2
  | _ => none

/-- `df.pivot(index=i, columns=c, values=values)`: the cells of the columns `values`, each in the row given by the cell of
    column `i` and in the column given by the cell of column `c`.  pandas raises (`none`) when a pair of cells repeats, when
    a column named does not exist or exists twice, and when `i` is `c`. -/
def Frame.pivot [DecidableEq κ] [DecidableEq α] (le : α → α → Bool) (nan : α) (i c : κ) (values : PivotValues κ) (df : Frame ι κ α) :
    Option (Frame α (Option κ × α) α) :=
  if i = c then none else
  (df.onlyColumn i).bind fun ci => (df.onlyColumn c).bind fun cc =>
  ((values.labels i c df.columns).mapM fun v => (df.onlyColumn v).map fun cells => (v, cells)).bind fun vs =>
  (Frame.ofCols (ci.zip cc) vs).unstackInner le le nan values.label
