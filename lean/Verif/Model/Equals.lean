import Verif.Pandas.Equals
import Verif.Model.Concat
import Verif.Model.Reduce
import Verif.Model.LocGet
import Verif.Model.Reindex
import Verif.Model.Dropna
/-
`equals`, the iterators over rows and columns, and `asof`.
Models modin/pandas/dataframe.py (`equals`, `iterrows`, `items`, `itertuples`), modin/pandas/iterator.py (`PartitionIterator`),
modin/pandas/base.py (`all` with `axis=None`, `asof`) and modin/core/storage_formats/pandas/query_compiler.py:542 (`equals`).
-/

variable {L α : Type}

/-! ### `equals` -/

/-- modin/core/storage_formats/pandas/query_compiler.py:542: `pandas.DataFrame([[df.equals(other)]])` for two blocks; `zero` is the
    label of its only row and column.  dtypes are not modelled (`same` compares cells). -/
def equalsBlock [DecidableEq L] (same : α → α → Bool) (zero : L) (a : Frame L L α) (os : List (Frame L L α)) :
    Option (Frame L L (Option Bool)) :=
  os.head?.map fun b => { index := [zero], columns := [zero], rows := [[some (a.equals same b)]] }

/-- pandas' `all(skipna=True)` of a column: missing values count for nothing -/
def allTrue (c : List (Option Bool)) : Option Bool := some (c.all (· != some false))

/-- the only cell -/
def onlyValue {ι κ β : Type} (f : Frame ι κ β) : Option β :=
  match f.rows with
  | [[a]] => some a
  | _ => none

/-- modin/pandas/base.py:905-948 `all(axis=None)` of a frame: `all` of every column (modin/core/storage_formats/pandas/query_compiler.py:987),
    the row `"__reduced__"` of results becomes a Series (modin/core/storage_formats/base/query_compiler.py:1879-1900, `columnarize`
    transposes it), `all` of that, and `to_pandas().squeeze()` (modin/pandas/series.py:2601-2614). -/
def allCells [DecidableEq L] (cfg : Cfg) (m : MFrame L L (Option Bool)) : Option (Option Bool) :=
  (treeReduceOp cfg allTrue allTrue m).bind fun r =>
  (LFrame.transpose ⟨r, false, false⟩).bind fun s =>
  (treeReduceOp cfg allTrue allTrue s.toMFrame).bind fun t =>
  (t.toPandas none).bind onlyValue

/-- modin/pandas/dataframe.py:841-859 `equals`: labels first, then block by block; `P` is the outer join of labels.  The two frames have
    their labels written to the blocks.  The result is a value or NaN (`none`). -/
def MFrame.equals [DecidableEq L] (P : JoinOps L) (cfg : Cfg) (nan : α) (same : α → α → Bool) (zero : L) (self other : MFrame L L α) :
    Option (Option Bool) :=
  if self.getIndex ≠ other.getIndex ∨ self.getColumns ≠ other.getColumns then some (some false)
  else (nAryOp P cfg nan (equalsBlock same zero) self [other]).bind (allCells cfg)

/-! ### iteration -/

/-- modin/pandas/iterator.py:41-80 `PartitionIterator`, axis 0: `df.iloc[i, :]` for every row; modin/pandas/dataframe.py:1188-1200
    `iterrows` gives `s.name, s` -/
def LFrame.iterrows [DecidableEq L] (cfg : Cfg) (known : Nat → Nat → Bool × Bool) (nan : α) (unnamed : L) (m : LFrame L L α) :
    Option (List (Located L α)) :=
  (List.range m.getIndex.length).mapM fun (i : Nat) => m.ilocAt cfg known nan unnamed (.int i) (.slice none none)

/-- the same, axis 1: `df.iloc[:, j]` for every column; modin/pandas/dataframe.py:1202-1214 `items` -/
def LFrame.items [DecidableEq L] (cfg : Cfg) (known : Nat → Nat → Bool × Bool) (nan : α) (unnamed : L) (m : LFrame L L α) :
    Option (List (Located L α)) :=
  (List.range m.getColumns.length).mapM fun (j : Nat) => m.ilocAt cfg known nan unnamed (.slice none none) (.int j)

/-- modin/pandas/dataframe.py:1216-1230 `itertuples`: the label (with `index=True`) and the cells of `df.iloc[i, :]`.  The names of the
    fields and the dtypes are not modelled. -/
def LFrame.itertuples [DecidableEq L] (cfg : Cfg) (known : Nat → Nat → Bool × Bool) (nan : α) (unnamed : L) (index : Bool)
    (m : LFrame L L α) : Option (List (Option L × List α)) :=
  (m.iterrows cfg known nan unnamed).bind fun os => os.mapM fun o => (o.observe nan).bind fun s =>
    match s with
    | .series name _ values => some (if index then some name else none, values)
    | _ => none

/-! ### `asof` -/

/-- pandas' `Index.asof(w)`: labels in ascending order: the last one not above `w`; in descending order: `w` itself or the last label
    above it; otherwise it raises.  `nanLabel` is NaN as a label. -/
def indexAsof [DecidableEq L] (le : L → L → Bool) (nanLabel : L) (labels : List L) (w : L) : Option L :=
  if labels.Pairwise (fun x y => le x y = true) then some ((labels.filter fun x => le x w).getLast?.getD nanLabel)
  else if labels.Pairwise (fun x y => le y x = true) then
    some (if w ∈ labels then w else (labels.filter fun x => !le x w).getLast?.getD nanLabel)
  else none

/-- modin/pandas/base.py:1070-1074: the data looked at, `self` or `self[subset]` (`KeyError` for a column that is not there) -/
def LFrame.asofData [DecidableEq L] (cfg : Cfg) (known : Nat → Nat → Bool × Bool) (subset : Option (List L)) (m : LFrame L L α) :
    Option (LFrame L L α) :=
  match subset with
  | none => some m
  | some xs => if xs.all (m.getColumns.contains ·) then m.takeColLabels cfg known xs else none

/-- modin/pandas/base.py:1057-1078 `asof` for a list `where` -/
def LFrame.asof [DecidableEq L] (cfg : Cfg) (known : Nat → Nat → Bool × Bool) (le : L → L → Bool) (nanLabel : L) (isna : α → Bool)
    (num : Nat → L) (nan : α) (subset : Option (List L)) (where_ : List L) (m : LFrame L L α) : Option (LFrame L L α) :=
  (m.asofData cfg known subset).bind fun data =>
  (data.dropnaRows cfg isna num (.how .any) none false).bind fun d =>
  (where_.mapM (indexAsof le nanLabel d.getIndex)).bind fun new =>
  (m.reindex cfg nan (some ⟨true, new⟩) none).bind fun r => r.setIndex where_

/-- modin/pandas/base.py:1061-1065 and 1080-1083: `where` a single label; `.squeeze()` of the result -/
def LFrame.asofOne [DecidableEq L] (cfg : Cfg) (known : Nat → Nat → Bool × Bool) (le : L → L → Bool) (nanLabel : L) (isna : α → Bool)
    (num : Nat → L) (nan : α) (unnamed : L) (subset : Option (List L)) (w : L) (m : LFrame L L α) : Option (Located L α) :=
  (m.asof cfg known le nanLabel isna num nan subset [w]).bind fun r => r.squeeze nan unnamed none
