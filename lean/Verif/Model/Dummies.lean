import Verif.Pandas.Dummies
import Verif.Model.Insert
import Verif.Model.Duplicated
import Verif.Model.Relabel
/-
Model of `get_dummies`.
-/

variable {ι L α P : Type}

/-- `Index.intersection`: the labels of `own` that are in `other`, each once, in the order of `own` -/
def labelsInBoth [DecidableEq L] (own other : List L) : List L := firsts (own.filter fun c => other.contains c)

/-- modin/core/storage_formats/pandas/query_compiler.py:4655-4657 `map_fn` of `get_dummies`, run on whole block columns.  (A
    block without columns is left as it is here; pandas raises `ValueError` for it.) -/
def dummyBlock [DecidableEq L] (E : Encoder P L α) (pre : Option (List P)) (columns : List L) (b : Frame ι L α) :
    Option (Frame ι L α) :=
  if b.columns = [] then some b else b.getDummies E pre (labelsInBoth b.columns columns)

/-- modin/core/dataframe/pandas/dataframe/dataframe.py:1097-1111 `take_2d_labels_or_positional(col_labels=labels)`:
    `get_indexer_for` answers -1 for a label that is not there, and position -1 is the last column.  (Several labels of which
    one is not there are not modelled: `none`.) -/
def LFrame.takeColLabelsOrLast [DecidableEq ι] [DecidableEq L] (cfg : Cfg) (known : Nat → Nat → Bool × Bool) (labels : List L)
    (m : LFrame ι L α) : Option (LFrame ι L α) :=
  match getIndexerFor m.getColumns labels with
  | [none] => m.take2d cfg known none (some (.array [m.getColumns.length - 1]))
  | _ => m.takeColLabels cfg known labels

/-- modin/core/storage_formats/pandas/query_compiler.py:4659-4683: `get_dummies` once the labels of the columns to encode are
    known.  The row labels of both parts are the same, so how they are joined (`how="left"`) does not matter. -/
def LFrame.getDummies [DecidableEq L] (cfg : Cfg) (nan : α) (known : Nat → Nat → Bool × Bool) (knownG : Grid L L α → Bool)
    (E : Encoder P L α) (pre : Option (List P)) (columns : List L) (m : LFrame L L α) : Option (LFrame L L α) :=
  if columns.length = m.getColumns.length then
    m.applyFullColumns cfg (dummyBlock E pre columns) (some m.getIndex) none
  else
    (m.takeColLabelsOrLast cfg known columns).bind fun t =>
    (t.applyFullColumns cfg (dummyBlock E pre columns) (some m.getIndex) none).bind fun new =>
    (m.dropCompiled cfg known none (some columns)).bind fun untouched =>
    untouched.concatCols (keepFirst L) cfg nan knownG [new]

/-- modin/core/storage_formats/pandas/query_compiler.py:4647: the columns encoded when `columns` is `None`.  `dtypes[c]` of a
    repeated label is a Series of dtypes, which is not a numeric dtype. -/
def dummyColumns [DecidableEq L] (kinds : List DummyKind) (columns : List L) : List L :=
  columns.filter fun c =>
    match (columns.zip kinds).filter fun e => decide (e.1 = c) with
    | [e] => e.2 != .number
    | _ => true

/-- modin/core/storage_formats/pandas/query_compiler.py:4643-4651: `get_dummies` with `columns=None` -/
def LFrame.getDummiesDefault [DecidableEq L] (cfg : Cfg) (nan : α) (known : Nat → Nat → Bool × Bool)
    (knownG : Grid L L α → Bool) (E : Encoder P L α) (pre : Option (List P)) (kinds : List DummyKind) (m : LFrame L L α) :
    Option (LFrame L L α) :=
  let columns := dummyColumns kinds m.getColumns
  if columns = [] then m.copy else m.getDummies cfg nan known knownG E pre columns

/-- modin/core/storage_formats/pandas/query_compiler.py:4663, 4669 (`dtypes=bool`) with
    modin/core/dataframe/pandas/dataframe/dataframe.py:3590-3597: the dtypes reported for the result - those of the columns
    kept, then `bool` for every new column.  `D` are dtypes, `asked` is the argument `dtype`. -/
def dummyDtypes {D : Type} (bool : D) (_asked : Option D) (kept : List D) (new : Nat) : List D := kept ++ List.replicate new bool
