import Verif.Pandas.Frame
/-
What a parquet dataset, a feather file and the result of a query are, and what pandas makes of them.  Trusted base:
nothing here mentions partitions.
-/

variable {ι κ α : Type}

/-- One stored row: the value of the index column(s) if the index was stored as data, and the value of every column. -/
structure StoredRow (ι κ α : Type) where
  label : ι
  cells : κ → α

/-- The pandas metadata of a dataset: the index is stored as data, or it is a range of which only the description
    is kept (`start`, `stop`, `step`), or nothing is known about it. -/
inductive IndexInfo where
  | stored
  | range (start stop step : Int)
  | unknown
deriving DecidableEq, Repr

/-- A parquet dataset: its column names, which of them hold the index, the metadata, and the files in order, each
    with its row groups in order. -/
structure PqDataset (ι κ α : Type) where
  names : List κ
  isIndex : κ → Bool
  info : IndexInfo
  files : List (List (List (StoredRow ι κ α)))

/-- all rows, file by file, row group by row group -/
def PqDataset.rows (ds : PqDataset ι κ α) : List (StoredRow ι κ α) := ds.files.flatten.flatten

/-- `len(range(start, stop, step))` -/
def pyRangeLen (start stop step : Int) : Nat :=
  if 0 < step ∧ start < stop then ((stop - start - 1) / step + 1).toNat
  else if step < 0 ∧ stop < start then ((start - stop - 1) / (-step) + 1).toNat
  else 0

/-- the labels `start, start + step, ...` (`n` of them); `num` makes a label of a number -/
def rangeLabels (num : Int → ι) (start step : Int) (n : Nat) : List ι :=
  (List.range n).map fun i => num (start + (i : Nat) * step)

/-- The row labels pyarrow gives to the rows it has read: those stored, or the described range if it has exactly
    that many elements, or else 0, 1, 2, ... (pyarrow/pandas_compat.py `_reconstruct_index`). -/
def pqLabels (num : Int → ι) (info : IndexInfo) (rows : List (StoredRow ι κ α)) : List ι :=
  match info with
  | .stored => rows.map (·.label)
  | .range start stop step =>
    if pyRangeLen start stop step = rows.length then rangeLabels num start step rows.length
    else rangeLabels num 0 1 rows.length
  | .unknown => rangeLabels num 0 1 rows.length

/-- the rows a filter keeps; no filter keeps all -/
def keptRows (filter : Option (StoredRow ι κ α → Bool)) (rows : List (StoredRow ι κ α)) : List (StoredRow ι κ α) :=
  match filter with
  | none => rows
  | some p => rows.filter p

/-- The frame pandas builds of some rows and column names. -/
def pqFrame (num : Int → ι) (info : IndexInfo) (cols : List κ) (rows : List (StoredRow ι κ α)) : Frame ι κ α :=
  { index := pqLabels num info rows, columns := cols, rows := rows.map fun r => cols.map r.cells }

/-- `pandas.read_parquet(path, columns=requested, filters=filter)` (pyarrow engine): all columns if none are
    requested; a column holding the index is not a column of the result. -/
def pandasReadParquet (num : Int → ι) (ds : PqDataset ι κ α) (requested : Option (List κ))
    (filter : Option (StoredRow ι κ α → Bool)) : Frame ι κ α :=
  pqFrame num ds.info ((requested.getD ds.names).filter fun c => !ds.isIndex c) (keptRows filter ds.rows)

/-- `pandas.read_sql(query, con, index_col=...)`: the rows of the query in order; without an index column they are
    numbered. -/
def pandasReadSql (num : Int → ι) (indexCol : Bool) (cols : List κ) (rows : List (StoredRow ι κ α)) : Frame ι κ α :=
  pqFrame num (if indexCol then .stored else .unknown) cols rows

/-- `query LIMIT limit OFFSET offset` when the database returns the rows of `query` in the same order each time. -/
def limitOffset {τ : Type} (rows : List τ) (limit offset : Nat) : List τ := (rows.drop offset).take limit
