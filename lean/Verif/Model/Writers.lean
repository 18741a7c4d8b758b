import Verif.Model.Readers
/-
Writers of parquet directories and database tables.
Models modin/core/io/column_stores/parquet_dispatcher.py:912-962 `write` and
modin/core/io/sql/sql_dispatcher.py:131-186 `write`.
-/

variable {ι κ α : Type}

/-! ### to_parquet -/

/-- What one parquet file holds: the description of the index, the column names, the row groups. -/
structure PqFile (ι κ α : Type) where
  info : IndexInfo
  names : List κ
  groups : List (List (StoredRow ι κ α))

/-- A directory: file names (the number in the name, digit by digit) and files. -/
abbrev PqDir (ι κ α : Type) := List (List Nat × PqFile ι κ α)

/-- The digits of `f"{i:04d}"` (modin/core/io/column_stores/parquet_dispatcher.py:945). -/
def partName (i : Nat) : List Nat :=
  let width := if i < 10000 then 4 else (Nat.toDigits 10 i).length
  (List.range width).reverse.map fun k => i / 10 ^ k % 10

/-- A row as it is stored; `nan` is what is found under a name the frame does not have. -/
def storedRow [DecidableEq κ] (nan : α) (columns : List κ) (label : ι) (row : List α) : StoredRow ι κ α :=
  { label := label, cells := fun k => ((columns.zip row).lookup k).getD nan }

/-- `df.to_parquet(path)` of pandas for the rows `offset, offset + 1, ...` of a frame: `rg` divides the rows into row
    groups.  `ix`: the index of the frame is a `RangeIndex` with this start and step, of which a slice is again one; it
    is not stored but described. -/
def pqFileOf [DecidableEq κ] (nan : α) (rg : List (StoredRow ι κ α) → List (List (StoredRow ι κ α)))
    (ix : Option (Int × Int)) (offset : Nat) (band : Frame ι κ α) : PqFile ι κ α :=
  { info := match ix with
      | none => .stored
      | some (start, step) => .range (start + offset * step) (start + (offset + band.nrows : Nat) * step) step
    names := band.columns
    groups := rg (List.zipWith (storedRow nan band.columns) band.index band.rows) }

/-- modin/core/io/column_stores/parquet_dispatcher.py:930-959: the files the workers write, one per row partition. -/
def pqWrites [DecidableEq ι] [DecidableEq κ] (nan : α) (rg : List (StoredRow ι κ α) → List (List (StoredRow ι κ α)))
    (ix : Option (Int × Int)) (g : Grid ι κ α) : Option (PqDir ι κ α) :=
  (g.mapM Frame.hcat).map fun bands =>
    bands.mapIdx fun i b => (partName i, pqFileOf nan rg ix ((bands.take i).map (·.nrows)).sum b)

/-- A file is written over one of the same name. -/
def writeFile (dir : PqDir ι κ α) (e : List Nat × PqFile ι κ α) : PqDir ι κ α :=
  dir.filter (fun x => x.1 ≠ e.1) ++ [e]

/-- The directory (created with `exist_ok=True`, line 927, nothing is removed) after the workers have written `ws`, in
    that order. -/
def runWrites (dir ws : PqDir ι κ α) : PqDir ι κ α := ws.foldl writeFile dir

/-- insertion into a list sorted by name -/
def insertByName (e : List Nat × PqFile ι κ α) : PqDir ι κ α → PqDir ι κ α
  | [] => [e]
  | x :: xs => if e.1 ≤ x.1 then e :: x :: xs else x :: insertByName e xs

/-- files in the order in which pyarrow lists them: by name, compared character by character -/
def sortByName (dir : PqDir ι κ α) : PqDir ι κ α := dir.foldr insertByName []

/-- modin/core/io/column_stores/parquet_dispatcher.py:171-227 `PyArrowDataset`: the files of the directory in order,
    with the schema of the first; `none`: there is none.  Index columns are kept apart from the columns here. -/
def openDataset (dir : PqDir ι κ α) : Option (PqDataset ι κ α) :=
  match sortByName dir with
  | [] => none
  | e :: es => some { names := e.2.names, isIndex := fun _ => false, info := e.2.info,
                      files := (e :: es).map fun x => x.2.groups }

/-! ### to_sql -/

/-- the parameter `if_exists` -/
inductive IfExists where
  | fail
  | replace
  | append
deriving DecidableEq, Repr

/-- `to_sql` of pandas for a frame with no rows: makes the table; `none`: raises. -/
def sqlCreate {τ : Type} (ie : IfExists) (table : Option (List τ)) : Option (List τ) :=
  match ie, table with
  | .fail, some _ => none
  | .append, some rows => some rows
  | _, _ => some []

/-- modin/core/io/sql/sql_dispatcher.py:157-186: the table is made with no rows, then each row partition is appended by
    a worker; `done`: the partitions in the order in which the workers come to them. -/
def toSql {τ : Type} (ie : IfExists) (table : Option (List τ)) (done : List (List τ)) : Option (List τ) :=
  (sqlCreate ie table).map fun t => done.foldl (· ++ ·) t
