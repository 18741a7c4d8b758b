import Verif.Pandas.Fold
/-
Specification vocabulary: `fillna` with a value, pandas' semantics.
-/

variable {ι κ α β : Type}

/-- a function of a cell and its two labels -/
def Frame.mapCellsL (g : ι → κ → α → β) (f : Frame ι κ α) : Frame ι κ β :=
  { f with rows := List.zipWith (fun i r => List.zipWith (g i) f.columns r) f.index f.rows }

/-- a function of a column and its name; row labels stay -/
def Frame.mapNamed (h : κ → List α → List β) (f : Frame ι κ α) : Frame ι κ β :=
  { f with rows := (List.range f.nrows).map fun i => (f.columns.zip f.cols).filterMap fun p => (h p.1 p.2)[i]? }

/-- `Series.fillna(v, limit=n)`: the first `n` missing cells -/
def fillFirst (isna : α → Bool) (v : α) : Nat → List α → List α
  | _, [] => []
  | 0, c => c
  | n + 1, x :: xs => if isna x then v :: fillFirst isna v n xs else x :: fillFirst isna v (n + 1) xs

/-- the value a dictionary or a Series gives for a label -/
def valueFor [DecidableEq κ] (d : List (κ × α)) (k : κ) : Option α := (d.find? fun p => decide (p.1 = k)).map (·.2)

/-- a missing cell is replaced, if there is something to replace it with -/
def fillCell (isna : α → Bool) (v : Option α) (x : α) : α := if isna x then v.getD x else x

/-- `df.fillna(v, axis=..., limit=...)` with a scalar -/
def Frame.fillScalar (isna : α → Bool) (v : α) (limit : Option Nat) (axis0 : Bool) (f : Frame ι κ α) : Frame ι κ α :=
  match limit with
  | none => f.mapCells (fillCell isna (some v))
  | some n => f.along axis0 (fillFirst isna v n)

/-- `df.fillna({name: value, ...}, limit=...)`: the columns named, each with its own value -/
def Frame.fillDict [DecidableEq κ] (isna : α → Bool) (d : List (κ × α)) (limit : Option Nat) (f : Frame ι κ α) : Frame ι κ α :=
  match limit with
  | none => f.mapCellsL fun _ k => fillCell isna (valueFor d k)
  | some n => f.mapNamed fun k c => match valueFor d k with
    | some v => fillFirst isna v n c
    | none => c

/-- the rows of `v` for given row labels: `v.reindex(idx)`; the same labels need not be distinct -/
def Frame.rowsFor [DecidableEq ι] (v : Frame ι κ α) (idx : List ι) : List (Option (List α)) :=
  if v.index = idx then v.rows.map some else idx.map fun x => (v.index.findIdx? (· == x)).bind fun p => v.rows[p]?

/-- `df.fillna(v)` with a frame: a missing cell becomes the cell of `v` with the same labels, missing (`nan`) if there is none.
    (If labels of `v` repeat and differ from those of `df`, pandas raises.) -/
def Frame.fillFrame [DecidableEq ι] [DecidableEq κ] (f : Frame ι κ α) (nan : α) (isna : α → Bool) (v : Frame ι κ α) : Frame ι κ α :=
  ⟨f.index, f.columns, List.zipWith (fun (r : List α) (o : Option (List α)) => List.zipWith (fun (k : κ) (x : α) =>
      if isna x then (o.bind fun row => (v.columns.findIdx? (· == k)).bind fun p => row[p]?).getD nan else x) f.columns r)
    f.rows (v.rowsFor f.index)⟩
