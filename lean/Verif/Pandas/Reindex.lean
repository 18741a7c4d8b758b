import Verif.Pandas.Frame
/-
Specification vocabulary: `reindex`, and enlarging a frame by a row or by columns.
-/

variable {ι κ α L : Type}

/-- `df.reindex(J, axis=0, fill_value=fill)`: for each label of `J` the row carrying it, or a row of `fill`.  pandas raises
    (`none`) when row labels repeat, unless they are `J` already. -/
def Frame.reindexIndex [DecidableEq ι] (fill : α) (J : List ι) (df : Frame ι κ α) : Option (Frame ι κ α) :=
  if df.index = J then some df
  else if df.index.Nodup then
    some { index := J, columns := df.columns,
           rows := J.map fun x => (((df.index.zip df.rows).find? (·.1 == x)).map (·.2)).getD (List.replicate df.ncols fill) }
  else none

/-- `df.reindex(K, axis=1, fill_value=fill)`: in each row, for each label of `K` the cell in the column carrying it, or `fill`. -/
def Frame.reindexColumns [DecidableEq κ] (fill : α) (K : List κ) (df : Frame ι κ α) : Option (Frame ι κ α) :=
  if df.columns = K then some df
  else if df.columns.Nodup then
    some { index := df.index, columns := K,
           rows := df.rows.map fun r => K.map fun y => (((df.columns.zip r).find? (·.1 == y)).map (·.2)).getD fill }
  else none

/-- the `index` argument of `df.reindex`; `none`: not given -/
def Frame.reindexIndex? [DecidableEq ι] (fill : α) (J : Option (List ι)) (df : Frame ι κ α) : Option (Frame ι κ α) :=
  match J with
  | none => some df
  | some J => df.reindexIndex fill J

/-- the `columns` argument of `df.reindex`; `none`: not given -/
def Frame.reindexColumns? [DecidableEq κ] (fill : α) (K : Option (List κ)) (df : Frame ι κ α) : Option (Frame ι κ α) :=
  match K with
  | none => some df
  | some K => df.reindexColumns fill K

/-- `df.reindex(index=J, columns=K, fill_value=fill)` -/
def Frame.reindex [DecidableEq ι] [DecidableEq κ] (fill : α) (J : Option (List ι)) (K : Option (List κ)) (df : Frame ι κ α) :
    Option (Frame ι κ α) :=
  (df.reindexIndex? fill J).bind fun df1 => df1.reindexColumns? fill K

/-- the frame with one more row at the end -/
def Frame.addRow (x : ι) (row : List α) (df : Frame ι κ α) : Frame ι κ α :=
  { index := df.index ++ [x], columns := df.columns, rows := df.rows ++ [row] }

/-- the frame with more columns at the end, all cells `v` -/
def Frame.addColumns (ys : List κ) (v : α) (df : Frame ι κ α) : Frame ι κ α :=
  { index := df.index, columns := df.columns ++ ys, rows := df.rows.map fun r => r ++ List.replicate ys.length v }
