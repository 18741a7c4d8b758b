/-!
# Specification of a sum of two frames with the same row labels (C74)

Reading the English property needs three words: the row labels of a frame, its
values, and the row by row combination of two frames.  A frame is given by its
rows in order, each a label and a value (one column stands for all columns: the
choice of partners made here is the same for every column).
-/

/-- The rows of a frame, in order: label and value. -/
abbrev LRows := List (Int × Option Int)

/-- The labels of the rows. -/
def LRows.labels (r : LRows) : List Int := r.map (·.1)

/-- pandas on two frames whose labels are the same list: row by row. -/
def LRows.combine (op : Option Int → Option Int → Option Int) (x y : LRows) : LRows :=
  x.zipWith (fun p q => (p.1, op p.2 q.2)) y

/-- pandas on two blocks whose labels may differ: the labels of the left operand and
then the labels only the right one has; a value without a partner meets a missing one.
(pandas sorts the union when the labels differ; the order is not used here.) -/
def LRows.align (op : Option Int → Option Int → Option Int) (x y : LRows) : LRows :=
  if x.labels = y.labels then LRows.combine op x y
  else
    x.map (fun p => (p.1, op p.2 ((y.find? (·.1 == p.1)).bind (·.2))))
      ++ (y.filter fun q => !(x.labels.contains q.1)).map (fun q => (q.1, op none q.2))

/-- What a program does with its frames, which are numbered in the order they are made.
`read`: read a file whose row labels are a column of the file, in these chunks.  `fresh`,
`lazy`: any other frame, made in these pieces, with its labels known at once or not.
`derive`: an operation cell by cell (how much of what is known about the labels is kept
is the library's business: `keep`).  `relabel`: `df.index = labels`.  `len`, `index`:
`len(df)` and `df.index`.  `binary`: an operation of two frames. -/
inductive IdOp where
  | read (chunks : List LRows)
  | fresh (pieces : List LRows)
  | lazy (pieces : List LRows)
  | derive (i : Nat) (f : Option Int → Option Int) (keep : Bool)
  | relabel (i : Nat) (labels : List Int)
  | len (i : Nat)
  | index (i : Nat)
  | binary (op : Option Int → Option Int → Option Int) (i j : Nat)

/-- The same program in pandas, where a frame is its rows.  Of the operations of two
frames only those between frames with the same labels are considered here: the others,
like steps that raise, make no frame. -/
def plainStep (fs : List LRows) : IdOp → List LRows
  | .read bs | .fresh bs | .lazy bs => fs ++ [bs.flatten]
  | .derive i f _ =>
    match fs[i]? with
    | none => fs
    | some x => fs ++ [x.map fun p => (p.1, f p.2)]
  | .relabel i labels =>
    match fs[i]? with
    | none => fs
    | some x => if x.length = labels.length then fs.set i (x.zipWith (fun p l => (l, p.2)) labels) else fs
  | .len _ | .index _ => fs
  | .binary op i j =>
    match fs[i]?, fs[j]? with
    | some x, some y => if LRows.labels x = LRows.labels y then fs ++ [LRows.combine op x y] else fs
    | _, _ => fs

/-- The frames of a program in pandas. -/
def plainRun (ops : List IdOp) : List LRows := ops.foldl plainStep []

/-- No chunk that a reader delivers is without rows. -/
def IdOp.FullChunks : IdOp → Prop
  | .read bs => ∀ b ∈ bs, b ≠ []
  | _ => True
