import Verif.Pandas.Where
/-
Specification vocabulary: `update`, `combine_first` and `compare`, pandas' semantics.
-/

variable {ι κ α : Type}

/-- the arguments of `update` besides the other frame; a `filter_func` is a condition on single values -/
structure UpdateArgs (α : Type) where
  overwrite : Bool
  filter : Option (α → Bool)
  errors : Bool

/-- what `update` makes of the cell `v`, with `o` the cell of the other frame under the same labels, if there is one.
    `none`: `errors="raise"` and both are there. -/
def updateCell (isna : α → Bool) (a : UpdateArgs α) (v : α) (o : Option α) : Option α :=
  match o with
  | none => some v
  | some o =>
    match a.filter with
    | some p => some (if p v && !isna o then o else v)
    | none =>
      if a.errors && !isna v && !isna o then none
      else if a.overwrite then some (if isna o then v else o)
      else some (if isna v then o else v)

/-- a table of values that may fail has a value if none of them fails -/
def Frame.allSome (f : Frame ι κ (Option α)) : Option (Frame ι κ α) := (f.rows.mapM fun (r : List (Option α)) => r.mapM id).map (Frame.mk f.index f.columns)

/-- `df.update(other, ...)`: what `df` is afterwards.  pandas cannot find rows by a repeated label. -/
def Frame.update [DecidableEq ι] [DecidableEq κ] (isna : α → Bool) (a : UpdateArgs α) (f other : Frame ι κ α) : Option (Frame ι κ α) :=
  if other.index ≠ f.index ∧ ¬other.index.Nodup then none
  else (Frame.mk f.index f.columns (f.rows.mapIdx fun x row => row.mapIdx fun y v =>
    updateCell isna a v (other.alignedCell f.index f.columns x y))).allSome

/-- `a.combine_first(b)` for frames joined to the labels `J` and `C`: the cell of `a` under the labels, if it is missing that of `b` -/
def Frame.combineFirst [DecidableEq ι] [DecidableEq κ] (isna : α → Bool) (nan : α) (J : List ι) (C : List κ) (a b : Frame ι κ α) :
    Frame ι κ α :=
  ⟨J, C, (List.range J.length).map fun x => (List.range C.length).map fun y =>
    let v := (a.alignedCell J C x y).getD nan
    if isna v then (b.alignedCell J C x y).getD nan else v⟩

/-- which of the two frames compared a row or column of the result is taken from -/
inductive Side where
  | self
  | other
deriving DecidableEq, Repr

/-- the arguments of `compare`; `columns`: `align_axis=1` -/
structure CompareArgs where
  columns : Bool
  keepShape : Bool
  keepEqual : Bool

/-- whether two frames differ in a cell -/
def Frame.differAt (same : α → α → Bool) (a b : Frame ι κ α) (x y : Nat) : Bool :=
  match a.cell x y, b.cell x y with
  | some u, some v => !same u v
  | _, _ => false

/-- the rows of the result -/
def Frame.comparedRows (same : α → α → Bool) (args : CompareArgs) (a b : Frame ι κ α) : List Nat :=
  (List.range a.nrows).filter fun x => args.keepShape || (List.range a.ncols).any fun y => a.differAt same b x y

/-- the columns of the result -/
def Frame.comparedCols (same : α → α → Bool) (args : CompareArgs) (a b : Frame ι κ α) : List Nat :=
  (List.range a.ncols).filter fun y => args.keepShape || (List.range a.nrows).any fun x => a.differAt same b x y

/-- a cell of the result: missing where the frames agree, unless `keep_equal` -/
def Frame.comparedCell (same : α → α → Bool) (nan : α) (args : CompareArgs) (a b f : Frame ι κ α) (x y : Nat) : α :=
  if args.keepEqual || a.differAt same b x y then (f.cell x y).getD nan else nan

/-- `a.compare(b, ...)`.  `none`: the labels differ.  `same`: equal, or both missing. -/
def Frame.compareWith [DecidableEq ι] [DecidableEq κ] (same : α → α → Bool) (nan : α) (args : CompareArgs) (a b : Frame ι κ α) :
    Option (Frame (ι × Option Side) (κ × Option Side) α) :=
  if a.index ≠ b.index ∨ a.columns ≠ b.columns then none
  else
    let rs := a.comparedRows same args b
    let cs := a.comparedCols same args b
    let il := rs.filterMap (a.index[·]?)
    let cl := cs.filterMap (a.columns[·]?)
    let at' := a.comparedCell same nan args b
    if args.columns then
      some ⟨il.map fun i => (i, none), cl.flatMap fun c => [(c, some .self), (c, some .other)],
        rs.map fun x => cs.flatMap fun y => [at' a x y, at' b x y]⟩
    else
      some ⟨il.flatMap fun i => [(i, some .self), (i, some .other)], cl.map fun c => (c, none),
        rs.flatMap fun x => [cs.map fun y => at' a x y, cs.map fun y => at' b x y]⟩
