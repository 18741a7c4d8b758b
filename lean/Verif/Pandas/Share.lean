/-
Specification vocabulary: programs that make frames and Series from one another and change them in place, and which objects such a change
may be seen through.
-/

variable {C : Type}

/-- One step of a program.  Objects are numbered in the order in which they are made; `C` is what an object shows (data and labels). -/
inductive ShareOp (C : Type) where
  /-- a new object -/
  | new (c : C)
  /-- an operation that returns an object: `copy()`, `df + 1`, `df.sort_values(...)`, ... -/
  | derive (o : Nat) (f : C → C)
  /-- `o.copy(deep=False)` -/
  | shallow (o : Nat)
  /-- `DataFrame(o)` -/
  | wrap (o : Nat)
  /-- an operation that returns an object like `o` because there is nothing to do: `o.reindex(index=o.index)`, `o.squeeze(axis=1)` of a
      frame with one column, `o.pin_backend()` -/
  | unchanged (o : Nat)
  /-- `o[key]`: a column of the frame `o` -/
  | column (o : Nat) (f : C → C)
  /-- a change of the contents in place: `o.iloc[i, j] = v`, `o.fillna(v, inplace=True)`, `o[key] = v`, ... -/
  | assign (o : Nat) (f : C → C)
  /-- new labels: `o.index = ...`, `o.columns = ...`, `o.name = ...` -/
  | relabel (o : Nat) (f : C → C)

/-- the function with another value at one place -/
def fset {A : Type} (f : Nat → A) (i : Nat) (v : A) : Nat → A := fun j => if j = i then v else f j

/-- What a program is to mean: each of the `n` objects looks at a cell, shallow copies at the same one; `parent` is the frame a column
    was taken from. -/
structure SharedCells (C : Type) where
  n : Nat
  cell : Nat → Nat
  parent : Nat → Option Nat
  cells : Nat
  val : Nat → C

/-- what the object shows -/
def SharedCells.shows (a : SharedCells C) (o : Nat) : C := a.val (a.cell o)

/-- a new object with a cell of its own -/
def SharedCells.fresh (a : SharedCells C) (c : C) (parent : Option Nat) : SharedCells C :=
  ⟨a.n + 1, fset a.cell a.n a.cells, fset a.parent a.n parent, a.cells + 1, fset a.val a.cells c⟩

/-- a new object that looks at the cell of `o` -/
def SharedCells.same (a : SharedCells C) (o : Nat) : SharedCells C :=
  ⟨a.n + 1, fset a.cell a.n (a.cell o), fset a.parent a.n none, a.cells, a.val⟩

/-- the cell of `o` gets a new content -/
def SharedCells.write (a : SharedCells C) (o : Nat) (c : C) : SharedCells C := { a with val := fset a.val (a.cell o) c }

/-- One step.  `put frame column` is the frame with the column written into it: a change of a column made in place is also made in the
    frame it was taken from.  `none`: the object does not exist. -/
def SharedCells.step (put : C → C → C) (a : SharedCells C) : ShareOp C → Option (SharedCells C)
  | .new c => some (a.fresh c none)
  | .derive o f => if o < a.n then some (a.fresh (f (a.shows o)) none) else none
  | .shallow o => if o < a.n then some (a.same o) else none
  | .wrap o => if o < a.n then some (a.same o) else none
  | .unchanged o => if o < a.n then some (a.fresh (a.shows o) none) else none
  | .column o f => if o < a.n then some (a.fresh (f (a.shows o)) (some o)) else none
  | .assign o f =>
    if o < a.n then
      let a1 := a.write o (f (a.shows o))
      match a.parent o with
      | none => some a1
      | some p => some (a1.write p (put (a1.shows p) (a1.shows o)))
    else none
  | .relabel o f => if o < a.n then some (a.write o (f (a.shows o))) else none

/-- the whole program -/
def SharedCells.run [Inhabited C] (put : C → C → C) (ops : List (ShareOp C)) : Option (SharedCells C) :=
  ops.foldlM (fun a op => a.step put op) ⟨0, fun _ => 0, fun _ => none, 0, fun _ => default⟩

/-- Kinship: objects made from one another by `copy(deep=False)`, `DataFrame(o)` or an operation that had nothing to do, in any number of
    steps.  `kin` is the oldest of the kin. -/
structure Kinship where
  n : Nat
  kin : Nat → Nat
  parent : Nat → Option Nat

def Kinship.step (k : Kinship) : ShareOp C → Kinship
  | .new _ => ⟨k.n + 1, fset k.kin k.n k.n, fset k.parent k.n none⟩
  | .derive _ _ => ⟨k.n + 1, fset k.kin k.n k.n, fset k.parent k.n none⟩
  | .shallow o => ⟨k.n + 1, fset k.kin k.n (k.kin o), fset k.parent k.n none⟩
  | .wrap o => ⟨k.n + 1, fset k.kin k.n (k.kin o), fset k.parent k.n none⟩
  | .unchanged o => ⟨k.n + 1, fset k.kin k.n (k.kin o), fset k.parent k.n none⟩
  | .column o _ => ⟨k.n + 1, fset k.kin k.n k.n, fset k.parent k.n (some o)⟩
  | .assign _ _ => k
  | .relabel _ _ => k

/-- the kinship after a program -/
def kinship (ops : List (ShareOp C)) : Kinship := ops.foldl Kinship.step ⟨0, fun i => i, fun _ => none⟩

/-- The objects that a step may change: the kin of the object it names, and, for a column, the kin of the frame it was taken from. -/
def Kinship.mayChange (k : Kinship) (x : Nat) : ShareOp C → Prop
  | .assign o _ => k.kin x = k.kin o ∨ ∃ p, k.parent o = some p ∧ k.kin x = k.kin p
  | .relabel o _ => k.kin x = k.kin o
  | _ => False
