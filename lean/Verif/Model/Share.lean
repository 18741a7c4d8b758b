import Verif.Pandas.Share
/-
Objects that share a query compiler, and changes in place.
Models modin/pandas/base.py (`_add_sibling`, `_update_inplace`, `copy`, `reindex`, `_set_index`, `_set_pinned`), modin/pandas/dataframe.py
(`__init__` from a frame, `squeeze`, `_getitem_column`, `_set_columns`, `_create_or_update_from_compiler`) and modin/pandas/series.py
(`_update_inplace`, `_set_name`).
What a query compiler computes is left open (the functions `f` of the steps); moving objects between backends (`_copy_into`) is not modelled.
-/

variable {C : Type}

/-- The objects and the query compilers there are.  Object `o` has the query compiler `qc o`, the list of siblings `sibs o` and, a column
    taken out of a frame, the parent `parent o`; query compiler `q` holds `val q`. -/
structure ShareHeap (C : Type) where
  n : Nat
  qc : Nat → Nat
  sibs : Nat → List Nat
  parent : Nat → Option Nat
  nq : Nat
  val : Nat → C

/-- what the object shows: everything is read from its query compiler -/
def ShareHeap.shows (h : ShareHeap C) (o : Nat) : C := h.val (h.qc o)

/-- a new query compiler -/
def ShareHeap.alloc (h : ShareHeap C) (c : C) : ShareHeap C := { h with nq := h.nq + 1, val := fset h.val h.nq c }

/-- modin/pandas/dataframe.py:156-160 and modin/pandas/series.py:136: a new object, without siblings; modin/pandas/dataframe.py:2633-2635
    and modin/pandas/series.py:217: its parent -/
def ShareHeap.push (h : ShareHeap C) (q : Nat) (parent : Option Nat) : ShareHeap C :=
  { h with n := h.n + 1, qc := fset h.qc h.n q, sibs := fset h.sibs h.n [], parent := fset h.parent h.n parent }

/-- modin/pandas/base.py:280 `sib._siblings += [sibling]` -/
def ShareHeap.addSib (sibling : Nat) (h : ShareHeap C) (sib : Nat) : ShareHeap C :=
  { h with sibs := fset h.sibs sib (h.sibs sib ++ [sibling]) }

/-- modin/pandas/base.py:265-280 `_add_sibling`.  The loop runs over the list that it lengthens when it comes to `self` itself, which is
    among its own siblings if it is a shallow copy. -/
def ShareHeap.addSibling (h : ShareHeap C) (self sibling : Nat) : ShareHeap C :=
  let h1 := { h with sibs := fset h.sibs sibling (h.sibs self ++ [self]) }
  let h2 := h1.addSib sibling self
  let walked := h2.sibs self ++ List.replicate ((h2.sibs self).count self) sibling
  walked.foldl (ShareHeap.addSib sibling) h2

/-- modin/pandas/base.py:321-334 `_update_inplace` with a new query compiler that holds `c` (`free` does nothing,
    modin/core/storage_formats/pandas/query_compiler.py:507-509) -/
def ShareHeap.updateInplace (h : ShareHeap C) (o : Nat) (c : C) : ShareHeap C :=
  { h.alloc c with qc := (h.sibs o).foldl (fun qc sib => fset qc sib h.nq) (fset h.qc o h.nq) }

/-- One step.  `put frame column` is `frame[column.name] = column`, modin/pandas/series.py:2714-2719. -/
def ShareHeap.step (put : C → C → C) (h : ShareHeap C) : ShareOp C → Option (ShareHeap C)
  | .new c => some ((h.alloc c).push h.nq none)
  -- modin/pandas/base.py:1307-1308, and every operation that returns an object with a query compiler of its own
  | .derive o f => if o < h.n then some ((h.alloc (f (h.shows o))).push h.nq none) else none
  -- modin/pandas/base.py:1309-1311
  | .shallow o => if o < h.n then some ((h.push (h.qc o) none).addSibling o h.n) else none
  -- modin/pandas/dataframe.py:161-181
  | .wrap o => if o < h.n then some (((h.alloc (h.shows o)).push h.nq none).addSibling o h.n) else none
  -- modin/pandas/base.py:2538-2550 and 4486-4488, modin/pandas/dataframe.py:2127-2129
  | .unchanged o => if o < h.n then some (h.push (h.qc o) none) else none
  -- modin/pandas/dataframe.py:2614-2636
  | .column o f => if o < h.n then some ((h.alloc (f (h.shows o))).push h.nq (some o)) else none
  -- modin/pandas/base.py:321-334 and modin/pandas/series.py:2704-2719; the parent is a frame
  | .assign o f =>
    if o < h.n then
      let h1 := h.updateInplace o (f (h.shows o))
      match h.parent o with
      | none => some h1
      | some p => some (h1.updateInplace p (put (h1.shows p) (h1.shows o)))
    else none
  -- modin/pandas/base.py:667-676, modin/pandas/dataframe.py:324-333, modin/pandas/series.py:199-214: the query compiler itself is changed
  | .relabel o f => if o < h.n then some { h with val := fset h.val (h.qc o) (f (h.shows o)) } else none

/-- the whole program -/
def ShareHeap.run [Inhabited C] (put : C → C → C) (ops : List (ShareOp C)) : Option (ShareHeap C) :=
  ops.foldlM (fun h op => h.step put op) ⟨0, fun _ => 0, fun _ => [], fun _ => none, 0, fun _ => default⟩
