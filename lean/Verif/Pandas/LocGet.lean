import Verif.Pandas.LocAssign
import Verif.Pandas.Insert
import Verif.Pandas.Take
/-
Specification vocabulary: what `df.iloc[r, c]`, `df.loc[r, c]` and `df[key]` return: the cells, their labels, and whether they come as
a frame, a Series or a single value.
-/

variable {L α : Type}

/-- What reading returns. -/
inductive Selected (L α : Type) where
  | frame (f : Frame L L α)
  | series (name : L) (index : List L) (values : List α)
  | scalar (a : α)
deriving DecidableEq, Repr

/-- What a key means on one axis: a single position, which takes the axis away, or a list of positions, which keeps it. -/
inductive Pick where
  | one (p : Nat)
  | many (ps : List Nat)
deriving DecidableEq, Repr

/-- the positions -/
def Pick.list : Pick → List Nat
  | .one p => [p]
  | .many ps => ps

/-- a key of `iloc`: only an integer takes its axis away -/
def IKey.picked (n : Nat) (k : IKey) : Option Pick :=
  match k with
  | .int i => (axisPos n i).map .one
  | k => (k.addressed n).map .many

/-- What pandas' own functions on labels give.  `slicer labels start stop` is `Index.slice_indexer(start, stop)`: the bounds of the
    positions from the label `start` to the label `stop`, both included; `none`: `KeyError`.  `ofNat` is the integer label. -/
structure LabelOps (L : Type) where
  slicer : List L → Option L → Option L → Option (Nat × Nat)
  ofNat : Nat → L

/-- A key of `loc` along one axis. -/
inductive LocKey (L : Type) where
  | key (k : LKey L)
  /-- `start:stop:step` -/
  | slice (start stop : Option L) (step : Option Nat)
  /-- `range(start, stop, step)`: a list of labels -/
  | range (start stop step : Nat)
  /-- `pandas.RangeIndex(start, stop, step)`: a list of labels -/
  | rangeIndex (start stop step : Nat)
deriving DecidableEq, Repr

/-- `start, start + step, ...`, below `stop` -/
def stepRange (start stop step : Nat) : List Nat := (List.range ((stop - start + step - 1) / step)).map fun i => start + i * step

/-- A label takes its axis away when it is there once; when it is there several times all its positions are kept. -/
def LKey.picked [DecidableEq L] (labels : List L) (k : LKey L) : Option Pick :=
  (k.addressed labels).map fun ps =>
    match k, ps with
    | .label _, [p] => .one p
    | _, ps => .many ps

/-- a key of `loc` -/
def LocKey.picked [DecidableEq L] (P : LabelOps L) (labels : List L) : LocKey L → Option Pick
  | .key k => k.picked labels
  | .slice a b s =>
    if a = none ∧ b = none ∧ s = none then some (.many (List.range labels.length))
    else (P.slicer labels a b).map fun e => .many (stepRange e.1 e.2 (s.getD 1))
  | .range a b s => (LKey.list ((stepRange a b s).map P.ofNat)).picked labels
  | .rangeIndex a b s => (LKey.list ((stepRange a b s).map P.ofNat)).picked labels

/-- the part of a frame that a pick per axis leaves -/
def Frame.located (f : Frame L L α) : Pick → Pick → Option (Selected L α)
  | .one p, .one q => (f.rows[p]?.bind (·[q]?)).map .scalar
  | .one p, .many qs => (f.index[p]?).bind fun name => (f.rows[p]?).map fun row => .series name (takeList f.columns qs) (takeList row qs)
  | .many ps, .one q => (f.columns[q]?).map fun name => .series name (takeList f.index ps) ((takeList f.rows ps).filterMap (·[q]?))
  | .many ps, .many qs => some (.frame ((f.takeRows ps).takeCols qs))

/-- `df.iloc[r, c]` -/
def Frame.ilocAt (f : Frame L L α) (r c : IKey) : Option (Selected L α) :=
  (r.picked f.index.length).bind fun p => (c.picked f.columns.length).bind fun q => f.located p q

/-- `df.loc[r, c]` -/
def Frame.locAt [DecidableEq L] (P : LabelOps L) (f : Frame L L α) (r c : LocKey L) : Option (Selected L α) :=
  (r.picked P f.index).bind fun p => (c.picked P f.columns).bind fun q => f.located p q

/-- the key of `df[key]`: a column, a list of columns, a slice of rows -/
inductive ItemKey (L : Type) where
  | column (x : L)
  | columns (xs : List L)
  | rows (start stop : Option Int)
deriving DecidableEq, Repr

/-- `df[key]` -/
def Frame.itemAt [DecidableEq L] (P : LabelOps L) (f : Frame L L α) : ItemKey L → Option (Selected L α)
  | .column x => f.locAt P (.key .all) (.key (.label x))
  | .columns xs => f.locAt P (.key .all) (.key (.list xs))
  | .rows a b => f.ilocAt (.slice a b) (.slice none none)

/-! ### `Index.slice_indexer` on integer labels -/

/-- where the label `x` begins (`side = false`) or ends (`side = true`): at its occurrences, which must be next to each other, and
    for a label that is not there at its place in the order, if the labels are in order -/
def intBound (labels : List Int) (side : Bool) (x : Int) : Option Nat :=
  let ps := (List.range labels.length).filter fun k => labels[k]? == some x
  match ps.head?, ps.getLast? with
  | some a, some b => if b - a + 1 = ps.length then some (if side then b + 1 else a) else none
  | _, _ =>
    if labels.Pairwise (· ≤ ·) then some (labels.countP fun y => decide (y < x))
    else if labels.Pairwise (· ≥ ·) then some (labels.countP fun y => decide (x < y)) else none

/-- `Index.slice_indexer` -/
def intSlicer (labels : List Int) (start stop : Option Int) : Option (Nat × Nat) :=
  ((start.map (intBound labels false)).getD (some 0)).bind fun a =>
  ((stop.map (intBound labels true)).getD (some labels.length)).map fun b => (a, b)

/-- integer labels -/
def intOps : LabelOps Int := { slicer := intSlicer, ofNat := fun n => (n : Int) }
