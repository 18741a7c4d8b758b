import Verif.Pandas.LocGet
import Verif.Pandas.Dropna
/-
Specification vocabulary: `head`, `tail`, `take`, `truncate`, `filter` and `sample` of pandas, as parts of a frame.
-/

variable {ι κ α : Type}

/-- `df.iloc[r, c]` with keys that keep both axes (slices, lists of integers or of booleans) -/
def Frame.ilocPart (r c : IKey) (df : Frame ι κ α) : Option (Frame ι κ α) :=
  (r.addressed df.nrows).bind fun ps => (c.addressed df.ncols).map fun qs => (df.takeRows ps).takeCols qs

/-- `df.head(n)`: the first `n` rows; for a negative `n` all but the last `-n`. -/
def Frame.head (n : Int) (df : Frame ι κ α) : Frame ι κ α :=
  let k := if 0 ≤ n then n.toNat else df.nrows - (-n).toNat
  { index := df.index.take k, columns := df.columns, rows := df.rows.take k }

/-- `df.tail(n)`: the last `n` rows; for a negative `n` all but the first `-n`. -/
def Frame.tail (n : Int) (df : Frame ι κ α) : Frame ι κ α :=
  let k := if 0 ≤ n then df.nrows - n.toNat else (-n).toNat
  { index := df.index.drop k, columns := df.columns, rows := df.rows.drop k }

/-- `df.take(indices, axis)`: the rows (`axis=0`) or columns at these positions, negative ones counted from the end.  `none`: a position
    is outside (`IndexError`). -/
def Frame.take (axis0 : Bool) (indices : List Int) (df : Frame ι κ α) : Option (Frame ι κ α) :=
  if axis0 then (indices.mapM (axisPos df.nrows)).map df.takeRows else (indices.mapM (axisPos df.ncols)).map df.takeCols

/-- the rows (`axis=0`) or columns whose label has a property -/
def Frame.keepLabels {L : Type} (axis0 : Bool) (p : L → Bool) (df : Frame L L α) : Frame L L α :=
  if axis0 then df.pickRows (df.index.map p) else df.pickCols (df.columns.map p)

/-- labels in ascending or in descending order (`is_monotonic_increasing`, `is_monotonic_decreasing`) -/
def Monotonic (labels : List Int) : Prop := labels.Pairwise (· ≤ ·) ∨ labels.Pairwise (· ≥ ·)

instance (labels : List Int) : Decidable (Monotonic labels) := by unfold Monotonic; infer_instance

/-- not before the one bound and not after the other; `none`: no bound -/
def inBounds (before after : Option Int) (x : Int) : Bool := before.all (decide <| · ≤ x) && after.all (decide <| x ≤ ·)

/-- bounds that can be met: not the first after the second -/
def boundsOk (before after : Option Int) : Bool := !(before.any fun b => after.any fun a => decide (a < b))

/-- `df.truncate(before, after, axis)`: the rows (columns) with a label from `before` to `after`, both included.  `none`: `ValueError`
    (labels out of order, or `before` after `after`). -/
def Frame.truncate (axis0 : Bool) (before after : Option Int) (df : Frame Int Int α) : Option (Frame Int Int α) :=
  if Monotonic (if axis0 then df.index else df.columns) ∧ boundsOk before after then
    some (df.keepLabels axis0 (inBounds before after)) else none

/-- `df.filter(items=items, axis=axis)`: the rows (columns) with these labels in the order in which they are listed, a label that is not
    there left out.  `none`: `ValueError` (the labels of the axis repeat). -/
def Frame.filterItems {L : Type} [DecidableEq L] (axis0 : Bool) (items : List L) (df : Frame L L α) : Option (Frame L L α) :=
  let labels := if axis0 then df.index else df.columns
  if labels.Nodup then
    let ps := (items.eraseDups.filter (· ∈ labels)).map fun x => labels.idxOf x
    some (if axis0 then df.takeRows ps else df.takeCols ps)
  else none

/-- the default labels `0, 1, ...` along an axis -/
def Frame.renumbered {L : Type} (num : Nat → L) (axis0 : Bool) (df : Frame L L α) : Frame L L α :=
  if axis0 then { df with index := (List.range df.index.length).map num } else { df with columns := (List.range df.columns.length).map num }

/-- how many rows `sample(n, frac)` draws; `frac` is given as the number of rows it amounts to.  `none`: `ValueError`. -/
def sampleSize (n : Option Int) (frac : Option Int) : Option Nat :=
  match n, frac with
  | none, none => some 1
  | some _, some _ => none
  | some n, none => if 0 ≤ n then some n.toNat else none
  | none, some k => if 0 ≤ k then some k.toNat else none

/-- `df.sample(n, frac, axis=axis, ignore_index=ignore)`.  `choose len size` are the positions that numpy's generator draws
    (`none`: it raises, as for more rows than there are without replacement). -/
def Frame.sample {L : Type} (num : Nat → L) (choose : Nat → Nat → Option (List Nat)) (axis0 : Bool) (n frac : Option Int) (ignore : Bool)
    (df : Frame L L α) : Option (Frame L L α) :=
  (sampleSize n frac).bind fun size => (choose (if axis0 then df.nrows else df.ncols) size).map fun ps =>
  let r := if axis0 then df.takeRows ps else df.takeCols ps
  if ignore then r.renumbered num axis0 else r
