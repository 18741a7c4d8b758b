import Verif.Pandas.Assign
/-
Specification vocabulary: what `df.iloc[r, c] = value` and `df.loc[r, c] = value` address.
-/

variable {L α : Type}

/-- A key of `iloc` along one axis: `i`, `[i, j, ...]`, `[True, False, ...]`, `start:stop`. -/
inductive IKey where
  | int (i : Int)
  | list (is : List Int)
  | mask (bs : List Bool)
  | slice (start stop : Option Int)
deriving DecidableEq, Repr

/-- position `i` of an axis of length `n`, negative from the end; outside it is an `IndexError` (`none`) -/
def axisPos (n : Nat) (i : Int) : Option Nat :=
  if 0 ≤ i then (if i.toNat < n then some i.toNat else none)
  else if 0 ≤ i + n then some (i + n).toNat else none

/-- where a bound of a slice falls (Python's `slice.indices`) -/
def sliceBound (n : Nat) (i : Int) : Nat := if i < 0 then (i + n).toNat else min i.toNat n

/-- The positions a key of `iloc` addresses on an axis of length `n`, in order; `none`: an exception. -/
def IKey.addressed (n : Nat) : IKey → Option (List Nat)
  | .int i => (axisPos n i).map ([·])
  | .list is => is.mapM (axisPos n)
  | .mask bs => if bs.length = n then some ((List.range n).filter fun k => bs[k]? == some true) else none
  | .slice a b =>
    let start := (a.map (sliceBound n)).getD 0
    let stop := (b.map (sliceBound n)).getD n
    some (List.range' start (stop - start))

/-- A key of `loc` along one axis: `x`, `[x, y, ...]`, `[True, False, ...]`, `:`. -/
inductive LKey (L : Type) where
  | label (x : L)
  | list (xs : List L)
  | mask (bs : List Bool)
  | all
deriving DecidableEq, Repr

/-- The positions a key of `loc` addresses on an axis with the given labels: for each label all its positions.  `none`: a label
    is missing (`KeyError`) or a mask has the wrong length.  (Enlarging is not part of this.) -/
def LKey.addressed [DecidableEq L] (labels : List L) : LKey L → Option (List Nat)
  | .label x => if x ∈ labels then some ((List.range labels.length).filter fun k => labels[k]? == some x) else none
  | .list xs =>
    if ∀ x ∈ xs, x ∈ labels then some (xs.flatMap fun x => (List.range labels.length).filter fun k => labels[k]? == some x) else none
  | .mask bs => if bs.length = labels.length then some ((List.range labels.length).filter fun k => bs[k]? == some true) else none
  | .all => some (List.range labels.length)
