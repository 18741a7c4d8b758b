import Verif.Pandas.Frame
/-
Specification vocabulary: positional selection.
-/

variable {ι κ α : Type}

/-- `arr.take(ps)` / `arr[ps]`: the elements at the listed positions, in that order.  Positions
    outside the sequence make pandas raise; theorems using this assume they are inside. -/
def takeList {τ : Type} (l : List τ) (ps : List Nat) : List τ := ps.filterMap (l[·]?)

namespace Frame

/-- `df.iloc[ps]` -/
def takeRows (ps : List Nat) (f : Frame ι κ α) : Frame ι κ α :=
  { index := takeList f.index ps, columns := f.columns, rows := takeList f.rows ps }

/-- `df.iloc[:, ps]` -/
def takeCols (ps : List Nat) (f : Frame ι κ α) : Frame ι κ α :=
  { index := f.index, columns := takeList f.columns ps, rows := f.rows.map (takeList · ps) }

end Frame

/-! ### What `iloc` keys mean -/

/-- The rows a Python slice `start:stop` (step 1) picks from an axis of length `n`: missing bounds
    are the ends, negative ones count from the end. -/
def slicePicks (n : Nat) (start stop : Option Int) : List Nat :=
  let lo : Int := match start with | none => 0 | some s => if s < 0 then s + n else s
  let hi : Int := match stop with | none => n | some s => if s < 0 then s + n else s
  (List.range n).filter fun i => decide (lo ≤ (i : Int)) && decide ((i : Int) < hi)

/-- One integer position: negative counts from the end; out of bounds is an error. -/
def intPick (n : Nat) (p : Int) : Option Nat :=
  if 0 ≤ p ∧ p < n then some p.toNat
  else if p < 0 ∧ 0 ≤ p + n then some (p + n).toNat
  else none
