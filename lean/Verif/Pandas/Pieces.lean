import Verif.Pandas.Portion
import Verif.Pandas.NumpyOps
/-
Cutting a table or an array into pieces: what the batches of a data loader are, and `numpy.split`.
-/

/-- `batches` cut a list into pieces of `size` elements, in order: only the last piece may have fewer elements, and none is empty. -/
structure IsBatches {τ : Type} (size : Nat) (l : List τ) (batches : List (List τ)) : Prop where
  whole : batches.flatten = l
  full : ∀ b ∈ batches.dropLast, b.length = size
  last : ∀ b ∈ batches, 0 < b.length ∧ b.length ≤ size

namespace NpVal
variable {α : Type}

/-- the length of an axis; `none`: there is no such axis -/
def axisLen : NpVal α → Bool → Option Nat
  | vec v, true => some v.length
  | vec _, false => none
  | mat n _ _, true => some n
  | mat _ m _, false => some m

/-- the elements at positions of an axis -/
def part : NpVal α → Bool → List Nat → NpVal α
  | vec v, _, ps => vec (takeList v ps)
  | mat _ m rows, true, ps => mat ps.length m (takeList rows ps)
  | mat n _ rows, false, ps => mat n ps.length (rows.map (takeList · ps))

/-- the positions of Python's slice `a:b` -/
def slicePositions (n : Nat) (a b : Int) : List Nat := List.range' (sliceBound n a) (sliceBound n b - sliceBound n a)

/-- `numpy.split(x, indices, axis)` for a list: the pieces `x[0:i₀]`, `x[i₀:i₁]`, …, `x[iₖ:n]` -/
def splitAt (x : NpVal α) (axis0 : Bool) (indices : List Int) : Option (List (NpVal α)) :=
  (x.axisLen axis0).map fun n =>
    (List.zipWith (fun a b => x.part axis0 (slicePositions n a b)) (0 :: indices) (indices ++ [(n : Int)]))

/-- `numpy.split(x, k, axis)` for a number: `k` pieces of equal length; an exception if there are none -/
def splitEven (x : NpVal α) (axis0 : Bool) (k : Int) : Option (List (NpVal α)) :=
  (x.axisLen axis0).bind fun n =>
    if k ≤ 0 ∨ n % k.toNat ≠ 0 then none
    else some ((List.range k.toNat).map fun i => x.part axis0 (List.range' (i * (n / k.toNat)) (n / k.toNat)))

end NpVal
