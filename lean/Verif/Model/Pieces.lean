import Verif.Model.Portion
import Verif.Model.NumpyOps
import Verif.Pandas.Pieces
/-
Cutting into pieces.
Models modin/experimental/sklearn/model_selection/train_test_split.py, modin/experimental/torch/datasets.py (`ModinDataLoader`)
and modin/numpy/arr.py (`array.split`).
-/

variable {ι κ α τ : Type}

/-- train_test_split.py:35-38.  `size n` is `int(n * train_size)`, computed with floats: any function.  `len(train)` is taken from the
    rows `train` holds. -/
def LFrame.trainTestSplit [DecidableEq ι] [DecidableEq κ] (cfg : Cfg) (known : Nat → Nat → Bool × Bool) (nan : α) (size : Nat → Int)
    (m : LFrame ι κ α) : Option (LFrame ι κ α × LFrame ι κ α) :=
  (m.ilocPart cfg known nan (.slice none (some (size m.getIndex.length))) (.slice none none)).bind fun train =>
  (train.toPandas nan).bind fun t =>
  (m.ilocPart cfg known nan (.slice (some (t.nrows : Int)) none) (.slice none none)).map fun test => (train, test)

/-- datasets.py:81-85 `_end_of_batch`; `n` is `len(sampler)`, at least 1 where this is asked -/
def endOfBatch (size n counter : Nat) : Bool := decide (counter % size = size - 1) || decide (counter = n - 1)

/-- datasets.py:71-79 the loop of `__iter__`: `counter`, `idx_buffer` and what is left of the sampler; the list of the buffers that are
    looked up -/
def loaderLoop (size n : Nat) : Nat → List τ → List τ → List (List τ)
  | _, _, [] => []
  | counter, buffer, i :: rest =>
    if endOfBatch size n counter then (buffer ++ [i]) :: loaderLoop size n (counter + 1) [] rest
    else loaderLoop size n (counter + 1) (buffer ++ [i]) rest

/-- datasets.py:71-79 `list(loader)`: the batches, each `df.iloc[idx_buffer].to_numpy()`, for a sampler that gives numbers from 0.
    `batch_size = 0` is a `ZeroDivisionError` once there is something to give. -/
def LFrame.loader [DecidableEq ι] [DecidableEq κ] (cfg : Cfg) (known : Nat → Nat → Bool × Bool) (nan : α) (size : Nat) (sampler : List Nat)
    (m : LFrame ι κ α) : Option (List (List (List α))) :=
  if size = 0 ∧ sampler ≠ [] then none
  else (loaderLoop size sampler.length 0 [] sampler).mapM fun b =>
    ((m.ilocPart cfg known nan (.list (b.map Int.ofNat)) (.slice none none)).bind (·.toPandas nan)).map (·.rows)

/-- datasets.py:67-69 `len(loader)` -/
def loaderLen (size : Nat) (sampler : List τ) : Option Nat :=
  if size = 0 then none else some ((sampler.length + size - 1) / size)

/-- Python's `range(a, b)` -/
def pyRangeInt (a b : Int) : List Int := (List.range (b - a).toNat).map fun i : Nat => a + (i : Int)

/-- arr.py:1209-1221 one piece: empty or `take_2d_positional` of a range -/
def npPiece (n : Nat) (prev fin : Int) : List Int :=
  if prev > n ∨ prev = fin then [] else pyRangeInt prev (min fin n)

/-- arr.py:1190-1222 the loop over the indices, with `prev_index`; an index of 0 gives an empty piece and leaves `prev_index`
    (1196-1204) -/
def npSplitLoop (n : Nat) : Int → List Int → List (List Int)
  | prev, [] => [npPiece n prev n]
  | prev, e :: rest =>
    if e = 0 then [] :: npSplitLoop n prev rest
    else
      let fin := if e < 0 then n + e else e
      npPiece n prev fin :: npSplitLoop n fin rest

namespace NGrid

/-- arr.py:1170-1182 the length of the axis; an exception for an axis that is not there (`axis` after 1171-1177: 0 or 1) -/
def axisLen (x : NGrid α) (axis0 : Bool) : Option Nat :=
  if axis0 then some x.nr else if x.two then some x.nc else none

/-- arr.py:1216-1221 `take_2d_positional` of rows or of columns, also for no positions (an empty array of the right shape) -/
def part (x : NGrid α) (axis0 : Bool) (ps : List Nat) : NGrid α :=
  if axis0 then { x with nr := ps.length, rows := takeList x.rows ps } else { x with nc := ps.length, rows := x.rows.map (takeList · ps) }

/-- arr.py:1184-1222 `split` with a list; a negative position counts from the end, one that is not there is an exception -/
def splitAt (x : NGrid α) (axis0 : Bool) (indices : List Int) : Option (List (NGrid α)) :=
  (x.axisLen axis0).bind fun n =>
    (npSplitLoop n 0 indices).mapM fun ps => (ps.mapM (axisPos n)).map (x.part axis0)

/-- arr.py:1223-1235 `split` with a number; a step of 0 (`range`) or division by 0 is an exception, a negative step gives no pieces -/
def splitEven (x : NGrid α) (axis0 : Bool) (k : Int) : Option (List (NGrid α)) :=
  (x.axisLen axis0).bind fun n =>
    if k = 0 then none
    else if (n : Int) % k ≠ 0 then none
    else if n = 0 then none
    else if k < 0 then some []
    else some ((pyRangeStep n (n / k.toNat)).map fun i => x.part axis0 (List.range' i (n / k.toNat)))

end NGrid
