import Verif.Pandas.Frame
/-
Chunk-size arithmetic.
Models modin/core/storage_formats/pandas/utils.py (lines 28-182) and the length
comprehensions of modin/core/dataframe/pandas/partitioning/partition_manager.py
(lines 1136-1149).
-/

/-- modin/core/storage_formats/pandas/utils.py:28-58 `compute_chunksize`.
    The `isinstance(min_block_size, int)` test is not modelled (the argument is a `Nat`);
    the `<= 0` branch is: it raises (`none`).  `num_splits = 0` makes Python's `//` raise
    `ZeroDivisionError`: also `none`. -/
def computeChunksize (axisLen numSplits minBlock : Nat) : Option Nat :=
  if minBlock = 0 then none
  else if numSplits = 0 then none
  else
    let c := axisLen / numSplits
    let c := if axisLen % numSplits ≠ 0 then c + 1 else c
    some (max c minBlock)

/-- modin/core/storage_formats/pandas/utils.py:156-182 `get_length_list`.
    `max(0, axis_len - i*chunksize)` is truncated subtraction. -/
def getLengthList (axisLen numSplits minBlock : Nat) : Option (List Nat) :=
  (computeChunksize axisLen numSplits minBlock).map fun c =>
    (List.range numSplits).map fun i =>
      if (i + 1) * c ≤ axisLen then c else axisLen - i * c

/-- `np.cumsum` of a list with a zero inserted in front
    (modin/core/storage_formats/pandas/utils.py:135-137). -/
def cumsumFrom (s : Nat) : List Nat → List Nat
  | [] => [s]
  | x :: xs => s :: cumsumFrom (s + x) xs

/-- The loop `for i in range(len(sums) - 1): ... sums[i] : sums[i+1]`
    (modin/core/storage_formats/pandas/utils.py:140-145): consecutive pairs. -/
def consecutive : List Nat → List (Nat × Nat)
  | a :: b :: rest => (a, b) :: consecutive (b :: rest)
  | _ => []

/-- The slice bounds produced from a list of lengths. -/
def sliceBounds (lens : List Nat) : List (Nat × Nat) := consecutive (cumsumFrom 0 lens)

/-- modin/core/storage_formats/pandas/utils.py:61-153 `split_result_of_axis_func_pandas` /
    `generate_result_of_axis_func_pandas`.  `axis = 0` is `true` here.
    Simplification: dropping unused MultiIndex levels is not modelled. -/
def splitResult {ι κ α : Type} (axis0 : Bool) (numSplits : Nat) (result : Frame ι κ α)
    (minBlock : Nat) (lengthList : Option (List Nat)) : Option (List (Frame ι κ α)) :=
  if numSplits = 1 then some [result]
  else
    let lens? := match lengthList with
      | some l => some l
      | none => getLengthList (if axis0 then result.nrows else result.ncols) numSplits minBlock
    lens?.map fun lens =>
      (sliceBounds lens).map fun (s, e) =>
        if axis0 then result.ilocRows s e else result.ilocCols s e

/-- modin/core/dataframe/pandas/partitioning/partition_manager.py:1136-1149, the
    `row_lengths` / `col_widths` comprehensions of `from_pandas`:
    `chunk if i + chunk < n else n % chunk or chunk for i in range(0, n, chunk)`. -/
def fromPandasLengths (n chunk : Nat) : List Nat :=
  (pyRangeStep n chunk).map fun i =>
    if i + chunk < n then chunk
    else if n % chunk ≠ 0 then n % chunk else chunk
