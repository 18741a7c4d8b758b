import Verif.Model.NumpyOps
import Verif.Pandas.NumpyIndex

/-!
# Model of `modin.numpy.array.__getitem__`

Models `modin/numpy/indexing.py` (`ArrayIndexer`).  The frame is a grid (see Model/NumpyOps.lean); that `take_2d_positional` gives the rows
and columns at the positions for every division into blocks is C06.  Keys that are callables or `Ellipsis` and slices with a step are left
out.  An exception is `none`.
-/

variable {α : Type}

/-- modin/numpy/indexing.py:538-601 `_compute_lookup` for one axis of length `n`.  A list with a negative number goes through
    `RangeIndex(n)[...]`, which checks it; one without is taken as it is.  195-224 `boolean_mask_to_numeric`: the length is not
    compared. -/
def IKey.npLookup (n : Nat) : IKey → Option (List Nat)
  | .int i => if i < 0 then (axisPos n i).map ([·]) else some [i.toNat]
  | .list is => if is.any (· < 0) then is.mapM (axisPos n) else some (is.map Int.toNat)
  | .mask bs => some ((List.range bs.length).filter fun k => bs[k]? == some true)
  | .slice a b => some (List.range' ((a.map (sliceBound n)).getD 0) ((b.map (sliceBound n)).getD n - (a.map (sliceBound n)).getD 0))

/-- the lookup, and `take_2d_positional`, which raises where a position is outside (an `IndexError` in some block) -/
def IKey.npTaken (n : Nat) (k : IKey) : Option (List Nat) :=
  (k.npLookup n).bind fun ps => if ps.all (fun p => decide (p < n)) then some ps else none

/-- modin/numpy/arr.py:155-237 `array(_query_compiler=..., _ndim=...)`: `find_common_type` of no dtypes is an error -/
def npMake (two : Bool) (nr nc : Nat) (rows : List (List α)) : Option (NpOut α) :=
  if nc = 0 then none else some (.arr (NGrid.val ⟨two, nr, nc, rows⟩))

/-- modin/numpy/indexing.py:269-330 `_get_numpy_object_from_qc_view` with `ndim` of 227-253 `_compute_ndim`; `nr` and `nc` are the numbers
    of rows and columns of the view -/
def npObject (two rowScalar colScalar : Bool) (nr nc : Nat) (view : List (List α)) : Option (NpOut α) :=
  if !rowScalar && !colScalar then npMake two nr nc view
  else if !two && !rowScalar then npMake false nr nc view
  else if !two || (rowScalar && colScalar) then view.head?.bind fun r => r.head?.map .scalar
  else if rowScalar then npMake false nc nr ((List.range nc).map fun j => view.filterMap (·[j]?))  -- transposed
  else npMake false nr nc view

/-- modin/numpy/indexing.py:371-415 `__getitem__`, 332-369: a key that is not a tuple is the key of the rows, the columns get
    `slice(None)` -/
def NGrid.getitem (x : NGrid α) (r : IKey) (c : Option IKey) : Option (NpOut α) :=
  (r.npTaken x.nr).bind fun ps => ((c.getD (.slice none none)).npTaken x.nc).bind fun qs =>
  npObject x.two r.isInt (c.getD (.slice none none)).isInt ps.length qs.length ((takeList x.rows ps).map fun row => takeList row qs)

/-- the same, the key a NumPy array of booleans with two dimensions (a `modin.numpy` array is rejected, modin/numpy/arr.py:240-243): line 209
    `np.where(indexer)[0]` are the rows of the cells that are true -/
def NGrid.getMask2 (x : NGrid α) (mask : List (List Bool)) : Option (NpOut α) :=
  let ps := mask.zipIdx.flatMap fun e => (e.1.filter id).map fun _ => e.2
  if ps.all (fun p => decide (p < x.nr)) then npObject x.two false false ps.length x.nc (takeList x.rows ps) else none
