import Verif.Pandas.NumpyOps

/-!
# Model of the binary operations of `modin.numpy.array`

Models `modin/numpy/arr.py` and the query compiler method that `Binary.register` makes
(`modin/core/dataframe/algebra/binary.py`).

Simplifications: frames are grids of elements (that operations block by block give the grid is
C13, C43, C54); the row and column labels of an array's query compiler are `0, 1, 2, …`
(`array.__init__` 214–220 resets them), so alignment by labels is alignment by position;
`out=`, `where=` and the element type of the result are left out; an exception is `none`.
-/

/-- modin/numpy/arr.py 139–237 `array`: `_ndim` and the frame.  An array with one dimension is held as a frame
with one column. -/
structure NGrid (α : Type) where
  /-- `_ndim == 2` -/
  two : Bool
  nr : Nat
  nc : Nat
  rows : List (List α)
  deriving Repr, DecidableEq

namespace NGrid
variable {α : Type}

/-- the frame is what its shape says; with one dimension it has one column -/
def WF (x : NGrid α) : Prop :=
  x.rows.length = x.nr ∧ (∀ r ∈ x.rows, r.length = x.nc) ∧ (x.two = false → x.nc = 1)

/-- an element of the frame -/
def cell? (x : NGrid α) (i j : Nat) : Option α := (x.rows[i]?).bind (·[j]?)

/-- arr.py 2599–2603 `_to_numpy`: `flatten` if there is one dimension -/
def val (x : NGrid α) : NpVal α :=
  if x.two then .mat x.nr x.nc x.rows else .vec x.rows.flatten

/-- arr.py 2487–2490 `shape`: `(len(index),)` or `(len(index), len(columns))` -/
def shape (x : NGrid α) : List Nat := if x.two then [x.nr, x.nc] else [x.nr]

/-- every element changed -/
def mapCells (f : α → α) (x : NGrid α) : NGrid α := { x with rows := x.rows.map (·.map f) }

end NGrid

/-- an array with the type of its elements, arr.py 2526–2533 `dtype` -/
structure NArr (α δ : Type) where
  grid : NGrid α
  dt : δ
  deriving Repr, DecidableEq

/-- arr.py 794–796, 803–805: `self._query_compiler = self._query_compiler.astype(…)` -/
def NArr.astype {α δ : Type} (T : NpTypes α δ) (d : δ) (x : NArr α δ) : NArr α δ :=
  ⟨x.grid.mapCells (T.cast d), d⟩

/-- A grid of `nr` rows and `nc` columns; what an operand does not have at a position is missing
there.  pandas' outer join of the labels `0 … ` of both operands. -/
def npGridOf {α : Type} (f : α → α → α) (nan : α) (nr nc : Nat) (fx fy : Nat → Nat → Option α) : List (List α) :=
  (List.range nr).map fun i => (List.range nc).map fun j => f ((fx i j).getD nan) ((fy i j).getD nan)

/-- modin/core/dataframe/algebra/binary.py 335–430, `caller` of two query compilers: 366–375 with `broadcast`
the right operand must have one column, which is a row if `axis == 1`; 384–406 `broadcast_apply`
and 407–430 `n_ary_op` join the labels (`join_type="outer"`, line 303). The result has the frame's
rows and columns only. -/
def qcBinary {α : Type} (f : α → α → α) (nan : α) (x y : NGrid α) (broadcast axis1 : Bool) : Option (Nat × Nat × List (List α)) :=
  if broadcast then
    if y.nc ≠ 1 then none
    else if axis1 then
      some (x.nr, max x.nc y.nr, npGridOf f nan x.nr (max x.nc y.nr) x.cell? (fun _ j => y.cell? j 0))
    else
      some (max x.nr y.nr, x.nc, npGridOf f nan (max x.nr y.nr) x.nc x.cell? (fun i _ => y.cell? i 0))
  else
    some (max x.nr y.nr, max x.nc y.nc, npGridOf f nan (max x.nr y.nr) (max x.nc y.nc) x.cell? y.cell?)

/-- arr.py 815–863, the second half of `_preprocess_binary_op`: is the caller the other operand, and the
keyword arguments `broadcast` and `axis == 1`.  848 `self.shape[1]` raises an `IndexError` if there is one dimension. -/
def npPreprocess {α : Type} (x y : NGrid α) : Option (Bool × Bool × Bool) :=
  if x.two ≠ y.two then
    let caller := if x.two then x else y
    let callee := if x.two then y else x
    if callee.nr ≠ caller.nc then none else some (!x.two, true, true)
  else if x.shape = y.shape then some (false, false, false)
  else if x.nr = y.nr then
    if x.nc = 1 ∨ y.nc = 1 then some (false, true, false) else none
  else if !x.two then none
  else if x.nc = y.nc then
    if x.nr = 1 ∨ y.nr = 1 then some (false, false, true) else none
  else none

/-- the query compiler's method if the caller is `self`: arr.py 865–1031, 1523–1680, 1778–1808, 1877–1975.
`radd` and `rmul` are `__add__` and `multiply`. -/
def NpOp.direct {α : Type} (S : NpScalars α) : NpOp → α → α → α
  | .add => S.add
  | .radd => S.add
  | .mul => S.mul
  | .rmul => S.mul
  | .sub => S.sub
  | .rsub => fun a b => S.sub b a
  | .div => S.truediv
  | .rdiv => fun a b => S.truediv b a
  | .floordiv => S.pdFloordiv
  | .mod => S.pdMod
  | .pow => S.pow
  | .gt => S.gt
  | .ge => S.ge
  | .lt => S.lt
  | .le => S.le
  | .eq => S.eq
  | .ne => S.ne

/-- the query compiler's method if caller and callee have been exchanged (a one-dimensional array with
a two-dimensional one); the first argument is the caller's element.  `//`, `%` and `**` raise
a `NotImplementedError` (arr.py 1631–1637, 1670–1676, 1909–1915). -/
def NpOp.exchanged {α : Type} (S : NpScalars α) : NpOp → Option (α → α → α)
  | .add => some S.add
  | .radd => some S.add
  | .mul => some S.mul
  | .rmul => some S.mul
  | .sub => some fun a b => S.sub b a
  | .rsub => some S.sub
  | .div => some fun a b => S.truediv b a
  | .rdiv => some S.truediv
  | .floordiv => none
  | .mod => none
  | .pow => none
  | .gt => some S.lt
  | .ge => some S.le
  | .lt => some S.gt
  | .le => some S.ge
  | .eq => some S.eq
  | .ne => some S.ne

/-- arr.py 1639–1648 (`floor_divide`): `callee.eq(0).any()` is a query compiler and so counts as true; `replace` of
infinities, then `where(callee.ne(0), 0)`, for which a position that the callee does not
have counts as false. arr.py 1917–1921 (`remainder`): `replace(nan, 0)`. -/
def NpOp.repair {α : Type} (S : NpScalars α) (op : NpOp) (int : Bool) (callee : NGrid α) (rows : List (List α)) : List (List α) :=
  if int then
    match op with
    | .floordiv => rows.mapIdx fun i r => r.mapIdx fun j v =>
        match callee.cell? i j with
        | some c => if S.isZero c then S.zero else if S.isInf v then S.zero else v
        | none => S.zero
    | .mod => rows.map (·.map fun v => if S.isNan v then S.zero else v)
    | _ => rows
  else rows

/-- the result, and the operands as they are afterwards -/
structure NpOutcome (α δ : Type) where
  result : Option (NGrid α)
  left : NArr α δ
  right : NArr α δ
  deriving Repr, DecidableEq

/-- arr.py 782–793: the type the operands are converted to: `dtype`, or the common type -/
def npOutType {α δ : Type} (T : NpTypes α δ) (dtype : Option δ) (x y : NArr α δ) : δ :=
  dtype.getD (T.common x.dt y.dt)

/-- arr.py 108–116 `fix_dtypes_and_determine_return` without `out` and `where`: the result converted to
`dtype`, if one is given -/
def npFix {α δ : Type} (T : NpTypes α δ) (dtype : Option δ) (rows : List (List α)) : List (List α) :=
  match dtype with
  | none => rows
  | some d => rows.map (·.map (T.cast d))

/-- The operation on the operands as they are after the conversions. -/
def npCompute {α δ : Type} (S : NpScalars α) (T : NpTypes α δ) (op : NpOp) (dtype : Option δ) (int : Bool) (x y : NGrid α) :
    Option (NGrid α) :=
  match npPreprocess x y with
  | none => none
  | some (exchange, broadcast, axis1) =>
    if exchange then
      match op.exchanged S with
      | none => none
      | some f =>
        match qcBinary f S.nan y x broadcast axis1 with
        | none => none
        | some (nr, nc, rows) => some ⟨true, nr, nc, npFix T dtype rows⟩
    else
      match qcBinary (op.direct S) S.nan x y broadcast axis1 with
      | none => none
      | some (nr, nc, rows) => some ⟨x.two, nr, nc, npFix T dtype (op.repair S int y rows)⟩

/-- A binary operation of two arrays, arr.py 749–1031 and 1523–1975.  Comparisons do not convert the
operands (`cast_input_types=False`). -/
def npBinary {α δ : Type} (S : NpScalars α) (T : NpTypes α δ) (op : NpOp) (dtype : Option δ) (x y : NArr α δ) :
    NpOutcome α δ :=
  if op.compares then ⟨npCompute S T op none false x.grid y.grid, x, y⟩
  else
    let d := npOutType T dtype x y
    let x' := x.astype T d
    let y' := y.astype T d
    ⟨npCompute S T op dtype (T.isInt d) x'.grid y'.grid, x', y'⟩

/-- A binary operation with a scalar: binary.py 436–460 `map`; arr.py 797–799 with no keyword arguments.  `//`
(1617–1628) and `%` (1895–1904) repair a division by zero, and do not convert the operand in place. -/
def npScalar {α δ : Type} (S : NpScalars α) (T : NpTypes α δ) (op : NpOp) (dtype : Option δ) (x : NArr α δ) (s : α) :
    NGrid α × NArr α δ :=
  let d := dtype.getD x.dt
  match op with
  | .floordiv =>
    let r := x.grid.mapCells fun a => S.pdFloordiv a s
    let r := if S.isZero s && T.isInt d then
        { r with rows := r.rows.mapIdx fun i row => row.mapIdx fun j v =>
            match x.grid.cell? i j with
            | some c => if S.isZero c then S.zero else if S.isInf v then S.zero else v
            | none => S.zero }
      else r
    ({ r with rows := npFix T dtype r.rows }, x)
  | .mod =>
    let r := (x.grid.mapCells (T.cast d)).mapCells fun a => S.pdMod a s
    let r := if S.isZero s && T.isInt d then r.mapCells fun v => if S.isNan v then S.zero else v else r
    ({ r with rows := npFix T dtype r.rows }, x)
  | _ =>
    if op.compares then (x.grid.mapCells fun a => op.direct S a s, x)
    else
      let x' := x.astype T d
      ({ x'.grid with rows := npFix T dtype (x'.grid.mapCells fun a => op.direct S a s).rows }, x')
