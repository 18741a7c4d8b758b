/-!
# NumPy's arrays of one and two dimensions, and its broadcasting rule

The specification for `modin.numpy`: what an operation of two arrays means in NumPy
(`numpy.org/doc/stable/user/basics.broadcasting.html`).  Nothing here is about Modin.
-/

/-- a NumPy array with one or two dimensions -/
inductive NpVal (α : Type) where
  /-- shape `(v.length,)` -/
  | vec (v : List α)
  /-- shape `(n, m)`; the rows are listed -/
  | mat (n m : Nat) (rows : List (List α))
  deriving Repr, DecidableEq

namespace NpVal
variable {α : Type}

/-- two dimensions? -/
def isMat : NpVal α → Bool
  | vec _ => false
  | mat _ _ _ => true

/-- the last dimension but one; it is `1` for an array with one dimension, which NumPy takes
for a row -/
def nrows : NpVal α → Nat
  | vec _ => 1
  | mat n _ _ => n

/-- the last dimension -/
def ncols : NpVal α → Nat
  | vec v => v.length
  | mat _ m _ => m

/-- the element in row `i` and column `j` -/
def get? : NpVal α → Nat → Nat → Option α
  | vec v, i, j => if i = 0 then v[j]? else none
  | mat _ _ rows, i, j => (rows[i]?).bind (·[j]?)

/-- the listed rows are what the shape says -/
def WF : NpVal α → Prop
  | vec _ => True
  | mat n m rows => rows.length = n ∧ ∀ r ∈ rows, r.length = m

end NpVal

/-- the length of a dimension of the result: equal lengths, or one of them is `1` -/
def bdim (a b : Nat) : Option Nat :=
  if a = b then some a else if a = 1 then some b else if b = 1 then some a else none

/-- the position in an operand whose dimension has length `a`: a dimension of length `1` is repeated -/
def bpick (a i : Nat) : Nat := if a = 1 then 0 else i

/-- the shapes of the two arrays can be broadcast together; otherwise NumPy raises a
`ValueError` -/
def Broadcastable {α : Type} (x y : NpVal α) : Prop :=
  (bdim x.nrows y.nrows).isSome ∧ (bdim x.ncols y.ncols).isSome

/-- `r` is what NumPy computes for `f(x, y)`, element by element, with broadcasting -/
structure Broadcasts {α : Type} (f : α → α → α) (x y r : NpVal α) : Prop where
  /-- as many dimensions as the operand with more of them -/
  ndim : r.isMat = (x.isMat || y.isMat)
  /-- the result is rectangular -/
  wf : r.WF
  /-- the shape of the result -/
  rows : bdim x.nrows y.nrows = some r.nrows
  cols : bdim x.ncols y.ncols = some r.ncols
  /-- every element is computed from the two elements that broadcasting puts there -/
  cells : ∀ i, i < r.nrows → ∀ j, j < r.ncols → ∃ a b,
    x.get? (bpick x.nrows i) (bpick x.ncols j) = some a
      ∧ y.get? (bpick y.nrows i) (bpick y.ncols j) = some b
      ∧ r.get? i j = some (f a b)

/-- the operators of arrays, with their reflected forms (`r…`: `x.__rsub__(y)` is `y - x`) -/
inductive NpOp where
  | add | radd | mul | rmul | sub | rsub | div | rdiv | floordiv | mod | pow
  | gt | ge | lt | le | eq | ne
  deriving Repr, DecidableEq

/-- What two elements give: NumPy's functions, pandas' own two functions that differ from
NumPy's on integers, and the special values.  Truth values are elements, too. -/
structure NpScalars (α : Type) where
  add : α → α → α
  sub : α → α → α
  mul : α → α → α
  truediv : α → α → α
  floordiv : α → α → α
  mod : α → α → α
  pow : α → α → α
  gt : α → α → α
  ge : α → α → α
  lt : α → α → α
  le : α → α → α
  eq : α → α → α
  ne : α → α → α
  /-- `//` of pandas: an integer divided by zero is infinite or missing -/
  pdFloordiv : α → α → α
  /-- `%` of pandas: an integer modulo zero is missing -/
  pdMod : α → α → α
  nan : α
  zero : α
  isNan : α → Bool
  isInf : α → Bool
  isZero : α → Bool

/-- NumPy's meaning of an operator on two elements -/
def NpScalars.meaning {α : Type} (S : NpScalars α) : NpOp → α → α → α
  | .add, a, b => S.add a b
  | .radd, a, b => S.add b a
  | .mul, a, b => S.mul a b
  | .rmul, a, b => S.mul b a
  | .sub, a, b => S.sub a b
  | .rsub, a, b => S.sub b a
  | .div, a, b => S.truediv a b
  | .rdiv, a, b => S.truediv b a
  | .floordiv, a, b => S.floordiv a b
  | .mod, a, b => S.mod a b
  | .pow, a, b => S.pow a b
  | .gt, a, b => S.gt a b
  | .ge, a, b => S.ge a b
  | .lt, a, b => S.lt a b
  | .le, a, b => S.le a b
  | .eq, a, b => S.eq a b
  | .ne, a, b => S.ne a b

/-- Types of elements. -/
structure NpTypes (α δ : Type) where
  /-- the type that can hold the values of both -/
  common : δ → δ → δ
  /-- the value converted to the type -/
  cast : δ → α → α
  /-- an integer type? -/
  isInt : δ → Bool

/-- What is known about the functions on elements.  For values of an integer type NumPy's answer to a
division by zero is zero, where pandas' answer is infinite unless zero is divided; otherwise pandas' answer is
NumPy's, an integer.  For other types the two agree. -/
structure NpScalars.Lawful {α δ : Type} (S : NpScalars α) (T : NpTypes α δ) : Prop where
  add_comm : ∀ a b, S.add a b = S.add b a
  mul_comm : ∀ a b, S.mul a b = S.mul b a
  eq_comm : ∀ a b, S.eq a b = S.eq b a
  ne_comm : ∀ a b, S.ne a b = S.ne b a
  gt_lt : ∀ a b, S.gt a b = S.lt b a
  ge_le : ∀ a b, S.ge a b = S.le b a
  fd_zero : ∀ d, T.isInt d = true → ∀ u v, S.isZero (T.cast d v) = true →
    S.floordiv (T.cast d u) (T.cast d v) = S.zero
  fd_inf : ∀ d, T.isInt d = true → ∀ u v, S.isZero (T.cast d v) = true → S.isZero (T.cast d u) = false →
    S.isInf (S.pdFloordiv (T.cast d u) (T.cast d v)) = true
  fd_same : ∀ d, T.isInt d = true → ∀ u v, S.isZero (T.cast d v) = false →
    S.pdFloordiv (T.cast d u) (T.cast d v) = S.floordiv (T.cast d u) (T.cast d v)
      ∧ S.isInf (S.floordiv (T.cast d u) (T.cast d v)) = false
  mod_zero : ∀ d, T.isInt d = true → ∀ u v, S.isZero (T.cast d v) = true →
    S.mod (T.cast d u) (T.cast d v) = S.zero ∧ S.isNan (S.pdMod (T.cast d u) (T.cast d v)) = true
  mod_same : ∀ d, T.isInt d = true → ∀ u v, S.isZero (T.cast d v) = false →
    S.pdMod (T.cast d u) (T.cast d v) = S.mod (T.cast d u) (T.cast d v)
      ∧ S.isNan (S.mod (T.cast d u) (T.cast d v)) = false
  fd_float : ∀ d, T.isInt d = false → ∀ u v,
    S.pdFloordiv (T.cast d u) (T.cast d v) = S.floordiv (T.cast d u) (T.cast d v)
  mod_float : ∀ d, T.isInt d = false → ∀ u v,
    S.pdMod (T.cast d u) (T.cast d v) = S.mod (T.cast d u) (T.cast d v)

/-- comparisons -/
def NpOp.compares : NpOp → Bool
  | .gt | .ge | .lt | .le | .eq | .ne => true
  | _ => false

/-- What an operator makes of two elements: they are converted to the type `d` to compute in, and the result
to `dtype`, if one was asked for.  Comparisons compare the elements as they are. -/
def NpScalars.expected {α δ : Type} (S : NpScalars α) (T : NpTypes α δ) (op : NpOp) (dtype : Option δ) (d : δ) (a b : α) : α :=
  if op.compares then S.meaning op a b
  else
    match dtype with
    | none => S.meaning op (T.cast d a) (T.cast d b)
    | some t => T.cast t (S.meaning op (T.cast d a) (T.cast d b))
