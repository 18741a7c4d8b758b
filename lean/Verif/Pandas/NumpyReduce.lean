import Verif.Pandas.NumpyOps

/-!
# NumPy's reductions along an axis, with `keepdims`, `initial` and `where`

The specification for `sum`, `prod`, `max`, `min`, `all` and `any` of `modin.numpy`
(`numpy.org/doc/stable/reference/generated/numpy.ufunc.reduce.html`).
-/

/-- what a reduction returns -/
inductive NpOut (α : Type) where
  | scalar (a : α)
  | arr (v : NpVal α)
  deriving Repr, DecidableEq

/-- the dimension that `axis` names in an array with two dimensions or one; negative numbers count from the
end; otherwise `none`: an `AxisError` -/
def npAxis (isMat : Bool) (a : Int) : Option Nat :=
  match isMat, a with
  | false, 0 => some 0
  | false, -1 => some 0
  | true, 0 => some 0
  | true, -2 => some 0
  | true, 1 => some 1
  | true, -1 => some 1
  | _, _ => none

/-- all elements, row by row -/
def NpVal.elems {α : Type} : NpVal α → List α
  | .vec v => v
  | .mat _ _ rows => rows.flatten

/-- `f` of every line of elements along the axis; `axis=None`: of all elements.  With `keepdims` the axis stays with
length `1`. -/
def npReduceSpec {α β : Type} (f : List α → β) (x : NpVal α) (axis : Option Int) (keepdims : Bool) : Option (NpOut β) :=
  match axis with
  | none =>
    some (if keepdims then .arr (if x.isMat then .mat 1 1 [[f x.elems]] else .vec [f x.elems]) else .scalar (f x.elems))
  | some a =>
    match npAxis x.isMat a with
    | none => none
    | some k =>
      match x with
      | .vec v => some (if keepdims then .arr (.vec [f v]) else .scalar (f v))
      | .mat n m rows =>
        if k = 0 then
          let c := (List.range m).map fun j => f (rows.filterMap (·[j]?))
          some (.arr (if keepdims then .mat 1 m [c] else .vec c))
        else
          let c := rows.map f
          some (.arr (if keepdims then .mat n 1 (c.map ([·])) else .vec c))

/-- the argument `where` -/
inductive NpWhere where
  | all
  | nothing
  | mask (m : NpVal Bool)

/-- which elements of `x` count: the mask is broadcast to the shape of `x` -/
def NpWhere.counts {α : Type} (w : NpWhere) (x : NpVal α) : Option (Nat → Nat → Bool) :=
  match w with
  | .all => some fun _ _ => true
  | .nothing => some fun _ _ => false
  | .mask m =>
    if (m.isMat = true → x.isMat = true) ∧ (m.nrows = x.nrows ∨ m.nrows = 1) ∧ (m.ncols = x.ncols ∨ m.ncols = 1) then
      some fun i j => (m.get? (bpick m.nrows i) (bpick m.ncols j)).getD false
    else none

/-- every element with the answer whether it counts -/
def NpVal.zipMask {α : Type} (k : Nat → Nat → Bool) : NpVal α → NpVal (α × Bool)
  | .vec v => .vec (v.mapIdx fun j a => (a, k 0 j))
  | .mat n m rows => .mat n m (rows.mapIdx fun i r => r.mapIdx fun j a => (a, k i j))

/-- the elements that count -/
def npCounted {α : Type} (l : List (α × Bool)) : List α := (l.filter (·.2)).map (·.1)

/-- `ufunc.reduce`: from the initial value on, element by element -/
def npFold {α : Type} (op : α → α → α) (initial : α) (l : List (α × Bool)) : α := (npCounted l).foldl op initial

/-- the same without an initial value: from the first element on (NumPy refuses if there is none; `d` stands for
that) -/
def npFold1 {α : Type} (op : α → α → α) (d : α) (l : List α) : α :=
  match l with
  | [] => d
  | a :: l => l.foldl op a

variable {β : Type}

/-- `np.maximum` of two values, NaN as `none`: NaN wins -/
def npMx (mx : β → β → β) : Option β → Option β → Option β
  | some a, some b => some (mx a b)
  | _, _ => none

/-- `np.max`/`np.min` of a line of elements: from the initial value on, without one from the first element on -/
def extSpec (mx : β → β → β) (initial : Option β) (l : List (Option β × Bool)) : Option β :=
  match initial with
  | some i => npFold (npMx mx) (some i) l
  | none => npFold1 (npMx mx) none (npCounted l)

/-- the truth value of an element for NumPy: NaN is not zero -/
def npTruthOf : Option Bool → Bool
  | none => true
  | some b => b

/-- `np.all`/`np.any` of a line of elements -/
def truthSpec (isAll : Bool) (l : List (Option Bool × Bool)) : Bool :=
  if isAll then (npCounted l).all npTruthOf else (npCounted l).any npTruthOf

/-- the laws of a greatest or least element -/
structure ExtLaws (mx : β → β → β) (gt : β → β → Bool) : Prop where
  comm : ∀ a b, mx a b = mx b a
  assoc : ∀ a b c, mx (mx a b) c = mx a (mx b c)
  idem : ∀ a, mx a a = a
  gt_left : ∀ a b, (if gt a b then a else b) = mx a b
