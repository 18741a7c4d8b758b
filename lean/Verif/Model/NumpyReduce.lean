import Verif.Model.NumpyOps
import Verif.Pandas.NumpyReduce

/-!
# Model of the reductions of `modin.numpy.array`

Models `sum`, `prod`, `max`, `min`, `all`, `any` of `modin/numpy/arr.py`.

Simplifications: a reduction of a query compiler along `axis=0` is a frame with one row, along `axis=1` a
frame with one column (that a reduction block by block is the reduction of the whole is C12);
`out=` and `dtype=` are left out; a mask with more dimensions than the array is left out
(`none`); an exception is `none`.
-/

/-- the argument `where`, arr.py 529 ff. -/
inductive NpWhereG where
  | all
  | nothing
  | mask (m : NGrid Bool)

/-- NumPy's view of the argument -/
def NpWhereG.spec : NpWhereG → NpWhere
  | .all => .all
  | .nothing => .nothing
  | .mask m => .mask m.val

/-- `truthy_where = bool(where)`: for an array `__len__` decides (arr.py 2538) -/
def NpWhereG.truthy : NpWhereG → Bool
  | .all => true
  | .nothing => false
  | .mask m => decide (m.nr ≠ 0)

/-- `where is True` -/
def NpWhereG.isTrue : NpWhereG → Bool
  | .all => true
  | _ => false

/-- what a reduction gives -/
inductive NpOutG (α : Type) where
  | scalar (a : α)
  | arr (g : NGrid α)
  deriving Repr, DecidableEq

def NpOutG.val {α : Type} : NpOutG α → NpOut α
  | .scalar a => .scalar a
  | .arr g => .arr g.val

/-- arr.py 289–316 `_validate_axis`: a negative axis is counted from the end; other numbers are not looked at -/
def npValidateAxis (two : Bool) (axis : Option Int) : Option (Option Int) :=
  match axis with
  | none => some none
  | some a =>
    if a < 0 then
      let b := a + (if two then 2 else 1)
      if two then (if b = 0 ∨ b = 1 then some (some b) else none)
      else (if b = 0 then some (some b) else none)
    else some (some a)

/-- arr.py 443–527, `where.where(self, fill)` in the reductions: which element of the frame counts.  Same number of
dimensions: 500–507 the shapes must be the same; 492–499 a mask with one dimension for an array with two: the
lengths must fit, and NumPy repeats it. -/
def npMaskFn {α : Type} (w : NpWhereG) (x : NGrid α) : Option (Nat → Nat → Bool) :=
  match w with
  | .all => some fun _ _ => true
  | .nothing => some fun _ _ => true
  | .mask m =>
    if m.two = x.two then
      if m.shape = x.shape then some fun i j => (m.cell? i j).getD false else none
    else if x.two then
      if m.nr = x.nc then some fun _ j => (m.cell? j 0).getD false else none
    else none

/-- the elements of the frame, each with the answer whether it counts -/
def npPairs {α : Type} (k : Nat → Nat → Bool) (x : NGrid α) : List (List (α × Bool)) :=
  x.rows.mapIdx fun i r => r.mapIdx fun j v => (v, k i j)

/-- `where.where(self, fill)` -/
def npFill {α : Type} (fill : α) (rows : List (List (α × Bool))) : List (List α) :=
  rows.map (·.map fun p => if p.2 then p.1 else fill)

/-- column `j` of a frame -/
def colOf {α : Type} (rows : List (List α)) (j : Nat) : List α := rows.filterMap (·[j]?)

/-- the result with one dimension, held as a column; `result.transpose()` in arr.py 2057–2058 -/
def npColumn {α : Type} (c : List α) : NGrid α := ⟨false, c.length, 1, c.map ([·])⟩

/-- arr.py 1976–2073 `sum` (`op` is `+`, `e` is `0`) and 1680–1777 `prod` (`*`, `1`).  pandas' own reduction is called with
`skipna=False`: `foldl op e`. -/
def npSumLike {α : Type} (op : α → α → α) (e : α) (x : NGrid α) (axis : Option Int) (keepdims : Bool) (initial : Option α)
    (w : NpWhereG) : Option (NpOutG α) :=
  let init := initial.getD e
  let red := fun (l : List α) => l.foldl op e
  match npValidateAxis x.two axis with
  | none => none
  | some ax =>
    if !x.two then
      if ax = some 1 then none
      else
        match npMaskFn w x with
        | none => none
        | some k =>
          let r := op (red (npFill e (npPairs k x)).flatten) init
          let r := if w.truthy then r else init
          some (if keepdims then .arr ⟨false, 1, 1, [[r]]⟩ else .scalar r)
    else
      match ax with
      | none =>
        match npMaskFn w x with
        | none => none
        | some k =>
          let r := op (red ((npFill e (npPairs k x)).map red)) init
          let r := if w.truthy then r else init
          some (if keepdims then .arr ⟨true, 1, 1, [[r]]⟩ else .scalar r)
      | some a =>
        if a > 1 then none
        else
          match npMaskFn w x with
          | none => none
          | some k =>
            let t := npFill e (npPairs k x)
            if a = 0 then
              let c := (List.range x.nc).map fun j => if w.truthy then op (red (colOf t j)) init else init
              some (.arr (if keepdims then ⟨true, 1, x.nc, [c]⟩ else npColumn c))
            else
              let c := t.map fun r => if w.truthy then op (red r) init else init
              some (.arr (if keepdims then ⟨true, x.nr, 1, c.map ([·])⟩ else npColumn c))

/-- pandas' `max` and `min`: `skipna=True`, the missing value if nothing is left -/
def pdExt {β : Type} (mx : β → β → β) (l : List (Option β)) : Option β :=
  match l.filterMap id with
  | [] => none
  | a :: l => some (l.foldl mx a)

/-- Python's `max(result, initial)`: the second if it is greater -/
def pyMax {β : Type} (gt : β → β → Bool) (r i : Option β) : Option β :=
  match r, i with
  | some a, some b => if gt b a then some b else some a
  | r, _ => r

/-- `(intermediate > initial).where(intermediate, initial)`, arr.py 606–609: a comparison with a missing value is false -/
def whereGt {β : Type} (gt : β → β → Bool) (r : Option β) (i : Option β) : Option β :=
  match r, i with
  | some a, some b => if gt a b then some a else some b
  | _, i => i

/-- arr.py 529–616 `max` and 618–705 `min`: `gt` is `>` or `<`, `mx` the greater or the less of two elements.
545–546 with `keepdims` and an initial value: `result.lt(initial).any()` is a query compiler, which counts as true, so
the initial value is the result. -/
def npMaxLike {β : Type} (mx : β → β → β) (gt : β → β → Bool) (x : NGrid (Option β)) (axis : Option Int) (keepdims : Bool)
    (initial : Option β) (w : NpWhereG) : Option (NpOutG (Option β)) :=
  match npValidateAxis x.two axis with
  | none => none
  | some ax =>
    if initial.isNone && !w.isTrue then none
    else if !x.two then
      if ax = some 1 then none
      else
        match npMaskFn w x with
        | none => none
        | some k =>
          let r := pdExt mx (npFill initial (npPairs k x)).flatten
          if keepdims then
            some (.arr ⟨false, 1, 1, [[if initial.isSome then initial else r]]⟩)
          else
            let r := if initial.isSome then pyMax gt r initial else r
            some (.scalar (if w.truthy then r else initial))
    else
      match ax with
      | none =>
        match npMaskFn w x with
        | none => none
        | some k =>
          let t := npFill initial (npPairs k x)
          let r := pdExt mx ((List.range x.nc).map fun j => pdExt mx (colOf t j))
          let r := if initial.isSome then pyMax gt r initial else r
          let r := if w.truthy then r else initial
          some (if keepdims then .arr ⟨true, 1, 1, [[r]]⟩ else .scalar r)
      | some a =>
        if a > 1 then none
        else
          match npMaskFn w x with
          | none => none
          | some k =>
            let t := npFill initial (npPairs k x)
            let fin := fun (r : Option β) =>
              if w.truthy then (if initial.isSome then whereGt gt r initial else r) else initial
            if a = 0 then
              let c := (List.range x.nc).map fun j => fin (pdExt mx (colOf t j))
              some (.arr (if keepdims then ⟨true, 1, x.nc, [c]⟩ else npColumn c))
            else
              let c := t.map fun r => fin (pdExt mx r)
              some (.arr (if keepdims then ⟨true, x.nr, 1, c.map ([·])⟩ else npColumn c))

/-- pandas' `all` (`isAll`) and `any` of truth values: `skipna=True`, missing values are left out -/
def pdTruth (isAll : Bool) (l : List (Option Bool)) : Bool :=
  if isAll then (l.filterMap id).all id else (l.filterMap id).any id

/-- arr.py 2075–2128 `all` and 2132–2185 `any`.  The elements are given by their truth values, missing ones as `none`.
2097–2100 with `axis=None` and `keepdims`: the array is made of the query compiler itself, which counts as true. -/
def npTruthLike (isAll : Bool) (x : NGrid (Option Bool)) (axis : Option Int) (keepdims : Bool) (w : NpWhereG) :
    Option (NpOutG Bool) :=
  match npValidateAxis x.two axis with
  | none => none
  | some ax =>
    match npMaskFn w x with
    | none => none
    | some k =>
      let t := npFill (some isAll) (npPairs k x)
      if !x.two then
        if ax = some 1 then none
        else
          let r := if w.truthy then pdTruth isAll t.flatten else isAll
          some (if keepdims then .arr ⟨false, 1, 1, [[r]]⟩ else .scalar r)
      else
        match ax with
        | none =>
          if keepdims then
            some (.arr ⟨true, 1, 1, [[if w.truthy then true else isAll]]⟩)
          else
            some (.scalar (if w.truthy then pdTruth isAll ((t.map (pdTruth isAll)).map some) else isAll))
        | some a =>
          if a > 1 then none
          else if a = 0 then
            let c := (List.range x.nc).map fun j => if w.truthy then pdTruth isAll (colOf t j) else isAll
            some (.arr (if keepdims then ⟨true, 1, x.nc, [c]⟩ else npColumn c))
          else
            let c := t.map fun r => if w.truthy then pdTruth isAll r else isAll
            some (.arr (if keepdims then ⟨true, x.nr, 1, c.map ([·])⟩ else npColumn c))
