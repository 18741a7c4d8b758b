import Verif.Pandas.NumpyIndex
import Verif.Model.Assign

/-!
# NumPy's `a[key] = value`

The specification for assignment to `modin.numpy` arrays (`numpy.org/doc/stable/user/basics.indexing.html`, "Assigning values to indexed
arrays").  The value is broadcast to the shape of `a[key]`.
-/

variable {α : Type}

/-- A value with one dimension for `R` rows and `C` columns; a dimension with an integer key is left out.  The value for the `i`-th row and
    the `j`-th column; `none`: it does not broadcast (`ValueError`). -/
def npSpread1 (noRows noCols : Bool) (R C : Nat) (xs : List α) : Option (Nat → Nat → Option α) :=
  match noRows, noCols with
  | true, true => if xs.length = 1 then some fun _ _ => xs[0]? else none
  | false, true => if xs.length = R then some fun i _ => xs[i]? else if xs.length = 1 then some fun _ _ => xs[0]? else none
  | _, false => if xs.length = C then some fun _ j => xs[j]? else if xs.length = 1 then some fun _ _ => xs[0]? else none

/-- the same for any value -/
def npSpread (noRows noCols : Bool) (R C : Nat) : Item α → Option (Nat → Nat → Option α)
  | .scalar a => some fun _ _ => some a
  | .arr1 xs => npSpread1 noRows noCols R C xs
  | .arr2 M =>
    if noRows || noCols then (match M with | [xs] => npSpread1 noRows noCols R C xs | _ => none)
    else if M.length = R ∧ ∀ x ∈ M, x.length = C then some (entry M)
    else if (M.length = R ∨ M.length = 1) ∧ ∀ x ∈ M, x.length = C ∨ x.length = 1 then
      some fun i j => (M[if M.length = 1 then 0 else i]?).bind fun x => x[if x.length = 1 then 0 else j]?
    else none

/-- the cells in the listed rows and columns get the values, the last one where a position is listed twice -/
def npWrite (rows : List (List α)) (ps qs : List Nat) (f : Nat → Nat → Option α) : List (List α) :=
  rows.mapIdx fun x row => row.mapIdx fun y v =>
    match lastPos ps x, lastPos qs y with
    | some i, some j => (f i j).getD v
    | _, _ => v

/-- two lists: the cells that they pair up -/
def npWritePairs (rows : List (List α)) (l : List (Nat × Nat)) (f : Nat → Option α) : List (List α) :=
  rows.mapIdx fun x row => row.mapIdx fun y v =>
    (((l.zipIdx.filter fun e => decide (e.1 = (x, y))).getLast?).bind fun e => f e.2).getD v

/-- `a[r] = value` (`c = none`) and `a[r, c] = value`: the array afterwards; `none`: an exception -/
def npSetitem (x : NpVal α) (r : IKey) (c : Option IKey) (value : Item α) : Option (NpVal α) :=
  match x, c with
  | .vec v, none =>
    (r.addressed v.length).bind fun ps => (npSpread r.isInt true ps.length 1 value).map fun f =>
    .vec (v.mapIdx fun x y => match lastPos ps x with
      | some i => (f i 0).getD y
      | none => y)
  | .vec _, some _ => none
  | .mat n m rows, none =>
    (r.addressed n).bind fun ps => (npSpread r.isInt false ps.length m value).map fun f =>
    .mat n m (npWrite rows ps (List.range m) f)
  | .mat n m rows, some c =>
    (r.addressed n).bind fun ps => (c.addressed m).bind fun qs =>
    if r.isListed && c.isListed then
      (pairUp ps qs).bind fun l => (npSpread false true l.length 1 value).map fun f => .mat n m (npWritePairs rows l fun k => f k 0)
    else (npSpread r.isInt c.isInt ps.length qs.length value).map fun f => .mat n m (npWrite rows ps qs f)

/-- the array that a frame stands for: with two dimensions, or one if it is a single column -/
def npShown {ι κ : Type} (two : Bool) (df : Frame ι κ α) : NpVal α :=
  if two then .mat df.nrows df.ncols df.rows else .vec df.rows.flatten
