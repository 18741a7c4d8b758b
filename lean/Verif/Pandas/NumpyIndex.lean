import Verif.Pandas.NumpyReduce
import Verif.Pandas.LocAssign
import Verif.Pandas.Take

/-!
# NumPy's `a[key]` and `a[key, key]`

The specification for indexing `modin.numpy` arrays (`numpy.org/doc/stable/user/basics.indexing.html`).  A key is an integer, a list of
integers, a list of booleans or a slice `start:stop` (`IKey.addressed`: the positions it stands for; a position outside or a list of
booleans of the wrong length is an `IndexError`).
-/

variable {α : Type}

/-- an integer: the dimension goes away -/
def IKey.isInt : IKey → Bool
  | .int _ => true
  | _ => false

/-- a list ("advanced indexing") -/
def IKey.isListed : IKey → Bool
  | .list _ => true
  | .mask _ => true
  | _ => false

/-- Two lists of positions are paired, not crossed; a list of one position is repeated.  `none`: `IndexError`. -/
def pairUp (ps qs : List Nat) : Option (List (Nat × Nat)) :=
  if ps.length = qs.length then some (ps.zip qs)
  else match ps, qs with
    | [p], _ => some (qs.map fun q => (p, q))
    | _, [q] => some (ps.map fun p => (p, q))
    | _, _ => none

/-- The cells of the rows `ps` and the columns `qs`; a dimension with an integer key is left out. -/
def npCrossed (rows : List (List α)) (noRows noCols : Bool) (ps qs : List Nat) : Option (NpOut α) :=
  let g := (takeList rows ps).map fun r => takeList r qs
  match noRows, noCols with
  | true, true => g.flatten.head?.map .scalar
  | false, false => some (.arr (.mat ps.length qs.length g))
  | _, _ => some (.arr (.vec g.flatten))

/-- `a[r]` (`c = none`) and `a[r, c]`; `none`: `IndexError` -/
def npGetitem (x : NpVal α) (r : IKey) (c : Option IKey) : Option (NpOut α) :=
  match x, c with
  | .vec v, none =>
    (r.addressed v.length).bind fun ps => if r.isInt then (takeList v ps).head?.map .scalar else some (.arr (.vec (takeList v ps)))
  | .vec _, some _ => none
  | .mat n m rows, none =>
    (r.addressed n).bind fun ps => npCrossed rows r.isInt false ps (List.range m)
  | .mat n m rows, some c =>
    (r.addressed n).bind fun ps => (c.addressed m).bind fun qs =>
    if r.isListed && c.isListed then
      (pairUp ps qs).map fun l => .arr (.vec (l.filterMap fun e => (rows[e.1]?).bind (·[e.2]?)))
    else npCrossed rows r.isInt c.isInt ps qs

/-- `a[mask]`, `mask` an array of booleans with the shape of the array: the cells where it says true, row by row -/
def npGetMask2 (rows : List (List α)) (mask : List (List Bool)) : NpOut α :=
  .arr (.vec ((List.zipWith (fun r m => ((r.zip m).filter (·.2)).map (·.1)) rows mask).flatten))
