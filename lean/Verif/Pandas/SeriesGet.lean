import Verif.Pandas.LocAssign
import Verif.Pandas.Take

/-!
# pandas' `s[key]` and `s.item()`

The specification of reading a Series (pandas 2, `Series.__getitem__`): a label is looked up; an integer counts as a position only if no
label is an integer (`Index._should_fallback_to_positional`).  A name that is not there (`None`) is `none`.
-/

variable {L α : Type}

/-- the key: a scalar, a list, a list of booleans -/
inductive SerKey (L : Type) where
  | one (x : L)
  | list (xs : List L)
  | mask (bs : List Bool)
deriving DecidableEq, Repr

/-- what comes back: a value or a Series with its name -/
inductive SerGot (L α : Type) where
  | scalar (a : α)
  | series (name : Option L) (index : List L) (values : List α)
deriving DecidableEq, Repr

/-- the positions that a key stands for.  `intOf x` is the integer that `x` is, if it is one.  `none`: an exception. -/
def serPositions [DecidableEq L] (intOf : L → Option Int) (index : List L) (key : SerKey L) : Option (List Nat) :=
  let positional := index.all fun x => (intOf x).isNone
  match key with
  | .one x =>
    match positional, intOf x with
    | true, some i => (IKey.int i).addressed index.length
    | _, _ => (LKey.label x).addressed index
  | .list xs =>
    match positional, xs.mapM intOf with
    | true, some is => (IKey.list is).addressed index.length
    | _, _ => (LKey.list xs).addressed index
  | .mask bs => (LKey.mask bs).addressed index

/-- `s[key]`: a value for a scalar that stands for one position, a Series otherwise -/
def serGetitem [DecidableEq L] (intOf : L → Option Int) (name : Option L) (index : List L) (values : List α) (key : SerKey L) :
    Option (SerGot L α) :=
  (serPositions intOf index key).bind fun ps =>
  match key, ps with
  | .one _, [p] => values[p]?.map .scalar
  | _, ps => some (.series name (takeList index ps) (takeList values ps))

/-- `s.item()`: the only value; `ValueError` (`none`) if there is not exactly one -/
def serItem (values : List α) : Option α :=
  match values with
  | [a] => some a
  | _ => none
