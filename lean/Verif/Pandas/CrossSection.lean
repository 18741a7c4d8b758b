import Verif.Pandas.LocGet
import Verif.Pandas.Relabel

/-!
# pandas' `xs`, `get` and `pop`

The specification of `df.xs(key, axis=..., drop_level=...)` for labels of one level, `df.get(key, default)` and `df.pop(key)`
(`pandas.pydata.org/docs/reference/api/pandas.DataFrame.xs.html`).
-/

variable {L α : Type}

/-- the positions of a label, in order -/
def labelPlaces [DecidableEq L] (labels : List L) (x : L) : List Nat :=
  (List.range labels.length).filter fun k => labels[k]? == some x

/-- `df.xs(key, axis=...)`: the row (column) with the label as a Series if it is there once, all of them as a frame if it is there several
    times; one column comes as a frame with `drop_level=False`.  `none`: `KeyError`. -/
def Frame.xs [DecidableEq L] (key : L) (axis1 dropLevel : Bool) (df : Frame L L α) : Option (Selected L α) :=
  if axis1 then
    match labelPlaces df.columns key with
    | [] => none
    | [q] => df.located (.many (List.range df.nrows)) (if dropLevel then .one q else .many [q])
    | qs => df.located (.many (List.range df.nrows)) (.many qs)
  else
    match labelPlaces df.index key with
    | [] => none
    | [p] => df.located (.one p) (.many (List.range df.ncols))
    | ps => df.located (.many ps) (.many (List.range df.ncols))

/-- `df.pop(key)`: what is returned, and the frame without the columns of that label; `none`: `KeyError` -/
def Frame.pop [DecidableEq L] (key : L) (df : Frame L L α) : Option (Selected L α × Frame L L α) :=
  (df.xs key true true).map fun s => (s, df.dropLabels none (some [key]))

/-- what pandas' `Index.get_loc` returns: a position, a slice or a mask -/
inductive FoundAt where
  | one (p : Nat)
  | span (start stop : Nat)
  | mask (bs : List Bool)
deriving DecidableEq, Repr

/-- what `Index.get_loc` promises: `KeyError` (`none`) for a label that is not there; the position of a label that is there once; the
    positions of the others as a slice (labels in order) or as a mask -/
def GetLocOf [DecidableEq L] (labels : List L) (x : L) : Option FoundAt → Prop
  | none => labelPlaces labels x = []
  | some (.one p) => labelPlaces labels x = [p]
  | some (.span a b) => labelPlaces labels x = List.range' a (b - a) ∧ 2 ≤ (labelPlaces labels x).length
  | some (.mask bs) => (List.range labels.length).filter (fun k => bs[k]? == some true) = labelPlaces labels x ∧ bs.length = labels.length ∧
      2 ≤ (labelPlaces labels x).length
