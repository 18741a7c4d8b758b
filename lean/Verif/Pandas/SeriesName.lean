import Verif.Pandas.Labels
import Verif.Pandas.SeriesGet

/-!
# The name of a Series: pandas' `name`, `to_frame`, `DataFrame(s)` and `repeat`

A name is `none` if it is `None`.  `zero` is the label `0` and `noneLabel` the label `None`.
-/

variable {L α : Type}

/-- `s.to_frame(name)`; the argument is `none` if it is not given and `some none` if it is `None`.  `DataFrame(s)` is `s.to_frame()`. -/
def serToFrame (zero noneLabel : L) (name : Option L) (index : List L) (values : List α) (arg : Option (Option L)) : Frame L L α :=
  { index := index
    columns := [match arg with
      | none => name.getD zero
      | some none => noneLabel
      | some (some c) => c]
    rows := values.map ([·]) }

/-- the argument of `repeat`: a number, or a list of numbers -/
inductive RepeatArg where
  | int (n : Nat)
  | list (ns : List Nat)
deriving DecidableEq, Repr

/-- each item as often as its number says -/
def repeatEach {τ : Type} (l : List τ) (ns : List Nat) : List τ := (l.zip ns).flatMap fun p => List.replicate p.2 p.1

/-- `s.repeat(repeats)`: one number is for all values; `none`: the number of numbers does not fit (`ValueError`) -/
def serRepeat (name : Option L) (index : List L) (values : List α) (arg : RepeatArg) : Option (SerGot L α) :=
  let ns := match arg with
    | .int n => List.replicate values.length n
    | .list [n] => List.replicate values.length n
    | .list ns => ns
  if ns.length = values.length then some (.series name (repeatEach index ns) (repeatEach values ns)) else none
