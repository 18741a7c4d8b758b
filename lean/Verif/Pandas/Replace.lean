import Verif.Pandas.Fillna
import Verif.Pandas.Convert
/-
Specification vocabulary: `replace`, `round`, `Series.map`, `Series.apply`, pandas' semantics.
-/

variable {ι κ α : Type}

/-- the value that takes the place of `x` -/
def swapValue [DecidableEq α] (pairs : List (α × α)) (x : α) : α := (valueFor pairs x).getD x

/-- filling from the cell before: `v` is the value to fill with, `n` how many cells have been filled in a row -/
def padOver (hit : α → Bool) (limit : Option Nat) (v : α) (n : Nat) : List α → List α
  | [] => []
  | x :: xs =>
    if hit x then
      if (limit.map fun l => decide (l ≤ n)).getD false then x :: padOver hit limit v n xs
      else v :: padOver hit limit v (n + 1) xs
    else x :: padOver hit limit x 0 xs

/-- a column whose cells to be replaced take the value of the last cell before them that is not to be replaced (at the
    beginning of the column: the value of its first cell) -/
def padReplaced (hit : α → Bool) (limit : Option Nat) : List α → List α
  | [] => []
  | x :: xs => padOver hit limit x 0 (x :: xs)

/-- the arguments of `replace`: values with the values that take their places (`replace(1, 2)`, `replace([1, 2], [3, 4])`,
    `replace({1: 3, 2: 4})`); the same for each of some columns (`replace({"a": {1: 3}})`, `replace({"a": 1}, 3)`,
    `replace(1, {"a": 3})`); values to be overwritten by the cell before (`replace([1, 2], method="pad", limit=...)`) -/
inductive ReplaceArg (κ α : Type) where
  | flat (pairs : List (α × α))
  | named (d : List (κ × List (α × α)))
  | pad (olds : List α) (limit : Option Nat)

/-- `df.replace(...)` -/
def Frame.replace [DecidableEq κ] [DecidableEq α] (arg : ReplaceArg κ α) (f : Frame ι κ α) : Frame ι κ α :=
  match arg with
  | .flat pairs => f.mapCells (swapValue pairs)
  | .named d => f.mapCellsL fun _ k => swapValue ((valueFor d k).getD [])
  | .pad olds limit => f.along true (padReplaced (fun x => olds.contains x) limit)

/-- the argument of `round`: one number of decimals, or one for each of some columns -/
inductive RoundArg (κ : Type) where
  | all (n : Int)
  | named (d : List (κ × Int))

/-- `df.round(...)`; `rnd n x` is the value `x` rounded (a value that is not a number: itself) -/
def Frame.roundTo [DecidableEq κ] (rnd : Int → α → α) (arg : RoundArg κ) (f : Frame ι κ α) : Frame ι κ α :=
  match arg with
  | .all n => f.mapCells (rnd n)
  | .named d => f.mapCellsL fun _ k x => match valueFor d k with
    | some n => rnd n x
    | none => x

/-- the argument of `Series.map`: a function that may raise, a dictionary (of a class with or without `__missing__`), a Series
    (labels and values) -/
inductive MapArg (α : Type) where
  | fn (f : α → Option α)
  | dict (d : List (α × α)) (missing : Option (α → α))
  | series (s : List (α × α))

/-- what a value becomes -/
def MapArg.value [DecidableEq α] (nan : α) : MapArg α → α → Option α
  | .fn f, x => f x
  | .dict d none, x => some ((valueFor d x).getD nan)
  | .dict d (some g), x => some ((valueFor d x).getD (g x))
  | .series s, x => some ((valueFor s x).getD nan)

/-- `s.map(arg, na_action="ignore" or None)`: a Series with repeated labels raises -/
def Frame.mapSeries [DecidableEq α] (nan : α) (isna : α → Bool) (ignoreNa : Bool) (arg : MapArg α) (f : Frame ι κ α) :
    Option (Frame ι κ α) :=
  match arg with
  | .series s =>
    if ((s.filter fun p => !(ignoreNa && isna p.1)).map (·.1)).Nodup then
      f.mapCellsM fun x => if ignoreNa && isna x then some x else arg.value nan x
    else none
  | _ => f.mapCellsM fun x => if ignoreNa && isna x then some x else arg.value nan x
