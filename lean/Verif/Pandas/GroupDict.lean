import Verif.Pandas.GroupBy
import Verif.Pandas.GroupAgg
import Verif.Pandas.Reduce
/-
`df.groupby(by).agg({c: f, ...})` of pandas, one value per group, column and function.
-/

variable {ι κ α K γ : Type}

/-- The new columns a dictionary asks for, in its order: for every entry and every column with the entry's label, its functions (with
    the labels of their results) and the column's cells. -/
def dictPicks {φ ℓ : Type} [DecidableEq κ] (d : List (κ × List (ℓ × φ))) (cols : List (κ × List α)) : List ((ℓ × φ) × List α) :=
  d.flatMap fun e => (cols.filter fun p => decide (p.1 = e.1)).flatMap fun p => e.2.map fun f => (f, p.2)

/-- `agg(d)` over the groups of `keys`: a row per group, a column per function, a cell is the function of the column's cells in the
    group's rows.  `value f`: what the function named `f` computes. -/
def Frame.aggDict {φ ℓ : Type} [DecidableEq κ] [DecidableEq K] (G : Grouping K) (keys : List K) (value : φ → List α → γ)
    (d : List (κ × List (ℓ × φ))) (df : Frame ι κ α) : Frame K ℓ γ :=
  Frame.ofCols (G.groups keys)
    ((dictPicks d df.named).map fun x => (x.1.1, (G.groups keys).map fun k => value x.1.2 (cellsAt k keys x.2)))

/-- `agg(x=("c", f), y=("d", g), ...)`: a column per argument, in the order of the arguments and labelled by them.  `spec`: new label, column,
    function. -/
def Frame.aggNamed {φ ℓ : Type} [DecidableEq κ] [DecidableEq K] (G : Grouping K) (keys : List K) (value : φ → List α → γ)
    (spec : List (ℓ × κ × φ)) (df : Frame ι κ α) : Frame K ℓ γ :=
  df.aggDict G keys value (spec.map fun s => (s.2.1, [(s.1, s.2.2)]))

/-- names of functions `agg` knows -/
inductive AggName where
  | sum | prod | min | max | count | size | mean
deriving DecidableEq

/-- what they compute of the cells of a column in a group -/
def AggName.value : AggName → List (Option Int) → Option Rat
  | .sum, c => (Pandas.sum true 0 c).map fun (n : Int) => (n : Rat)
  | .prod, c => (Pandas.prod true 0 c).map fun (n : Int) => (n : Rat)
  | .min, c => (Pandas.min true c).map fun (n : Int) => (n : Rat)
  | .max, c => (Pandas.max true c).map fun (n : Int) => (n : Rat)
  | .count, c => some (Pandas.count c : Rat)
  | .size, c => some (c.length : Rat)
  | .mean, c => Pandas.mean true c
