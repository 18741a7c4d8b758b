import Verif.Pandas.Reduce
import Verif.Pandas.Sort
/-
Specification vocabulary: pandas' `groupby` along axis 0.
-/

variable {ι κ α β K : Type}

/-- the values of a list, each where it first occurs (`pandas.unique`) -/
def firsts [DecidableEq K] : List K → List K
  | [] => []
  | x :: xs => x :: (firsts xs).filter (· ≠ x)

/-- The arguments of `groupby` that decide which groups there are and in which order: the order of
    keys, whether groups are sorted by it (`sort`) or stand in order of appearance, and which keys
    make no group (with `dropna=True`, those containing a missing value). -/
structure Grouping (K : Type) where
  le : K → K → Bool
  sort : Bool
  dropped : K → Bool

/-- `le` is a total order -/
structure Grouping.Ordered (G : Grouping K) : Prop where
  trans : ∀ a b c, G.le a b → G.le b c → G.le a c
  total : ∀ a b, G.le a b ∨ G.le b a
  antisymm : ∀ a b, G.le a b → G.le b a → a = b

/-- the groups of a column of keys, in the order of the result -/
def Grouping.groups [DecidableEq K] (G : Grouping K) (keys : List K) : List K :=
  if G.sort then sortBy G.le (firsts (keys.filter fun k => !G.dropped k))
  else firsts (keys.filter fun k => !G.dropped k)

/-- `df.groupby(keys).agg(h)`, one key per row: one row per group, labelled by its key; in each
    column the value of `h` on the cells of the rows with that key, top to bottom. -/
def Frame.groupByKeys [DecidableEq K] (G : Grouping K) (keys : List K) (h : List α → β)
    (f : Frame ι κ α) : Frame K κ β :=
  { index := G.groups keys, columns := f.columns,
    rows := (G.groups keys).map fun k => f.cols.map fun c => h (cellsAt k keys c) }

/-- `df.drop(columns=...)`: without the columns whose label satisfies `p` -/
def Frame.withoutCols (p : κ → Bool) (f : Frame ι κ α) : Frame ι κ α :=
  { index := f.index, columns := f.columns.filter (fun c => !p c),
    rows := f.rows.map fun r => ((f.columns.zip r).filter (fun x => !p x.1)).map (·.2) }

/-- The keys of the rows labelled `index` when `df.groupby` is given another frame's columns `other`:
    the row of `other` with the same label, missing if there is none.  `none`: `other` has a label twice,
    and pandas cannot align. -/
def keysByLabel [DecidableEq ι] (na : α) (index : List ι) (other : Frame ι κ α) : Option (List (List α)) :=
  if other.index = index then some other.rows
  else if other.index.Nodup then
    some (index.map fun l => ((cellsAt l other.index other.rows).head?).getD
      (List.replicate other.ncols na))
  else none

namespace Pandas

/-- sum of fractions -/
def qsum : List Rat → Rat
  | [] => 0
  | x :: xs => x + qsum xs

/-- The sample skewness of the values that are not missing, from the number of values `n`, the second and
    third central moments `m2 = Σ (x - mean)²` and `m3 = Σ (x - mean)³`: missing for fewer than 3 values, zero if
    all are equal, else `formula n m2 m3` (in pandas `n √(n-1) / (n-2) · m3 / m2^1.5`). -/
def skew {ρ : Type} (formula : Rat → Rat → Rat → ρ) (zero : ρ) (c : List (Option Int)) : Option ρ :=
  let xs := (c.filterMap id).map fun (v : Int) => (v : Rat)
  let m := qsum xs / xs.length
  let m2 := qsum (xs.map fun x => (x - m) * (x - m))
  let m3 := qsum (xs.map fun x => (x - m) * (x - m) * (x - m))
  if xs.length < 3 then none else if m2 = 0 then some zero else some (formula xs.length m2 m3)

end Pandas

/-! ### keys made of numbers with missing values -/

/-- order of one key value: missing values come last (`na_position` of group keys) -/
def cellLe : Option Int → Option Int → Bool
  | _, none => true
  | none, some _ => false
  | some a, some b => decide (a ≤ b)

/-- lexicographic order of the keys of several columns -/
def keyLe : List (Option Int) → List (Option Int) → Bool
  | [], _ => true
  | _ :: _, [] => false
  | a :: as, b :: bs => if a = b then keyLe as bs else cellLe a b

/-- `groupby(..., sort=sort, dropna=dropna)` -/
def pandasGrouping (sort dropna : Bool) : Grouping (List (Option Int)) :=
  { le := keyLe, sort := sort, dropped := fun k => dropna && k.contains none }
