import Verif.Pandas.Frame
/-
Correlation and covariance of columns of exact numbers with missing values, as pandas defines them
(`pandas._libs.algos.nancorr`, `numpy.cov`).
-/

variable {ι κ R : Type}

/-- the values of the columns at positions `i` and `j` in the rows where neither is missing -/
def pairsOf (rows : List (List (Option Rat))) (i j : Nat) : List (Rat × Rat) :=
  rows.filterMap fun row =>
    match row[i]?, row[j]? with
    | some (some x), some (some y) => some (x, y)
    | _, _ => none

def meanOf (l : List Rat) : Rat := l.sum / l.length

/-- the sum of the products of the deviations from the means -/
def codeviation (l : List (Rat × Rat)) : Rat :=
  (l.map fun p => (p.1 - meanOf (l.map (·.1))) * (p.2 - meanOf (l.map (·.2)))).sum

/-- the sum of the squares of the deviations from the mean -/
def deviation (l : List Rat) : Rat := (l.map fun x => (x - meanOf l) * (x - meanOf l)).sum

/-- a table with one row and one column for every column of a frame -/
def Frame.columnTable (df : Frame ι κ (Option Rat)) (f : Nat → Nat → R) : Frame κ κ R :=
  { index := df.columns, columns := df.columns
    rows := (List.range df.columns.length).map fun i => (List.range df.columns.length).map fun j => f i j }

/-- `df.corr(min_periods=...)`.  `quotient t a b` is `t / sqrt(a * b)`, missing when the divisor is zero. -/
def Frame.corr (quotient : Rat → Rat → Rat → R) (nan : R) (minPeriods : Nat) (df : Frame ι κ (Option Rat)) : Frame κ κ R :=
  df.columnTable fun i j =>
    let l := pairsOf df.rows i j
    if l.length < minPeriods ∨ l = [] then nan
    else quotient (codeviation l) (deviation (l.map (·.1))) (deviation (l.map (·.2)))

/-- `df.cov(min_periods=..., ddof=...)`; `ddof` is used only if nothing is missing (then for a number of rows larger than
    `ddof`), else it is 1. -/
def Frame.cov (minPeriods : Option Nat) (ddof : Nat) (df : Frame ι κ (Option Rat)) : Frame κ κ (Option Rat) :=
  let d := if df.rows.any (·.any (·.isNone)) then 1 else ddof
  df.columnTable fun i j =>
    let l := pairsOf df.rows i j
    if l.length < minPeriods.getD 1 then none
    else if (l.length : Rat) - d = 0 then none
    else some (codeviation l / ((l.length : Rat) - d))
