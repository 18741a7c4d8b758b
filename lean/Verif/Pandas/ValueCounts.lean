import Verif.Pandas.GroupBy
/-
Specification vocabulary: `value_counts` and `groupby(...).size()`.
-/

variable {κ K : Type}

/-- each group and the number of rows with its key -/
def countKeys [DecidableEq K] (G : Grouping K) (keys : List K) : List (K × Nat) :=
  (G.groups keys).map fun k => (k, (keys.filter fun x => decide (x = k)).length)

/-- the order of `value_counts`: by the count -/
def countsBefore (ascending : Bool) (a b : K × Nat) : Bool := if ascending then decide (a.2 ≤ b.2) else decide (b.2 ≤ a.2)

/-- `df.value_counts(sort=sort, ascending=ascending)` of rows with these keys: pandas sorts the groups (`G`), then sorts by the count.
    The order of groups with the same count is not documented; here they stay in the order of their keys. -/
def frameValueCounts [DecidableEq K] (G : Grouping K) (sort ascending : Bool) (keys : List K) : List (K × Nat) :=
  if sort then sortBy (countsBefore ascending) (countKeys G keys) else countKeys G keys

/-- the table of the counts: one column, called `c` -/
def Frame.ofCounts {δ : Type} (c : κ) (l : List (K × δ)) : Frame K κ δ :=
  { index := l.map (·.1), columns := [c], rows := l.map fun e => [e.2] }

/-- `normalize=True`: the share of each count in the sum of all -/
def normalizedCounts (l : List (K × Nat)) : List (K × Rat) := l.map fun e => (e.1, (e.2 : Rat) / ((l.map (·.2)).sum : Nat))
