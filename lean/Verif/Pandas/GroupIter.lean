import Verif.Pandas.GroupBy
/-
Specification vocabulary: going through the groups of a frame.
-/

variable {ι κ α K : Type}

/-- the rows with the key `k`, top to bottom, with their labels -/
def Frame.groupOf [DecidableEq K] (keys : List K) (f : Frame ι κ α) (k : K) : Frame ι κ α :=
  ⟨cellsAt k keys f.index, f.columns, cellsAt k keys f.rows⟩

/-- `for k, g in df.groupby(keys)`: the groups and their frames, in the order of the groups -/
def Frame.groupPairs [DecidableEq K] (G : Grouping K) (keys : List K) (f : Frame ι κ α) : List (K × Frame ι κ α) :=
  (G.groups keys).map fun k => (k, f.groupOf keys k)

/-- `df.groupby(keys).groups`: the groups with the labels of their rows -/
def Frame.groupLabels [DecidableEq K] (G : Grouping K) (keys : List K) (f : Frame ι κ α) : List (K × List ι) :=
  (G.groups keys).map fun k => (k, cellsAt k keys f.index)
