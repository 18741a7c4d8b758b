import Verif.Model.XGBoost
/-
Specification vocabulary: what a training set is.
-/

variable {ι κ α A : Type}

/-- the row partitions of the data of `d` -/
def DMat.xs (d : DMat ι κ α A) : List (Frame ι κ α) := d.data.map (·.2)

/-- `d` was made of the data `x` and the labels `y`: its row partitions are divisions of `x` and of `y`, at the same places. -/
structure DMat.Of [DecidableEq κ] (d : DMat ι κ α A) (x y : Frame ι κ α) : Prop where
  data : (∀ f ∈ d.xs, f.WF) ∧ Frame.vcat d.xs = some x
  label : ∃ l, d.label = some l ∧ (∀ f ∈ l, f.WF) ∧ Frame.vcat l = some y ∧ l.map (·.nrows) = d.xs.map (·.nrows)

/-- the training set of data `x` and labels `y`: every row with its label -/
def trainingSet (x y : Frame ι κ α) : List (List α × List α) := x.rows.zip y.rows
