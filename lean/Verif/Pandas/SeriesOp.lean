import Verif.Pandas.Align
/-
Specification vocabulary: a binary operation of a frame with a Series.
-/

variable {ι κ α β γ : Type}

/-- `df.op(s, axis=0)`, the labels being equal: row `i` with value `i` of the Series. -/
def Frame.opRows (f : α → β → γ) (df : Frame ι κ α) (vs : List β) : Frame ι κ γ :=
  { index := df.index, columns := df.columns, rows := List.zipWith (fun row v => row.map fun c => f c v) df.rows vs }

/-- `df.op(s, axis=1)`, the labels being equal: column `j` with value `j` of the Series. -/
def Frame.opCols (f : α → β → γ) (df : Frame ι κ α) (vs : List β) : Frame ι κ γ :=
  { index := df.index, columns := df.columns, rows := df.rows.map fun row => List.zipWith f row vs }

/-- Which labels an outer join of the labels `l` and `r` has: `l` if they are the same, else those of pandas' join `joinAll`
    (`joinRepeats` when labels repeat). -/
structure IsJoined (joinAll joinRepeats : List ι → List ι → List ι) (l r J : List ι) : Prop where
  same : l = r → J = l
  unique : l ≠ r → l.Nodup → r.Nodup → J = joinAll l r
  repeats : l ≠ r → ¬ (l.Nodup ∧ r.Nodup) → J = joinRepeats l r
