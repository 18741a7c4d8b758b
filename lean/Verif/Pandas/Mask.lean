import Verif.Pandas.Dropna
/-
Specification vocabulary: `df[mask]`, where `mask` is a boolean Series with labels of its own, or a plain array of booleans.
-/

variable {ι κ α : Type}

/-- The mask's value for every row of a frame with row labels `index`: by position if the labels are the same, otherwise by
    label.  `none`: some row has no value (pandas raises `IndexingError`).  For labels that differ the mask's must not repeat. -/
def maskFor [DecidableEq ι] (labels : List ι) (vals : List Bool) (index : List ι) : Option (List Bool) :=
  if labels = index then some vals else index.mapM fun x => (labels.findIdx? (· == x)).bind (vals[·]?)

/-- `df[mask]`: the rows for which the mask says true, in the order of `df`. -/
def Frame.getMask [DecidableEq ι] (labels : List ι) (vals : List Bool) (df : Frame ι κ α) : Option (Frame ι κ α) :=
  (maskFor labels vals df.index).map fun vs => df.pickRows vs

/-- `df[array]`; `none`: `ValueError`, wrong length -/
def Frame.getArray (vals : List Bool) (df : Frame ι κ α) : Option (Frame ι κ α) :=
  if vals.length = df.index.length then some (df.pickRows vals) else none
