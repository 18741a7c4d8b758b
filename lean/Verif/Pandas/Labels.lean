import Verif.Pandas.Frame
/-
Specification vocabulary: `df.T`, `df.index = ...`, `df.columns = ...`, `df.fillna({column: value})`.
-/

variable {ι κ α : Type}

/-- `df.T`: rows and columns, and their labels, change places -/
def Frame.transpose (f : Frame ι κ α) : Frame κ ι α :=
  { index := f.columns, columns := f.index, rows := (List.range f.ncols).map fun j => f.rows.filterMap (·[j]?) }

/-- `df.set_axis(labels, axis=0)`, also `df.index = labels`: pandas raises (`none`) when the number of labels is wrong -/
def Frame.setIndex (labels : List ι) (f : Frame ι κ α) : Option (Frame ι κ α) :=
  if labels.length = f.index.length then some { f with index := labels } else none

/-- `df.set_axis(labels, axis=1)`, also `df.columns = labels` -/
def Frame.setColumns (labels : List κ) (f : Frame ι κ α) : Option (Frame ι κ α) :=
  if labels.length = f.columns.length then some { f with columns := labels } else none

/-- `df.fillna({column: value, ...})`: missing cells of the named columns are filled -/
def Frame.fillColumns [DecidableEq κ] [DecidableEq α] (nan : α) (values : List (κ × α)) (f : Frame ι κ α) : Frame ι κ α :=
  { f with rows := f.rows.map fun r => (f.columns.zip r).map fun p =>
      if p.2 = nan then ((values.find? (·.1 == p.1)).map (·.2)).getD nan else p.2 }
