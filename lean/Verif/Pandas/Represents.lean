import Verif.Pandas.Cut
/-
Specification vocabulary: when a partitioned frame stands for a pandas frame.
-/

variable {ι κ α : Type}

/-- `m` stands for the pandas frame `df`: its blocks are some division of `df` (at least one band
    each way, empty bands allowed), and each piece of cached metadata is either absent or right. -/
structure MFrame.Represents (m : MFrame ι κ α) (df : Frame ι κ α) : Prop where
  wf : df.WF
  blocks : ∃ rl cw, df.IsCut rl cw ∧ m.parts = df.cut rl cw ∧
    (m.rowLens = none ∨ m.rowLens = some rl) ∧ (m.colWidths = none ∨ m.colWidths = some cw)
  index : m.index = none ∨ m.index = some df.index
  columns : m.columns = none ∨ m.columns = some df.columns

/-- `m` stands for `df`, which may also be a frame without rows held without any blocks: then only
    its labels are kept (and any recorded column widths agree with them). -/
def MFrame.StandsFor (m : MFrame ι κ α) (df : Frame ι κ α) : Prop :=
  m.Represents df ∨
  (m.parts = [] ∧ df.WF ∧ df.index = [] ∧ m.getIndex = [] ∧ m.getColumns = df.columns ∧
    validAxis m.colWidths m.columns = true)
