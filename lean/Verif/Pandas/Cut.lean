import Verif.Model.Grid
/-
Specification vocabulary: an arbitrary division of a frame into a grid of blocks.
-/

variable {ι κ α : Type}

/-- The grid obtained by cutting `df` into consecutive row bands of heights `rl` and column
    bands of widths `cw` (zero heights and widths allowed).  Any well-formed partition grid
    of `df` has this form. -/
def Frame.cut (rl cw : List Nat) (df : Frame ι κ α) : Grid ι κ α :=
  (sliceBounds rl).map fun p => (sliceBounds cw).map fun q =>
    (df.ilocRows p.1 p.2).ilocCols q.1 q.2

/-- `rl`, `cw` is a division of `df`: at least one band each way, sizes adding up. -/
structure Frame.IsCut (rl cw : List Nat) (df : Frame ι κ α) : Prop where
  rl_ne : rl ≠ []
  cw_ne : cw ≠ []
  rl_sum : rl.sum = df.nrows
  cw_sum : cw.sum = df.ncols

/-- A frame function treats columns independently: applied to frames standing side by side it
    gives the results side by side. -/
def ColumnLocal {ι' κ' β : Type} [DecidableEq ι] [DecidableEq ι']
    (F : Frame ι κ α → Frame ι' κ' β) : Prop :=
  (∀ f, f.WF → (F f).WF) ∧
  ∀ fs f, (∀ x ∈ fs, x.WF) → Frame.hcat fs = some f → Frame.hcat (fs.map F) = some (F f)

/-- A frame function treats rows independently. -/
def RowLocal {ι' κ' β : Type} [DecidableEq κ] [DecidableEq κ']
    (F : Frame ι κ α → Frame ι' κ' β) : Prop :=
  (∀ f, f.WF → (F f).WF) ∧
  ∀ fs f, (∀ x ∈ fs, x.WF) → Frame.vcat fs = some f → Frame.vcat (fs.map F) = some (F f)
