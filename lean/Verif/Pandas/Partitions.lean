import Verif.Pandas.Cut
import Verif.Model.Partitions
/-
Specification vocabulary: the partitions `p` make up the frame `df`.
-/

variable {ι κ α : Type}

/-- Row partitions make up the frame they give one below the other, column partitions the one they give side by side; rows of
    blocks make up `df` if they are `df` cut into bands both ways. -/
def Parts.MakeUp [DecidableEq ι] [DecidableEq κ] (p : Parts ι κ α) (df : Frame ι κ α) : Prop :=
  match p with
  | .blocks g => df.WF ∧ ∃ rl cw, df.IsCut rl cw ∧ g = df.cut rl cw
  | .rows l => (∀ f ∈ l, f.WF) ∧ Frame.vcat l = some df
  | .cols l => (∀ f ∈ l, f.WF) ∧ Frame.hcat l = some df

/-- the heights of the rows of partitions -/
def Parts.heights : Parts ι κ α → List Nat
  | .blocks g => g.filterMap fun row => row.head?.map (·.nrows)
  | .rows l => l.map (·.nrows)
  | .cols l => (l.head?.map (·.nrows)).toList

/-- the widths of the columns of partitions -/
def Parts.widths : Parts ι κ α → List Nat
  | .blocks g => (g.head?.getD []).map (·.ncols)
  | .rows l => (l.head?.map (·.ncols)).toList
  | .cols l => l.map (·.ncols)

/-- is this what `axis` asks for? -/
def Parts.IsFor : Parts ι κ α → PartAxis → Prop
  | .blocks _, .none => True
  | .rows _, .rows => True
  | .cols _, .cols => True
  | _, _ => False
