import Verif.Pandas.Columns
/-
Specification vocabulary: aligning frames on their labels, cell-by-cell operations and
concatenation of pandas frames.
-/

variable {ι κ α L : Type}

/-- Take cells by position; `none` gives the missing value. -/
def pick (nan : α) (I : List (Option Nat)) (c : List α) : List α :=
  I.map fun o => (o.bind (c[·]?)).getD nan

/-- `df._reindex_with_indexers({0: [J, I]})`: the rows at positions `I` (a missing position gives
    a row of missing values), labelled `J`. -/
def Frame.reindexRows (nan : α) (J : List ι) (I : List (Option Nat)) (f : Frame ι κ α) :
    Frame ι κ α :=
  f.mapColumns (fun _ => J) (pick nan I)

/-- `df._reindex_with_indexers({1: [J, I]})` -/
def Frame.reindexCols (nan : α) (J : List κ) (I : List (Option Nat)) (f : Frame ι κ α) :
    Frame ι κ α :=
  f.mapRows (fun _ => J) (pick nan I)

/-- `I` says where each label of `J` is found in `labels`: at a position carrying that label, or
    nowhere when the label does not occur.  If the labels are `J` already nothing moves. -/
structure IsIndexer (labels J : List L) (I : List (Option Nat)) : Prop where
  length : I.length = J.length
  found : ∀ (k p : Nat), I[k]? = some (some p) → p < labels.length ∧ labels[p]? = J[k]?
  missing : ∀ (k : Nat) (x : L), I[k]? = some none → J[k]? = some x → x ∉ labels
  same : labels = J → I = (List.range J.length).map some

/-- The cell in row `x`, column `y`. -/
def Frame.cell (f : Frame ι κ α) (x y : Nat) : Option α := f.rows[x]?.bind (·[y]?)

/-- A cell-by-cell operation on frames with the same labels: the result has those labels, and
    each cell is `f` of the first frame's cell and the other frames' cells at the same place. -/
def Frame.cellwise {β : Type} (f : α → List α → β) (A : Frame ι κ α) (Bs : List (Frame ι κ α)) :
    Frame ι κ β :=
  { index := A.index, columns := A.columns,
    rows := A.rows.mapIdx fun x row => row.mapIdx fun y v => f v (Bs.filterMap (·.cell x y)) }

/-- Frames one below the other, all with columns `J`. -/
def Frame.stackRows (J : List κ) (fs : List (Frame ι κ α)) : Frame ι κ α :=
  { index := (fs.map (·.index)).flatten, columns := J, rows := (fs.map (·.rows)).flatten }

/-- Frames side by side, all with rows `J`. -/
def Frame.stackCols (J : List ι) (fs : List (Frame ι κ α)) : Frame ι κ α :=
  { index := J, columns := (fs.map (·.columns)).flatten,
    rows := Frame.hrows J.length (fs.map (·.rows)) }
