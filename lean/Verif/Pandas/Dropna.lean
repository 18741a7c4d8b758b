import Verif.Pandas.Take
/-
Specification vocabulary: `df.dropna(axis=..., how=... | thresh=..., subset=..., ignore_index=...)`.
`isna` says which cells are missing values.
-/

variable {ι κ α : Type}

/-- The `how` parameter. -/
inductive NaHow where
  | any
  | all
deriving DecidableEq, Repr

/-- What decides whether a row or a column is dropped: `how`, or `thresh`. -/
inductive NaRule where
  | how (h : NaHow)
  | thresh (n : Nat)
deriving DecidableEq, Repr

/-- Whether a row (column) with these cells is kept: `how="any"`: no cell is missing; `how="all"`: some cell is not
    missing; `thresh=n`: at least `n` cells are not missing. -/
def NaRule.keeps (isna : α → Bool) (rule : NaRule) (cells : List α) : Bool :=
  match rule with
  | .how .any => cells.all fun x => !isna x
  | .how .all => cells.any fun x => !isna x
  | .thresh n => decide (n ≤ cells.countP fun x => !isna x)

/-- The entries of `l` where `mask` says true. -/
def keepWhere {τ : Type} (mask : List Bool) (l : List τ) : List τ := ((mask.zip l).filter (·.1)).map (·.2)

/-- `df[mask]` -/
def Frame.pickRows (mask : List Bool) (df : Frame ι κ α) : Frame ι κ α :=
  { index := keepWhere mask df.index, columns := df.columns, rows := keepWhere mask df.rows }

/-- `df.loc[:, mask]` -/
def Frame.pickCols (mask : List Bool) (df : Frame ι κ α) : Frame ι κ α :=
  { index := df.index, columns := keepWhere mask df.columns, rows := df.rows.map (keepWhere mask) }

/-- The positions looked at: all of them, or those of the listed labels (every place of each, in the order listed). -/
def subsetPositions {τ : Type} [DecidableEq τ] (labels : List τ) (subset : Option (List τ)) : List Nat :=
  match subset with
  | none => List.range labels.length
  | some l => l.flatMap fun x => (List.range labels.length).filter fun p => labels[p]? == some x

/-- The cells of column `j` of some rows. -/
def columnCells {τ : Type} (rows : List (List τ)) (j : Nat) : List τ := rows.filterMap (·[j]?)

/-- every listed label is there -/
def subsetOk {τ : Type} (labels : List τ) (subset : Option (List τ)) : Prop := ∀ l, subset = some l → ∀ x ∈ l, x ∈ labels

instance {τ : Type} [DecidableEq τ] (labels : List τ) (subset : Option (List τ)) : Decidable (subsetOk labels subset) :=
  match subset with
  | none => isTrue (by intro l h; cases h)
  | some l => decidable_of_iff (∀ x ∈ l, x ∈ labels)
      ⟨fun h l' e => by cases e; exact h, fun h => h l rfl⟩

/-- `df.dropna(axis=0, how | thresh, subset=column labels)`; `none`: `KeyError`, a listed column is not there -/
def Frame.dropnaRows [DecidableEq κ] (isna : α → Bool) (rule : NaRule) (subset : Option (List κ)) (df : Frame ι κ α) :
    Option (Frame ι κ α) :=
  if subsetOk df.columns subset then
    some (df.pickRows (df.rows.map fun r => rule.keeps isna (takeList r (subsetPositions df.columns subset))))
  else none

/-- `df.dropna(axis=1, how | thresh, subset=row labels)` -/
def Frame.dropnaCols [DecidableEq ι] (isna : α → Bool) (rule : NaRule) (subset : Option (List ι)) (df : Frame ι κ α) :
    Option (Frame ι κ α) :=
  if subsetOk df.index subset then
    some (df.pickCols ((List.range df.ncols).map fun j =>
      rule.keeps isna (takeList (columnCells df.rows j) (subsetPositions df.index subset))))
  else none

/-- `ignore_index=True`: the rows are numbered anew, `num i` is the label `i` -/
def Frame.ignoreIndex (num : Nat → ι) (ignore : Bool) (df : Frame ι κ α) : Frame ι κ α :=
  if ignore then { df with index := (List.range df.index.length).map num } else df
