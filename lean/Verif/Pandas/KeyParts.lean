import Verif.Pandas.SortValues
import Verif.Pandas.GroupBy
/-
Specification vocabulary: a frame divided by key, and operations that look at the rows of each key
separately.
-/

variable {ι κ α β τ K : Type}

/-- The frames `bins` hold the rows of `df`, each row exactly once; the rows of one key are all in one
    of them, in their original order. -/
structure KeyParts [DecidableEq K] (key : ι × List α → K) (df : Frame ι κ α) (bins : List (Frame ι κ α)) : Prop where
  frames : ∀ b ∈ bins, b.WF ∧ b.columns = df.columns
  rows : (bins.map Frame.records).flatten.Perm df.records
  together : ∀ k, ∃ i, i < bins.length ∧ ∀ j b, bins[j]? = some b →
    b.records.filter (fun r => key r == k) = if j = i then df.records.filter (fun r => key r == k) else []

/-- the `keep` argument of `drop_duplicates` -/
inductive Keep where
  | first | last | none
deriving DecidableEq, Repr

/-- `drop_duplicates(keep=...)`: of the rows with the same key only the first, only the last, or none
    unless it is the only one. -/
def dropDuplicates [DecidableEq K] (keep : Keep) (key : τ → K) : List τ → List τ
  | [] => []
  | x :: xs =>
    match keep with
    | .first => x :: (dropDuplicates keep key xs).filter (fun y => key y ≠ key x)
    | .last => if xs.any (fun y => key y = key x) then dropDuplicates keep key xs else x :: dropDuplicates keep key xs
    | .none =>
      if xs.any (fun y => key y = key x) then (dropDuplicates keep key xs).filter (fun y => key y ≠ key x)
      else x :: dropDuplicates keep key xs

/-- One result per group, labelled by the group's key, computed from the rows of the group top to bottom
    (`groupby(key).apply(agg)`, `groupby(key).agg(agg)`). -/
def groupRecords [DecidableEq K] (G : Grouping K) (key : τ → K) (agg : K → List τ → β) (l : List τ) : List (K × β) :=
  (G.groups (l.map key)).map fun k => (k, agg k (l.filter fun r => key r == k))

/-- `Series.nunique(dropna=...)` -/
def Pandas.nunique [DecidableEq α] (isna : α → Bool) (dropna : Bool) (c : List α) : Nat :=
  (firsts (c.filter fun a => !(dropna && isna a))).length
