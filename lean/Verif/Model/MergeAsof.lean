import Verif.Pandas.MergeAsof
/-
`merge_asof`.
Models modin/core/storage_formats/base/query_compiler.py:1713-1828, the steps after the arguments are checked
(modin/pandas/general.py:191-221).  `reindex`, `drop`, `merge` by the row labels and `insert` of the query compiler are taken as pandas'
(C56, C34, C20, C42 are about them); `left_by` and `right_by` are single labels (lists are handed to pandas).
-/

variable {ι κ α : Type}

/-- query_compiler.py:1803, 1805 `drop(columns=[c])`: every column with the label; `KeyError` if there is none -/
def Frame.dropLabel [DecidableEq κ] (c : κ) (df : Frame ι κ α) : Option (Frame ι κ α) :=
  if c ∈ df.columns then some (df.whereColumns fun x => decide (x ≠ c)) else none

/-- query_compiler.py:1809-1815 `self.merge(right_subset, left_index=True, right_index=True, how="left")`: for each row of the left frame
    all rows with its label.  (Some versions of pandas pair equal row labels that are sorted one by one, even if they repeat; not
    modelled.) -/
def Frame.mergeOnIndex [DecidableEq ι] [DecidableEq κ] (nan : α) (o : AsofOn κ) (left right : Frame ι κ α) : Frame ι κ α :=
  let pairs := (left.index.zip left.rows).flatMap fun x =>
    let found := (right.index.zip right.rows).filter (·.1 == x.1)
    if found.isEmpty then [(x.1, x.2 ++ List.replicate right.ncols nan)] else found.map fun y => (x.1, x.2 ++ y.2)
  { index := pairs.map (·.1), columns := o.joinLabels left.columns right.columns, rows := pairs.map (·.2) }

/-- query_compiler.py:1799-1806 the rows of the right frame, one for each row of the left: `reindex` by the labels `pandas.merge_asof` has
    found (`na`: the missing label), `drop` of the key columns, and the labels of the left frame -/
def AsofOn.rightSubset [DecidableEq ι] [DecidableEq κ] (nan : α) (na : ι) (o : AsofOn κ) (left right : Frame ι κ α)
    (ps : List (Option Nat)) : Option (Frame ι κ α) :=
  (right.reindexIndex nan (ps.map fun p => (p.bind (right.index[·]?)).getD na)).bind fun sub =>
  (match o.rightOn with
    | some c => sub.dropLabel c
    | none => some sub).bind fun sub : Frame ι κ α =>
  (match o.rightBy with
    | some c => if o.leftBy = some c then sub.dropLabel c else some sub
    | none => some sub).map fun sub : Frame ι κ α => Frame.mk left.index sub.columns sub.rows

/-- query_compiler.py:1713-1828 `merge_asof` -/
def Frame.modinMergeAsof [DecidableEq ι] [DecidableEq κ] (nan : α) (na : ι) (num : Nat → ι) (value : ι → α) (pick : AsofPick α) (o : AsofOn κ)
    (left right : Frame ι κ α) : Option (Frame ι κ α) :=
  -- 1729-1758
  if (o.leftOn = none ∧ o.rightOn.isSome = true) ∨ ¬ right.index.Nodup then left.mergeAsof nan num value pick o right
  else
    -- 1760-1794
    (o.matches value pick left right).bind fun ps =>
    (o.rightSubset nan na left right ps).bind fun sub =>
    let result := left.mergeOnIndex nan o sub
    -- 1818-1824
    (match o.leftOn, o.rightOn with
      | some a, none =>
        if o.addLeft a ∈ result.columns then
          (result.cellsNamed (o.addLeft a)).map fun cells => result.putColumn (result.columns.idxOf (o.addLeft a)) a cells
        else none
      | _, _ => some result).map fun result : Frame ι κ α =>
    -- 1825-1826
    if o.leftOn.isSome && o.rightOn.isSome then Frame.mk ((List.range result.nrows).map num) result.columns result.rows else result
