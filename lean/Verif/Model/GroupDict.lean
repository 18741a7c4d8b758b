import Verif.Model.ValueCounts
import Verif.Model.Labels
import Verif.Pandas.GroupDict
/-
`df.groupby(by).agg({c: "f", ...})` with functions that are computed by map and reduce.
Models modin/core/storage_formats/pandas/query_compiler.py (`_groupby_dict_reduce`), modin/core/dataframe/algebra/groupby.py
(`GroupByReduce` with dictionaries) and modin/core/dataframe/pandas/dataframe/dataframe.py (`groupby_reduce` with `apply_indices`).
Left out: the intermediate columns of a function that needs several (`mean`: the cells `β` hold all of them), the empty frame and
groupers (pandas), `axis=1`, `as_index=False`, by-data given as a level or label of the index.
-/

variable {ι κ α K β γ : Type}

/-- modin/core/dataframe/algebra/groupby.py:123-208 `GroupByReduce.map` with a dictionary: 453-490 `get_callable` keeps the entries
    whose column the block has, before by-data is put next to the block's columns.  660-663: without entries, no columns and no rows. -/
def dictMap {φ ℓ : Type} [DecidableEq ι] [DecidableEq κ] [DecidableEq α] (G : Grouping (List α)) (impl : φ → TreeOp α β γ) (na : α)
    (drop : Bool) (d : List (κ × List (ℓ × φ))) (b other : Frame ι κ α) : Option (Frame (List α) ℓ β) :=
  (blockKeys na drop b other).map fun keys =>
    if (d.filter fun e => b.columns.contains e.1) = [] then Frame.mk [] [] []
    else b.aggDict G keys (fun f => (impl f).map) (d.filter fun e => b.columns.contains e.1)

/-- modin/core/storage_formats/pandas/query_compiler.py:3929-3962: the dictionary of the second phase, from the labels of the results
    of the first -/
def reduceDict {φ ℓ : Type} (d : List (κ × List (ℓ × φ))) : List (ℓ × List (ℓ × φ)) :=
  d.flatMap fun e => e.2.map fun f => (f.1, [f])

/-- modin/core/dataframe/algebra/groupby.py:210-299 `GroupByReduce.reduce` with a dictionary and `as_index=True`: grouping on the row
    labels; 671-673: the columns in the dictionary's order -/
def dictReduce {φ ℓ : Type} [DecidableEq ℓ] [DecidableEq K] (G : Grouping K) (impl : φ → TreeOp α β γ) (d : List (κ × List (ℓ × φ)))
    (f : Frame K ℓ β) : Frame K ℓ γ :=
  f.aggDict G f.index (fun x => (impl x).reduce) ((reduceDict d).filter fun e => f.columns.contains e.1)

/-- modin/core/dataframe/pandas/partitioning/partition_manager.py:443-494 `base_broadcast_apply` with `axis=0`, results with labels of
    another type -/
def broadcastApplyTo {ℓ : Type} [DecidableEq ι] (F : Frame ι κ α → Frame ι κ α → Option (Frame K ℓ β)) (left right : Grid ι κ α) :
    Option (Grid K ℓ β) :=
  (left.zip right).mapM fun rows => (Frame.hcat rows.2).bind fun other => rows.1.mapM fun b => F b other

/-- modin/core/storage_formats/pandas/query_compiler.py:3876-3971 `_groupby_dict_reduce`,
    modin/core/dataframe/pandas/dataframe/dataframe.py:4568-4589 and
    modin/core/dataframe/pandas/partitioning/partition_manager.py:302-357 `groupby_reduce`: only the block columns that have a column
    of the dictionary are looked at. -/
def groupbyDict {φ ℓ : Type} [DecidableEq ι] [DecidableEq κ] [DecidableEq α] [DecidableEq ℓ] (cfg : Cfg) (G : Grouping (List α))
    (impl : φ → TreeOp α β γ) (na : α) (drop : Bool) (d : List (κ × List (ℓ × φ))) (m by' : MFrame ι κ α) :
    Option (MFrame (List α) ℓ γ) :=
  if m.getIndex = [] then none else
  (m.appliedBlocks (some (d.map (·.1)))).bind fun idx =>
  let m := if by'.parts.length ≠ m.parts.length then filterEmpties m else m
  (m.parts.mapM fun row => idx.mapM fun j => row[j]?).bind fun left =>
  if by'.parts.length ≠ left.length then none else
  (broadcastApplyTo (dictMap G impl na drop d) left by'.parts).bind fun g =>
  (mapAxisPartitions cfg true (fun f => some (dictReduce G impl d f)) g false (some (min left.length cfg.nPartitions)) none).bind
    fun parts =>
  MFrame.mk' { parts := parts, index := none, columns := none, rowLens := none, colWidths := none }

/-- `df.groupby([c, ...], sort=asked).agg(d)`: the keys are the frame's own columns (modin/pandas/dataframe.py `groupby`, `drop=True`);
    modin/core/dataframe/algebra/groupby.py:389-405: they are sorted whatever `sort` is.  `G`: the grouping for a value of `sort`. -/
def groupbyAggDict {φ ℓ : Type} [DecidableEq ι] [DecidableEq κ] [DecidableEq α] [DecidableEq ℓ] (cfg : Cfg)
    (known : Nat → Nat → Bool × Bool) (G : Bool → Grouping (List α)) (impl : φ → TreeOp α β γ) (na : α) (asked : Bool) (labels : List κ)
    (d : List (κ × List (ℓ × φ))) (m : MFrame ι κ α) : Option (MFrame (List α) ℓ γ) :=
  (takeLabels cfg known labels m).bind fun keys => groupbyDict cfg (G (groupSort asked)) impl na true d m keys

/-- modin/pandas/groupby.py:1104-1110 `reconstruct_func` (pandas): for every column the functions asked for, labelled with column and
    function; columns in the order of their first use -/
def namedDict {φ ℓ : Type} [DecidableEq κ] (pair : κ → φ → ℓ) (spec : List (ℓ × κ × φ)) : List (κ × List (ℓ × φ)) :=
  (firsts (spec.map (·.2.1))).map fun c => (c, (spec.filter fun s => decide (s.2.1 = c)).map fun s => (pair s.2.1 s.2.2, s.2.2))

/-- modin/pandas/groupby.py:1079-1230 `aggregate` with named arguments: the dictionary, then 1112-1149 `do_relabel`: the columns found by
    their labels `(column, function)`, taken in the order of the arguments and labelled by them. -/
def groupbyAggNamed {φ ℓ : Type} [DecidableEq ι] [DecidableEq κ] [DecidableEq α] [DecidableEq ℓ] (cfg : Cfg)
    (known : Nat → Nat → Bool × Bool) (G : Bool → Grouping (List α)) (impl : φ → TreeOp α β γ) (na : α) (asked : Bool) (labels : List κ)
    (pair : κ → φ → ℓ) (spec : List (ℓ × κ × φ)) (m : MFrame ι κ α) : Option (LFrame (List α) ℓ γ) :=
  (groupbyAggDict cfg known G impl na asked labels (namedDict pair spec) m).bind fun r =>
  (takeLabels cfg known (spec.map fun s => pair s.2.1 s.2.2) r).bind fun t =>
  LFrame.setColumns (spec.map (·.1)) { t with defIndex := false, defColumns := false }

/-- modin/core/storage_formats/pandas/groupby.py:231-242 `_groupby_reduce_impls`.  The cells of the first phase are pairs, for `mean`
    (191-229) sum and count, otherwise the second is not used. -/
def aggImpl : AggName → TreeOp (Option Int) (Option Int × Option Int) (Option Rat)
  | .sum => ⟨fun c => ((gbSum 0).map c, none), fun l => ((gbSum 0).reduce (l.map (·.1))).map fun (n : Int) => (n : Rat)⟩
  | .prod => ⟨fun c => ((gbProd 0).map c, none), fun l => ((gbProd 0).reduce (l.map (·.1))).map fun (n : Int) => (n : Rat)⟩
  | .min => ⟨fun c => (Pandas.min true c, none), fun l => (Pandas.min true (l.map (·.1))).map fun (n : Int) => (n : Rat)⟩
  | .max => ⟨fun c => (Pandas.max true c, none), fun l => (Pandas.max true (l.map (·.1))).map fun (n : Int) => (n : Rat)⟩
  | .count => ⟨fun c => (gbCount.map c, none), fun l => (gbCount.reduce (l.map (·.1))).map fun (n : Int) => (n : Rat)⟩
  | .size => ⟨fun c => (gbSize.map c, none), fun l => (gbSize.reduce (l.map (·.1))).map fun (n : Int) => (n : Rat)⟩
  | .mean => gbMean
