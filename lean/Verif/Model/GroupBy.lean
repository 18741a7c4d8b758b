import Verif.Pandas.GroupBy
import Verif.Model.Reduce
/-
Group-by aggregations computed by a map and a reduce phase.
Models modin/core/dataframe/algebra/groupby.py (`GroupByReduce`),
modin/core/storage_formats/pandas/groupby.py (`GroupbyReduceImpl`),
modin/core/dataframe/pandas/partitioning/partition_manager.py (`base_broadcast_apply`,
`groupby_reduce`) and modin/core/dataframe/pandas/dataframe/dataframe.py (`groupby_reduce`).
Axis 0 and `as_index=True` only; the by-data is a frame (`by` is a query compiler).  Not modelled: the
pandas fallback for empty frames and for other kinds of `by`, dictionaries of aggregations, categorical
keys with unobserved categories, dtypes.
-/

variable {ι κ α β γ K : Type}

/-- modin/core/dataframe/pandas/partitioning/partition_manager.py:443-494 `base_broadcast_apply`,
    axis 0: every block of a row of `left` is given the whole row of `right` at the same position. -/
def broadcastApply0 [DecidableEq ι] (F : Frame ι κ α → Frame ι κ α → Option (Frame K κ β))
    (left : Grid ι κ α) (right : Grid ι κ α) : Option (Grid K κ β) :=
  (left.zip right).mapM fun rows => (Frame.hcat rows.2).bind fun other => rows.1.mapM fun b => F b other

/-- The keys of a block's rows: modin/core/dataframe/algebra/groupby.py:188-205.  By-data taken from the
    frame itself (`drop`) is put next to the block's columns (its labels are the same, anything
    else is treated as an error); other by-data is handed to pandas, which aligns it by label. -/
def blockKeys [DecidableEq ι] (na : α) (drop : Bool) (b : Frame ι κ α) (other : Frame ι κ α) :
    Option (List (List α)) :=
  if drop then (if other.index = b.index then some other.rows else none)
  else keysByLabel na b.index other

/-- The columns of a block that are aggregated: columns grouped on are left out. -/
def valueCols [DecidableEq κ] (drop : Bool) (byCols : List κ) (b : Frame ι κ α) : Frame ι κ α :=
  if drop then b.withoutCols (fun c => byCols.contains c) else b

/-- modin/core/dataframe/algebra/groupby.py:123-208 `GroupByReduce.map` for an aggregation giving one
    value per group and column. -/
def groupbyMap [DecidableEq ι] [DecidableEq κ] [DecidableEq α] (G : Grouping (List α)) (h : List α → β)
    (na : α) (drop : Bool) (b other : Frame ι κ α) : Option (Frame (List α) κ β) :=
  (blockKeys na drop b other).map fun keys => (valueCols drop other.columns b).groupByKeys G keys h

/-- modin/core/dataframe/algebra/groupby.py:210-307 `GroupByReduce.reduce`: group the stacked results
    of the blocks by all the levels of their index. -/
def groupbyRed [DecidableEq K] (G : Grouping K) (r : List β → γ) (f : Frame K κ β) : Frame K κ γ :=
  f.groupByKeys G f.index r

/-- modin/core/dataframe/pandas/dataframe/dataframe.py:4568-4589 and
    modin/core/dataframe/pandas/partitioning/partition_manager.py:302-357 `groupby_reduce` with
    by-data, `apply_indices=None`. -/
def groupbyReduce [DecidableEq ι] [DecidableEq κ] [DecidableEq α] (cfg : Cfg) (G : Grouping (List α))
    (h : List α → β) (r : List β → γ) (na : α) (drop : Bool) (m by' : MFrame ι κ α) :
    Option (MFrame (List α) κ γ) :=
  let m := if by'.parts.length ≠ m.parts.length then filterEmpties m else m
  if by'.parts.length ≠ m.parts.length then none
  else
    (broadcastApply0 (groupbyMap G h na drop) m.parts by'.parts).bind fun g =>
    (mapAxisPartitions cfg true (fun f => some (groupbyRed G r f)) g false
      (some (min m.parts.length cfg.nPartitions)) none).bind fun parts =>
    MFrame.mk' { parts := parts, index := none, columns := none, rowLens := none, colWidths := none }

/-! ### the registered aggregations: modin/core/storage_formats/pandas/groupby.py:25-264
    (`GroupbyReduceImpl`); pandas' aggregation of the values of one group is `Pandas.sum` etc. with
    missing values skipped. -/

/-- `sum(min_count=...)`, both phases -/
def gbSum (minCount : Nat) : TreeOp (Option Int) (Option Int) (Option Int) := sumOp true minCount
/-- `prod(min_count=...)`, both phases -/
def gbProd (minCount : Nat) : TreeOp (Option Int) (Option Int) (Option Int) := prodOp true minCount
/-- `min(min_count=...)` and `max(min_count=...)` of pandas: at least one value is needed whatever
    `min_count` is. -/
def Pandas.minCounted (minCount : Nat) (c : List (Option Int)) : Option Int :=
  if (c.filterMap id).length < minCount then none else Pandas.min true c
def Pandas.maxCounted (minCount : Nat) (c : List (Option Int)) : Option Int :=
  if (c.filterMap id).length < minCount then none else Pandas.max true c
/-- `min`, both phases -/
def gbMin (minCount : Nat) : TreeOp (Option Int) (Option Int) (Option Int) :=
  ⟨Pandas.minCounted minCount, Pandas.minCounted minCount⟩
/-- `max`, both phases -/
def gbMax (minCount : Nat) : TreeOp (Option Int) (Option Int) (Option Int) :=
  ⟨Pandas.maxCounted minCount, Pandas.maxCounted minCount⟩
/-- `any`, both phases -/
def gbAny (skipna : Bool) : TreeOp (Option Int) (Option Int) Bool := anyOp skipna
/-- `all`, both phases -/
def gbAll (skipna : Bool) : TreeOp (Option Int) (Option Int) Bool := allOp skipna
/-- `count`, combined with `sum` -/
def gbCount : TreeOp (Option Int) (Option Int) (Option Int) := countOp
/-- `size`, combined with `sum`.  Simplification: kept per column, modin computes it on the first column only
    (modin/core/storage_formats/pandas/query_compiler.py:3830-3866). -/
def gbSize : TreeOp (Option Int) (Option Int) (Option Int) :=
  ⟨fun c => some (c.length : Int), Pandas.sum true 0⟩
/-- `mean`: modin/core/storage_formats/pandas/groupby.py `_build_mean_impl`: sums and counts, summed and
    divided.  The two temporary columns a column gives are kept as one column of pairs. -/
def gbMean : TreeOp (Option Int) (Option Int × Option Int) (Option Rat) :=
  ⟨fun c => (Pandas.sum true 0 c, some (Pandas.count c : Int)),
   fun l => match Pandas.sum true 0 (l.map (·.1)), Pandas.sum true 0 (l.map (·.2)) with
     | some s, some n => if n = 0 then none else some ((s : Rat) / (n : Rat))
     | _, _ => none⟩

/-- number of values, sum, sum of squares, sum of cubes -/
structure SkewSums where
  count : Int
  s : Int
  s2 : Int
  s3 : Int
deriving DecidableEq, Repr

/-- sum of integers -/
def isumBy {τ : Type} (f : τ → Int) (l : List τ) : Int := (l.map f).sum

/-- `skew`: modin/core/storage_formats/pandas/groupby.py:115-182 `_build_skew_impl`.  `skew_map` (lines 126-143) gives
    the counts and power sums of a group in a block, `skew_reduce` (lines 145-175) adds them up and computes the
    central moments from them.  The four temporary columns a column gives are kept as one column of
    records; arithmetic is exact; the closing formula with its square roots is a parameter. -/
def gbSkew {ρ : Type} (formula : Rat → Rat → Rat → ρ) (zero : ρ) : TreeOp (Option Int) SkewSums (Option ρ) :=
  ⟨fun c => ⟨(c.filterMap id).length, (c.filterMap id).sum, isumBy (fun x => x * x) (c.filterMap id),
      isumBy (fun x => x * x * x) (c.filterMap id)⟩,
   fun l =>
     let count : Rat := (isumBy SkewSums.count l : Int)
     let s : Rat := (isumBy SkewSums.s l : Int)
     let s2 : Rat := (isumBy SkewSums.s2 l : Int)
     let s3 : Rat := (isumBy SkewSums.s3 l : Int)
     let m := s / count
     let m2 := s2 - 2 * m * s + count * (m * m)
     let m3 := s3 - 3 * m * s2 + 3 * s * (m * m) - count * (m * m * m)
     if count < 3 then none else if m2 = 0 then some zero else some (formula count m2 m3)⟩
