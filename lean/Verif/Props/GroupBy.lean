import Verif.Lemmas.GroupBy
/-
Properties C16 (group-by aggregations computed in two phases), C17 (`min_count`), C36 (grouped skew) and
C45 (grouping by another frame's column).
`m` stands for the pandas frame `df` and `by'` for the frame `bdf` of key columns; the result stands for
`df.groupByKeys`, pandas' grouping of the whole frame.  With `drop` the key columns were taken from `df` itself and
are not aggregated.
-/

variable {ι κ : Type} [DecidableEq ι] [DecidableEq κ]

/-- **C16 (which groups there are).** Each key occurring in the key column and not dropped makes exactly one
    group; sorted groups are in key order. -/
theorem C16_groups (sort dropna : Bool) (keys : List (List (Option Int))) :
    ((pandasGrouping sort dropna).groups keys).Nodup ∧
    (∀ k, k ∈ (pandasGrouping sort dropna).groups keys ↔ k ∈ keys ∧ ¬ (dropna = true ∧ none ∈ k)) ∧
    (sort = true → ((pandasGrouping sort dropna).groups keys).Pairwise fun a b => keyLe a b = true) := by
  refine ⟨Grouping.nodup_groups _ _, ?_, ?_⟩
  · intro k
    rw [Grouping.mem_groups]
    simp [pandasGrouping]
  · rintro rfl
    exact sortBy_pairwise keyLe_trans keyLe_total _

section C16
variable (cfg : Cfg) (hp : 1 ≤ cfg.nPartitions) (hr : 1 ≤ cfg.minRow) (sort dropna : Bool)
  {m by' : MFrame ι κ (Option Int)} {df bdf : Frame ι κ (Option Int)}
  (hm : m.Represents df) (hb : by'.Represents bdf) (hidx : bdf.index = df.index)
  (hlens : by'.getRowLens = m.getRowLens) (drop : Bool)
include hp hr hm hb hidx hlens

/-- **C16 (any two-phase aggregation).** If an aggregation of a group can be computed from its values on the
    pieces of the group (none of them empty), then the result is pandas' aggregation of every group of
    the whole frame, however the frame is divided. -/
theorem C16_groupby {β γ : Type} (op : TreeOp (Option Int) β γ) (h : List (Option Int) → γ)
    (hlaw : ∀ bs : List (List (Option Int)), bs ≠ [] → (∀ b ∈ bs, b ≠ []) → op.reduce (bs.map op.map) = h bs.flatten) :
    ∃ m', groupbyReduce cfg (pandasGrouping sort dropna) op.map op.reduce none drop m by' = some m' ∧
      m'.Represents ((if drop then df.withoutCols (fun c => bdf.columns.contains c) else df).groupByKeys
        (pandasGrouping sort dropna) bdf.rows h) :=
  groupbyReduce_spec cfg hp hr _ (pandasGrouping_ordered sort dropna) hm hb hidx hlens none drop op h hlaw

/-- **C16 (count).** -/
theorem C16_count :
    ∃ m', groupbyReduce cfg (pandasGrouping sort dropna) gbCount.map gbCount.reduce none drop m by' = some m' ∧
      m'.Represents ((if drop then df.withoutCols (fun c => bdf.columns.contains c) else df).groupByKeys
        (pandasGrouping sort dropna) bdf.rows fun c => some (Pandas.count c : Int)) :=
  C16_groupby cfg hp hr sort dropna hm hb hidx hlens drop gbCount _ (fun bs _ _ => countOp_law bs)

/-- **C16 (size).** -/
theorem C16_size :
    ∃ m', groupbyReduce cfg (pandasGrouping sort dropna) gbSize.map gbSize.reduce none drop m by' = some m' ∧
      m'.Represents ((if drop then df.withoutCols (fun c => bdf.columns.contains c) else df).groupByKeys
        (pandasGrouping sort dropna) bdf.rows fun c => some (c.length : Int)) :=
  C16_groupby cfg hp hr sort dropna hm hb hidx hlens drop gbSize _ (fun bs _ _ => gbSize_law bs)

/-- **C16 (any).** -/
theorem C16_any (skipna : Bool) :
    ∃ m', groupbyReduce cfg (pandasGrouping sort dropna) (gbAny skipna).map (gbAny skipna).reduce none drop m by' = some m' ∧
      m'.Represents ((if drop then df.withoutCols (fun c => bdf.columns.contains c) else df).groupByKeys
        (pandasGrouping sort dropna) bdf.rows (Pandas.any skipna)) :=
  C16_groupby cfg hp hr sort dropna hm hb hidx hlens drop (gbAny skipna) _ (fun bs _ _ => anyOp_law skipna bs)

/-- **C16 (all).** -/
theorem C16_all (skipna : Bool) :
    ∃ m', groupbyReduce cfg (pandasGrouping sort dropna) (gbAll skipna).map (gbAll skipna).reduce none drop m by' = some m' ∧
      m'.Represents ((if drop then df.withoutCols (fun c => bdf.columns.contains c) else df).groupByKeys
        (pandasGrouping sort dropna) bdf.rows (Pandas.all skipna)) :=
  C16_groupby cfg hp hr sort dropna hm hb hidx hlens drop (gbAll skipna) _ (fun bs _ _ => allOp_law skipna bs)

/-- **C16 (mean).** -/
theorem C16_mean :
    ∃ m', groupbyReduce cfg (pandasGrouping sort dropna) gbMean.map gbMean.reduce none drop m by' = some m' ∧
      m'.Represents ((if drop then df.withoutCols (fun c => bdf.columns.contains c) else df).groupByKeys
        (pandasGrouping sort dropna) bdf.rows (Pandas.mean true)) :=
  C16_groupby cfg hp hr sort dropna hm hb hidx hlens drop gbMean _ (fun bs _ _ => gbMean_law bs)

/-- **C36.** Grouped skewness, whatever the closing formula. -/
theorem C36_skew {ρ : Type} (formula : Rat → Rat → Rat → ρ) (zero : ρ) :
    ∃ m', groupbyReduce cfg (pandasGrouping sort dropna) (gbSkew formula zero).map (gbSkew formula zero).reduce
        none drop m by' = some m' ∧
      m'.Represents ((if drop then df.withoutCols (fun c => bdf.columns.contains c) else df).groupByKeys
        (pandasGrouping sort dropna) bdf.rows (Pandas.skew formula zero)) :=
  C16_groupby cfg hp hr sort dropna hm hb hidx hlens drop (gbSkew formula zero) _ (fun bs _ _ => gbSkew_law formula zero bs)

/-- **C16/C17 (sum).** The full claim of C17 has any `min_count`; it is false from 2 on (`C17_min_count_wrong`). -/
theorem C17_sum_partial (minCount : Nat) (hmc : minCount ≤ 1) :
    ∃ m', groupbyReduce cfg (pandasGrouping sort dropna) (gbSum minCount).map (gbSum minCount).reduce none drop m by' = some m' ∧
      m'.Represents ((if drop then df.withoutCols (fun c => bdf.columns.contains c) else df).groupByKeys
        (pandasGrouping sort dropna) bdf.rows (Pandas.sum true minCount)) := by
  refine C16_groupby cfg hp hr sort dropna hm hb hidx hlens drop (gbSum minCount) _ (fun bs _ _ => sumOp_law ?_ bs rfl)
  rcases Nat.le_one_iff_eq_zero_or_eq_one.1 hmc with rfl | rfl
  · exact Or.inl rfl
  · exact Or.inr ⟨rfl, Or.inl rfl⟩

/-- **C16/C17 (prod).** -/
theorem C17_prod_partial (minCount : Nat) (hmc : minCount ≤ 1) :
    ∃ m', groupbyReduce cfg (pandasGrouping sort dropna) (gbProd minCount).map (gbProd minCount).reduce none drop m by' = some m' ∧
      m'.Represents ((if drop then df.withoutCols (fun c => bdf.columns.contains c) else df).groupByKeys
        (pandasGrouping sort dropna) bdf.rows (Pandas.prod true minCount)) := by
  refine C16_groupby cfg hp hr sort dropna hm hb hidx hlens drop (gbProd minCount) _ (fun bs _ _ => prodOp_law ?_ bs rfl)
  rcases Nat.le_one_iff_eq_zero_or_eq_one.1 hmc with rfl | rfl
  · exact Or.inl rfl
  · exact Or.inr ⟨rfl, Or.inl rfl⟩

/-- **C16/C17 (min).** -/
theorem C17_min_partial (minCount : Nat) (hmc : minCount ≤ 1) :
    ∃ m', groupbyReduce cfg (pandasGrouping sort dropna) (gbMin minCount).map (gbMin minCount).reduce none drop m by' = some m' ∧
      m'.Represents ((if drop then df.withoutCols (fun c => bdf.columns.contains c) else df).groupByKeys
        (pandasGrouping sort dropna) bdf.rows (Pandas.minCounted minCount)) := by
  refine C16_groupby cfg hp hr sort dropna hm hb hidx hlens drop (gbMin minCount) _ (fun bs _ _ => ?_)
  unfold gbMin
  rw [minCounted_eq hmc]
  exact minOp_law (Or.inl rfl) bs rfl

/-- **C16/C17 (max).** -/
theorem C17_max_partial (minCount : Nat) (hmc : minCount ≤ 1) :
    ∃ m', groupbyReduce cfg (pandasGrouping sort dropna) (gbMax minCount).map (gbMax minCount).reduce none drop m by' = some m' ∧
      m'.Represents ((if drop then df.withoutCols (fun c => bdf.columns.contains c) else df).groupByKeys
        (pandasGrouping sort dropna) bdf.rows (Pandas.maxCounted minCount)) := by
  refine C16_groupby cfg hp hr sort dropna hm hb hidx hlens drop (gbMax minCount) _ (fun bs _ _ => ?_)
  unfold gbMax
  rw [maxCounted_eq hmc]
  exact maxOp_law (Or.inl rfl) bs rfl

end C16

/-- **C45.** Grouping by another frame's column gives pandas' grouping (keys found by row label) when that frame
    has the same row labels in the same order and the same division into row blocks.  The full claim has neither
    condition; without them it is false (`C45_other_division_wrong`, `C45_other_order_wrong`). -/
theorem C45_external_by_partial (cfg : Cfg) (hp : 1 ≤ cfg.nPartitions) (hr : 1 ≤ cfg.minRow) (sort dropna : Bool)
    {m by' : MFrame ι κ (Option Int)} {df bdf : Frame ι κ (Option Int)} (hm : m.Represents df)
    (hb : by'.Represents bdf) (hidx : bdf.index = df.index) (hlens : by'.getRowLens = m.getRowLens) :
    ∃ keys m', keysByLabel none df.index bdf = some keys ∧
      groupbyReduce cfg (pandasGrouping sort dropna) (gbSum 0).map (gbSum 0).reduce none false m by' = some m' ∧
      m'.Represents (df.groupByKeys (pandasGrouping sort dropna) keys (Pandas.sum true 0)) := by
  obtain ⟨m', h1, h2⟩ := C17_sum_partial cfg hp hr sort dropna hm hb hidx hlens false 0 (by decide)
  exact ⟨bdf.rows, m', by unfold keysByLabel; rw [if_pos hidx], h1, h2⟩

namespace C16Example

def df : Frame Nat String (Option Int) :=
  { index := [0, 1, 2, 3, 4], columns := ["k", "v"],
    rows := [[some 2, some 10], [some 1, none], [some 2, some 5], [none, some 7], [some 1, some 3]] }
/-- `df` in two row blocks of two column blocks each, with nothing cached -/
def m : MFrame Nat String (Option Int) := ⟨df.cut [2, 3] [1, 1], none, none, none, none⟩
/-- `df[["k"]]` with the same row blocks -/
def keyFrame : Frame Nat String (Option Int) :=
  { index := [0, 1, 2, 3, 4], columns := ["k"], rows := [[some 2], [some 1], [some 2], [none], [some 1]] }
def byK : MFrame Nat String (Option Int) := ⟨keyFrame.cut [2, 3] [1], none, none, none, none⟩

theorem hm : m.Represents df :=
  ⟨⟨by decide, by decide⟩, ⟨[2, 3], [1, 1], ⟨by decide, by decide, by decide, by decide⟩, rfl, Or.inl rfl, Or.inl rfl⟩,
    Or.inl rfl, Or.inl rfl⟩
theorem hb : byK.Represents keyFrame :=
  ⟨⟨by decide, by decide⟩, ⟨[2, 3], [1], ⟨by decide, by decide, by decide, by decide⟩, rfl, Or.inl rfl, Or.inl rfl⟩,
    Or.inl rfl, Or.inl rfl⟩

/-- the hypotheses hold; both groups lie in both blocks -/
example := C17_sum_partial ⟨2, 1, 1⟩ (by decide) (by decide) true true hm hb rfl (by decide) true 1 (by decide)
example := C17_prod_partial ⟨2, 1, 1⟩ (by decide) (by decide) true true hm hb rfl (by decide) true 1 (by decide)
example := C17_min_partial ⟨2, 1, 1⟩ (by decide) (by decide) true true hm hb rfl (by decide) true 1 (by decide)
example := C17_max_partial ⟨2, 1, 1⟩ (by decide) (by decide) true true hm hb rfl (by decide) true 1 (by decide)
example := C16_mean ⟨2, 1, 1⟩ (by decide) (by decide) false false hm hb rfl (by decide) true
example := C16_size ⟨2, 1, 1⟩ (by decide) (by decide) false false hm hb rfl (by decide) true
example := C36_skew ⟨2, 1, 1⟩ (by decide) (by decide) true false hm hb rfl (by decide) true (fun n a b => n + a + b) 0
example := C45_external_by_partial ⟨2, 1, 1⟩ (by decide) (by decide) true true hm hb rfl (by decide)

example : (df.withoutCols (fun c => keyFrame.columns.contains c)).groupByKeys (pandasGrouping true true) keyFrame.rows
      (Pandas.sum true 1)
    = { index := [[some 1], [some 2]], columns := ["v"], rows := [[some 3], [some 15]] } := by decide
example : (df.withoutCols (fun c => keyFrame.columns.contains c)).groupByKeys (pandasGrouping false false) keyFrame.rows
      (Pandas.sum true 1)
    = { index := [[some 2], [some 1], [none]], columns := ["v"], rows := [[some 15], [some 3], [some 7]] } := by decide

end C16Example

/-- **C17, where it fails.** `groupby("k").sum(min_count=2)`: a group with two values, one in each block, is reported
    as missing because each block alone has fewer than two. -/
theorem C17_min_count_wrong :
    ∃ (m by' : MFrame Nat String (Option Int)) (df bdf : Frame Nat String (Option Int)),
      m.Represents df ∧ by'.Represents bdf ∧ bdf.index = df.index ∧ by'.getRowLens = m.getRowLens ∧
      (groupbyReduce ⟨2, 1, 1⟩ (pandasGrouping true true) (gbSum 2).map (gbSum 2).reduce none true m by').bind (·.toPandas none)
        = some { index := [[some 1]], columns := ["v"], rows := [[none]] } ∧
      (df.withoutCols (fun c => bdf.columns.contains c)).groupByKeys (pandasGrouping true true) bdf.rows (Pandas.sum true 2)
        = { index := [[some 1]], columns := ["v"], rows := [[some 8]] } := by
  refine ⟨⟨[[⟨[0], ["k", "v"], [[some 1, some 5]]⟩], [⟨[1], ["k", "v"], [[some 1, some 3]]⟩]], none, none, none, none⟩,
    ⟨[[⟨[0], ["k"], [[some 1]]⟩], [⟨[1], ["k"], [[some 1]]⟩]], none, none, none, none⟩,
    ⟨[0, 1], ["k", "v"], [[some 1, some 5], [some 1, some 3]]⟩, ⟨[0, 1], ["k"], [[some 1], [some 1]]⟩,
    ⟨⟨by decide, by decide⟩, ⟨[1, 1], [2], ⟨by decide, by decide, by decide, by decide⟩, by decide, Or.inl rfl, Or.inl rfl⟩,
      Or.inl rfl, Or.inl rfl⟩,
    ⟨⟨by decide, by decide⟩, ⟨[1, 1], [1], ⟨by decide, by decide, by decide, by decide⟩, by decide, Or.inl rfl, Or.inl rfl⟩,
      Or.inl rfl, Or.inl rfl⟩, rfl, by decide, by decide, by decide⟩

/-- **C17, where it fails (max).** -/
theorem C17_max_count_wrong :
    ∃ (m by' : MFrame Nat String (Option Int)) (df bdf : Frame Nat String (Option Int)),
      m.Represents df ∧ by'.Represents bdf ∧ bdf.index = df.index ∧ by'.getRowLens = m.getRowLens ∧
      (groupbyReduce ⟨2, 1, 1⟩ (pandasGrouping true true) (gbMax 2).map (gbMax 2).reduce none true m by').bind (·.toPandas none)
        = some { index := [[some 1]], columns := ["v"], rows := [[none]] } ∧
      (df.withoutCols (fun c => bdf.columns.contains c)).groupByKeys (pandasGrouping true true) bdf.rows (Pandas.maxCounted 2)
        = { index := [[some 1]], columns := ["v"], rows := [[some 5]] } := by
  refine ⟨⟨[[⟨[0], ["k", "v"], [[some 1, some 5]]⟩], [⟨[1], ["k", "v"], [[some 1, some 3]]⟩]], none, none, none, none⟩,
    ⟨[[⟨[0], ["k"], [[some 1]]⟩], [⟨[1], ["k"], [[some 1]]⟩]], none, none, none, none⟩,
    ⟨[0, 1], ["k", "v"], [[some 1, some 5], [some 1, some 3]]⟩, ⟨[0, 1], ["k"], [[some 1], [some 1]]⟩,
    ⟨⟨by decide, by decide⟩, ⟨[1, 1], [2], ⟨by decide, by decide, by decide, by decide⟩, by decide, Or.inl rfl, Or.inl rfl⟩,
      Or.inl rfl, Or.inl rfl⟩,
    ⟨⟨by decide, by decide⟩, ⟨[1, 1], [1], ⟨by decide, by decide, by decide, by decide⟩, by decide, Or.inl rfl, Or.inl rfl⟩,
      Or.inl rfl, Or.inl rfl⟩, rfl, by decide, by decide, by decide⟩

/-- **C45, where it fails.** `df.groupby(s).sum()` where the series `s` has the same labels as `df`, in the same order, but is cut
    into blocks of other sizes: rows whose key lies in another block are left out. -/
theorem C45_other_division_wrong :
    ∃ (m by' : MFrame Nat String (Option Int)) (df bdf : Frame Nat String (Option Int)) (keys : List (List (Option Int))),
      m.Represents df ∧ by'.Represents bdf ∧ bdf.index = df.index ∧ keysByLabel none df.index bdf = some keys ∧
      (groupbyReduce ⟨2, 1, 1⟩ (pandasGrouping true true) (gbSum 0).map (gbSum 0).reduce none false m by').bind (·.toPandas none)
        = some { index := [[some 1]], columns := ["v"], rows := [[some 101]] } ∧
      df.groupByKeys (pandasGrouping true true) keys (Pandas.sum true 0)
        = { index := [[some 1]], columns := ["v"], rows := [[some 111]] } := by
  refine ⟨⟨[[⟨[0], ["v"], [[some 1]]⟩], [⟨[1, 2], ["v"], [[some 10], [some 100]]⟩]], none, none, none, none⟩,
    ⟨[[⟨[0, 1], ["s"], [[some 1], [some 1]]⟩], [⟨[2], ["s"], [[some 1]]⟩]], none, none, none, none⟩,
    ⟨[0, 1, 2], ["v"], [[some 1], [some 10], [some 100]]⟩, ⟨[0, 1, 2], ["s"], [[some 1], [some 1], [some 1]]⟩,
    [[some 1], [some 1], [some 1]],
    ⟨⟨by decide, by decide⟩, ⟨[1, 2], [1], ⟨by decide, by decide, by decide, by decide⟩, by decide, Or.inl rfl, Or.inl rfl⟩,
      Or.inl rfl, Or.inl rfl⟩,
    ⟨⟨by decide, by decide⟩, ⟨[2, 1], [1], ⟨by decide, by decide, by decide, by decide⟩, by decide, Or.inl rfl, Or.inl rfl⟩,
      Or.inl rfl, Or.inl rfl⟩, rfl, by decide, by decide, by decide⟩

/-- **C45, where it fails.** The same when `s` has its labels in another order: pandas finds each key by its label, modin only
    within the block at the same position. -/
theorem C45_other_order_wrong :
    ∃ (m by' : MFrame Nat String (Option Int)) (df bdf : Frame Nat String (Option Int)) (keys : List (List (Option Int))),
      m.Represents df ∧ by'.Represents bdf ∧ by'.getRowLens = m.getRowLens ∧ keysByLabel none df.index bdf = some keys ∧
      (groupbyReduce ⟨2, 1, 1⟩ (pandasGrouping true true) (gbSum 0).map (gbSum 0).reduce none false m by').bind (·.toPandas none)
        = some { index := [], columns := ["v"], rows := [] } ∧
      df.groupByKeys (pandasGrouping true true) keys (Pandas.sum true 0)
        = { index := [[some 7], [some 8]], columns := ["v"], rows := [[some 10], [some 1]] } := by
  refine ⟨⟨[[⟨[0], ["v"], [[some 1]]⟩], [⟨[1], ["v"], [[some 10]]⟩]], none, none, none, none⟩,
    ⟨[[⟨[1], ["s"], [[some 7]]⟩], [⟨[0], ["s"], [[some 8]]⟩]], none, none, none, none⟩,
    ⟨[0, 1], ["v"], [[some 1], [some 10]]⟩, ⟨[1, 0], ["s"], [[some 7], [some 8]]⟩,
    [[some 8], [some 7]],
    ⟨⟨by decide, by decide⟩, ⟨[1, 1], [1], ⟨by decide, by decide, by decide, by decide⟩, by decide, Or.inl rfl, Or.inl rfl⟩,
      Or.inl rfl, Or.inl rfl⟩,
    ⟨⟨by decide, by decide⟩, ⟨[1, 1], [1], ⟨by decide, by decide, by decide, by decide⟩, by decide, Or.inl rfl, Or.inl rfl⟩,
      Or.inl rfl, Or.inl rfl⟩, by decide, by decide, by decide, by decide⟩
