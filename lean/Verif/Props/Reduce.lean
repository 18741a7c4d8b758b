import Verif.Lemmas.Reduce
/-
Properties C14 (sums, products, counts, extrema and any/all computed through partial results),
C15 (mean) and C44 (reductions that look at a whole column or row at once).
In all of them `m` stands for the pandas frame `df` (`Represents`: any division into blocks, empty
bands allowed) and the result stands for pandas' answer.
-/

variable {ι κ α β : Type} [DecidableEq ι] [DecidableEq κ]

/-- A reduction done block by block and then over the block results gives, for every column of any
    frame and any division into blocks, the value of `h` on the whole column, as soon as that is true for
    every way of cutting one column. -/
theorem treeReduceOp_spec (cfg : Cfg) (hp : 1 ≤ cfg.nPartitions) (hr : 1 ≤ cfg.minRow)
    {m : MFrame ι κ α} {df : Frame ι κ α} (hm : m.Represents df) (hpos : 0 < df.ncols) {γ : Type} (op : TreeOp α β γ)
    (h : List α → γ)
    (hlaw : ∀ bs : List (List α), bs.map List.length = m.getRowLens → op.reduce (bs.map op.map) = h bs.flatten) :
    ∃ m', treeReduceOp cfg op.map op.reduce m = some m' ∧ m'.Represents (df.reduceColumns unnamed h) := by
  refine treeReduce0_spec cfg hp hr hm hpos [unnamed] (fun c => [op.map c]) (fun _ => rfl) (fun _ c => op.reduce c) h ?_
  intro bs hbs
  rw [← hlaw bs hbs]
  congr 1
  clear hbs
  induction bs with
  | nil => rfl
  | cons b bs ih => simp [ih]

theorem treeReduceOp1_spec (cfg : Cfg) (hp : 1 ≤ cfg.nPartitions) (hr : 1 ≤ cfg.minCol)
    {m : MFrame ι κ α} {df : Frame ι κ α} (hm : m.Represents df) (hpos : 0 < df.nrows) {γ : Type} (op : TreeOp α β γ)
    (h : List α → γ)
    (hlaw : ∀ bs : List (List α), bs.map List.length = m.getColWidths → op.reduce (bs.map op.map) = h bs.flatten) :
    ∃ m', treeReduceOp1 cfg op.map op.reduce m = some m' ∧ m'.Represents (df.reduceRows unnamed h) := by
  refine treeReduce1_spec cfg hp hr hm hpos [unnamed] (fun c => [op.map c]) (fun _ => rfl) (fun _ c => op.reduce c) h ?_
  intro bs hbs
  rw [← hlaw bs hbs]
  congr 1
  clear hbs
  induction bs with
  | nil => rfl
  | cons b bs ih => simp [ih]

/-! ### C44 -/

/-- **C44 (axis 0).** A reduction registered as full-axis (`median`, `var`, `nunique`, `idxmax`, `sum` with a large
    `min_count`, ...) is pandas' reduction `h` of each whole column, whatever `h` is and however the
    frame is divided. -/
theorem C44_full_axis_reduction (cfg : Cfg) (hp : 1 ≤ cfg.nPartitions) (hr : 1 ≤ cfg.minRow)
    {m : MFrame ι κ α} {df : Frame ι κ α} (hm : m.Represents df) (hpos : 0 < df.ncols) (h : List α → β) :
    ∃ m', fullReduce0 cfg h m = some m' ∧ m'.Represents (df.reduceColumns "__reduced__" h) :=
  fullReduce0_spec cfg hp hr hm hpos h

/-- **C44 (axis 1).** The same for rows. -/
theorem C44_full_axis_reduction_rows (cfg : Cfg) (hp : 1 ≤ cfg.nPartitions) (hr : 1 ≤ cfg.minCol)
    {m : MFrame ι κ α} {df : Frame ι κ α} (hm : m.Represents df) (hpos : 0 < df.nrows) (h : List α → β) :
    ∃ m', fullReduce1 cfg h m = some m' ∧ m'.Represents (df.reduceRows "__reduced__" h) :=
  fullReduce1_spec cfg hp hr hm hpos h

/-! ### C14 -/

section C14
variable (cfg : Cfg) (hp : 1 ≤ cfg.nPartitions) {m : MFrame ι κ (Option Int)} {df : Frame ι κ (Option Int)}
  (hm : m.Represents df)
include hp hm

/-- **C14 (count).** -/
theorem C14_count (hr : 1 ≤ cfg.minRow) (hpos : 0 < df.ncols) :
    ∃ m', treeReduceOp cfg countOp.map countOp.reduce m = some m' ∧
      m'.Represents (df.reduceColumns "__reduced__" fun c => some (Pandas.count c : Int)) :=
  treeReduceOp_spec cfg hp hr hm hpos countOp _ (fun bs _ => countOp_law bs)

theorem C14_count_rows (hr : 1 ≤ cfg.minCol) (hpos : 0 < df.nrows) :
    ∃ m', treeReduceOp1 cfg countOp.map countOp.reduce m = some m' ∧
      m'.Represents (df.reduceRows "__reduced__" fun c => some (Pandas.count c : Int)) :=
  treeReduceOp1_spec cfg hp hr hm hpos countOp _ (fun bs _ => countOp_law bs)

/-- **C14 (any).** -/
theorem C14_any (hr : 1 ≤ cfg.minRow) (hpos : 0 < df.ncols) (skipna : Bool) :
    ∃ m', treeReduceOp cfg (anyOp skipna).map (anyOp skipna).reduce m = some m' ∧
      m'.Represents (df.reduceColumns "__reduced__" (Pandas.any skipna)) :=
  treeReduceOp_spec cfg hp hr hm hpos (anyOp skipna) _ (fun bs _ => anyOp_law skipna bs)

theorem C14_any_rows (hr : 1 ≤ cfg.minCol) (hpos : 0 < df.nrows) (skipna : Bool) :
    ∃ m', treeReduceOp1 cfg (anyOp skipna).map (anyOp skipna).reduce m = some m' ∧
      m'.Represents (df.reduceRows "__reduced__" (Pandas.any skipna)) :=
  treeReduceOp1_spec cfg hp hr hm hpos (anyOp skipna) _ (fun bs _ => anyOp_law skipna bs)

/-- **C14 (all).** -/
theorem C14_all (hr : 1 ≤ cfg.minRow) (hpos : 0 < df.ncols) (skipna : Bool) :
    ∃ m', treeReduceOp cfg (allOp skipna).map (allOp skipna).reduce m = some m' ∧
      m'.Represents (df.reduceColumns "__reduced__" (Pandas.all skipna)) :=
  treeReduceOp_spec cfg hp hr hm hpos (allOp skipna) _ (fun bs _ => allOp_law skipna bs)

theorem C14_all_rows (hr : 1 ≤ cfg.minCol) (hpos : 0 < df.nrows) (skipna : Bool) :
    ∃ m', treeReduceOp1 cfg (allOp skipna).map (allOp skipna).reduce m = some m' ∧
      m'.Represents (df.reduceRows "__reduced__" (Pandas.all skipna)) :=
  treeReduceOp1_spec cfg hp hr hm hpos (allOp skipna) _ (fun bs _ => allOp_law skipna bs)

/-- **C14 (min).** The full claim has no condition on the blocks; it is false when missing values are not skipped
    and a row band is empty (`C14_min_empty_band_wrong`). -/
theorem C14_min_partial (hr : 1 ≤ cfg.minRow) (hpos : 0 < df.ncols) (skipna : Bool)
    (hs : skipna = true ∨ 0 ∉ m.getRowLens) :
    ∃ m', treeReduceOp cfg (minOp skipna).map (minOp skipna).reduce m = some m' ∧
      m'.Represents (df.reduceColumns "__reduced__" (Pandas.min skipna)) :=
  treeReduceOp_spec cfg hp hr hm hpos (minOp skipna) _ (fun bs h => minOp_law hs bs h)

theorem C14_min_rows_partial (hr : 1 ≤ cfg.minCol) (hpos : 0 < df.nrows) (skipna : Bool)
    (hs : skipna = true ∨ 0 ∉ m.getColWidths) :
    ∃ m', treeReduceOp1 cfg (minOp skipna).map (minOp skipna).reduce m = some m' ∧
      m'.Represents (df.reduceRows "__reduced__" (Pandas.min skipna)) :=
  treeReduceOp1_spec cfg hp hr hm hpos (minOp skipna) _ (fun bs h => minOp_law hs bs h)

/-- **C14 (max).** Same condition as `min`. -/
theorem C14_max_partial (hr : 1 ≤ cfg.minRow) (hpos : 0 < df.ncols) (skipna : Bool)
    (hs : skipna = true ∨ 0 ∉ m.getRowLens) :
    ∃ m', treeReduceOp cfg (maxOp skipna).map (maxOp skipna).reduce m = some m' ∧
      m'.Represents (df.reduceColumns "__reduced__" (Pandas.max skipna)) :=
  treeReduceOp_spec cfg hp hr hm hpos (maxOp skipna) _ (fun bs h => maxOp_law hs bs h)

theorem C14_max_rows_partial (hr : 1 ≤ cfg.minCol) (hpos : 0 < df.nrows) (skipna : Bool)
    (hs : skipna = true ∨ 0 ∉ m.getColWidths) :
    ∃ m', treeReduceOp1 cfg (maxOp skipna).map (maxOp skipna).reduce m = some m' ∧
      m'.Represents (df.reduceRows "__reduced__" (Pandas.max skipna)) :=
  treeReduceOp1_spec cfg hp hr hm hpos (maxOp skipna) _ (fun bs h => maxOp_law hs bs h)

omit [DecidableEq ι] [DecidableEq κ] hp in
/-- the answer of the shortcut for a `min_count` larger than the frame -/
theorem nanFrame_spec (hpos : 0 < df.ncols) (h : List (Option Int) → Option Int)
    (hn : ∀ c : List (Option Int), c.length = df.nrows → h c = none) :
    ∃ m', nanFrame m = some m' ∧ m'.Represents (df.reduceColumns "__reduced__" h) := by
  unfold nanFrame
  rw [hm.getColumns]
  have hR : (df.reduceColumns "__reduced__" h)
      = { index := [unnamed], columns := df.columns, rows := [df.columns.map fun _ => none] } := by
    unfold Frame.reduceColumns unnamed
    simp only [Frame.mk.injEq, true_and, List.cons.injEq, and_true]
    unfold Frame.cols
    apply List.ext_getElem
    · simp [Frame.ncols]
    · intro i h1 h2
      simp only [List.length_map, List.length_range] at h1
      simp only [List.getElem_map, List.getElem_range]
      exact hn _ (hm.wf.column_length h1)
  have hwf : (df.reduceColumns "__reduced__" h).WF := by
    rw [hR]
    exact ⟨rfl, by intro r hr; simp only [List.mem_singleton] at hr; subst hr; simp⟩
  apply represents_mk'
  refine ⟨hwf, ⟨[1], [df.columns.length], ⟨by simp, by simp, rfl, ?_⟩, ?_, Or.inr rfl, Or.inr rfl⟩, Or.inr rfl, Or.inr rfl⟩
  · simp [Frame.ncols, Frame.reduceColumns]
  · rw [hR]
    have h1 : sliceBounds [1] = [(0, 1)] := by rfl
    have h2 : sliceBounds [df.columns.length] = [(0, df.columns.length)] := by
      unfold sliceBounds
      simp [cumsumFrom, consecutive]
    unfold Frame.cut
    rw [h1, h2]
    simp [Frame.ilocRows, Frame.ilocCols, pySlice, List.take_of_length_le]

/-- **C14 (sum).** `df.sum(skipna, min_count)`, with its shortcut for a `min_count` larger than the frame, its
    full-axis path for `min_count > 1` and the path through block sums for the rest.  The full claim has
    no last hypothesis; without it the claim is false (`C14_sum_empty_band_wrong`). -/
theorem C14_sum_partial (hr : 1 ≤ cfg.minRow) (hpos : 0 < df.ncols) (skipna : Bool) (minCount : Nat)
    (hs : skipna = true ∨ minCount ≠ 1 ∨ 0 ∉ m.getRowLens) :
    ∃ m', frameSum cfg skipna minCount m = some m' ∧
      m'.Represents (df.reduceColumns "__reduced__" (Pandas.sum skipna minCount)) := by
  unfold frameSum
  rw [hm.getIndex]
  by_cases h1 : (skipna && decide (minCount > df.index.length)) = true
  · rw [if_pos h1]
    simp only [Bool.and_eq_true, decide_eq_true_eq] at h1
    apply nanFrame_spec hm hpos
    intro c hc
    have : (c.filterMap id).length ≤ c.length := List.length_filterMap_le _ _
    unfold Pandas.sum
    rw [h1.1, if_neg (by simp), if_pos]
    simp only [Frame.nrows] at hc
    omega
  · rw [if_neg h1]
    by_cases h2 : minCount > 1
    · rw [if_pos h2]
      exact fullReduce0_spec cfg hp hr hm hpos _
    · rw [if_neg h2]
      refine treeReduceOp_spec cfg hp hr hm hpos (sumOp skipna minCount) _ (fun bs h => sumOp_law ?_ bs h)
      unfold TreeSafe
      by_cases h0 : minCount = 0
      · exact Or.inl h0
      · right
        refine ⟨by omega, ?_⟩
        rcases hs with h | h | h
        · exact Or.inl h
        · omega
        · exact Or.inr h

/-- **C14 (product).** As for sums. -/
theorem C14_prod_partial (hr : 1 ≤ cfg.minRow) (hpos : 0 < df.ncols) (skipna : Bool) (minCount : Nat)
    (hs : skipna = true ∨ minCount ≠ 1 ∨ 0 ∉ m.getRowLens) :
    ∃ m', frameProd cfg skipna minCount m = some m' ∧
      m'.Represents (df.reduceColumns "__reduced__" (Pandas.prod skipna minCount)) := by
  unfold frameProd
  rw [hm.getIndex]
  by_cases h1 : (skipna && decide (minCount > df.index.length)) = true
  · rw [if_pos h1]
    simp only [Bool.and_eq_true, decide_eq_true_eq] at h1
    apply nanFrame_spec hm hpos
    intro c hc
    have : (c.filterMap id).length ≤ c.length := List.length_filterMap_le _ _
    unfold Pandas.prod
    rw [h1.1, if_neg (by simp), if_pos]
    simp only [Frame.nrows] at hc
    omega
  · rw [if_neg h1]
    by_cases h2 : minCount > 1
    · rw [if_pos h2]
      exact fullReduce0_spec cfg hp hr hm hpos _
    · rw [if_neg h2]
      refine treeReduceOp_spec cfg hp hr hm hpos (prodOp skipna minCount) _ (fun bs h => prodOp_law ?_ bs h)
      unfold TreeSafe
      by_cases h0 : minCount = 0
      · exact Or.inl h0
      · right
        refine ⟨by omega, ?_⟩
        rcases hs with h | h | h
        · exact Or.inl h
        · omega
        · exact Or.inr h

/-- **C14 (sum of each row).** The part of `df.sum(axis=1)` that goes through block sums. -/
theorem C14_sum_rows_partial (hr : 1 ≤ cfg.minCol) (hpos : 0 < df.nrows) (skipna : Bool) (minCount : Nat)
    (hc : minCount ≤ 1) (hs : skipna = true ∨ minCount = 0 ∨ 0 ∉ m.getColWidths) :
    ∃ m', treeReduceOp1 cfg (sumOp skipna minCount).map (sumOp skipna minCount).reduce m = some m' ∧
      m'.Represents (df.reduceRows "__reduced__" (Pandas.sum skipna minCount)) := by
  refine treeReduceOp1_spec cfg hp hr hm hpos (sumOp skipna minCount) _ (fun bs h => sumOp_law ?_ bs h)
  unfold TreeSafe
  by_cases h0 : minCount = 0
  · exact Or.inl h0
  · right
    refine ⟨by omega, ?_⟩
    rcases hs with h | h | h
    · exact Or.inl h
    · omega
    · exact Or.inr h

/-- **C14 (product of each row).** -/
theorem C14_prod_rows_partial (hr : 1 ≤ cfg.minCol) (hpos : 0 < df.nrows) (skipna : Bool) (minCount : Nat)
    (hc : minCount ≤ 1) (hs : skipna = true ∨ minCount = 0 ∨ 0 ∉ m.getColWidths) :
    ∃ m', treeReduceOp1 cfg (prodOp skipna minCount).map (prodOp skipna minCount).reduce m = some m' ∧
      m'.Represents (df.reduceRows "__reduced__" (Pandas.prod skipna minCount)) := by
  refine treeReduceOp1_spec cfg hp hr hm hpos (prodOp skipna minCount) _ (fun bs h => prodOp_law ?_ bs h)
  unfold TreeSafe
  by_cases h0 : minCount = 0
  · exact Or.inl h0
  · right
    refine ⟨by omega, ?_⟩
    rcases hs with h | h | h
    · exact Or.inl h
    · omega
    · exact Or.inr h

/-! ### C15 -/

/-- **C15 (axis 0).** The mean of every column, in exact arithmetic, whatever the blocks (empty ones
    included) and for both values of `skipna`. -/
theorem C15_mean (hr : 1 ≤ cfg.minRow) (hpos : 0 < df.ncols) (skipna : Bool) :
    ∃ m', frameMean0 cfg skipna m = some m' ∧ m'.Represents (df.reduceColumns "__reduced__" (Pandas.mean skipna)) :=
  treeReduce0_spec cfg hp hr hm hpos [MeanLabel.sum, .count] (meanMapCells skipna) (fun _ => rfl) meanReduceCells _
    (fun bs _ => mean_law skipna bs)

/-- **C15 (axis 1).** -/
theorem C15_mean_rows (hr : 1 ≤ cfg.minCol) (hpos : 0 < df.nrows) (skipna : Bool) :
    ∃ m', frameMean1 cfg skipna m = some m' ∧ m'.Represents (df.reduceRows "__reduced__" (Pandas.mean skipna)) :=
  treeReduce1_spec cfg hp hr hm hpos [MeanLabel.sum, .count] (meanMapCells skipna) (fun _ => rfl) meanReduceCells _
    (fun bs _ => mean_law skipna bs)

end C14

/-! ### examples and counterexamples -/

namespace C14Example

/-- three rows, two columns, one missing value -/
def df : Frame Nat String (Option Int) :=
  { index := [10, 20, 30], columns := ["a", "b"], rows := [[some 5, none], [some (-1), some 4], [some 2, some 7]] }

/-- the frame as blocks of 2, 0 and 1 rows (an empty band, as left by a filter) -/
def m : MFrame Nat String (Option Int) :=
  { parts := df.cut [2, 0, 1] [1, 1], index := none, columns := none, rowLens := none, colWidths := none }

theorem represents : m.Represents df :=
  ⟨⟨by decide, by decide⟩, ⟨[2, 0, 1], [1, 1], ⟨by decide, by decide, by decide, by decide⟩, rfl, Or.inl rfl, Or.inl rfl⟩,
    Or.inl rfl, Or.inl rfl⟩

def cfg : Cfg := ⟨2, 1, 1⟩

/-- the hypotheses of the C14, C15 and C44 theorems hold here, with an empty band -/
example : ∃ m', frameSum cfg true 1 m = some m' ∧ m'.Represents (df.reduceColumns "__reduced__" (Pandas.sum true 1)) :=
  C14_sum_partial cfg (by decide) represents (by decide) (by decide) true 1 (Or.inl rfl)

example : df.reduceColumns "__reduced__" (Pandas.sum true 1)
    = { index := ["__reduced__"], columns := ["a", "b"], rows := [[some 6, some 11]] } := by decide

example : df.reduceColumns "__reduced__" (Pandas.sum false 0)
    = { index := ["__reduced__"], columns := ["a", "b"], rows := [[some 6, none]] } := by decide

example : ∃ m', frameMean0 cfg true m = some m' ∧ m'.Represents (df.reduceColumns "__reduced__" (Pandas.mean true)) :=
  C15_mean cfg (by decide) represents (by decide) (by decide) true

example : Pandas.mean true [none, some 4, some 7] = some (11 / 2) := by simp [Pandas.mean]
example : Pandas.mean false [none, some 4, some 7] = none := by simp [Pandas.mean]

example : ∃ m', frameMean1 cfg true m = some m' ∧ m'.Represents (df.reduceRows "__reduced__" (Pandas.mean true)) :=
  C15_mean_rows cfg (by decide) represents (by decide) (by decide) true

example : ∃ m', fullReduce0 cfg List.length m = some m' ∧ m'.Represents (df.reduceColumns "__reduced__" List.length) :=
  C44_full_axis_reduction cfg (by decide) (by decide) represents (by decide) _

end C14Example

/-- **C14, where it fails.** `df.min(skipna=False)` on a frame with an empty row band (left, for instance, by
    dropping all rows of a partition): modin answers "missing" for a column without missing values. -/
theorem C14_min_empty_band_wrong :
    ∃ (m : MFrame Nat String (Option Int)) (df : Frame Nat String (Option Int)), m.Represents df ∧
      (treeReduceOp ⟨2, 1, 1⟩ (minOp false).map (minOp false).reduce m).bind (·.toPandas none)
        = some { index := ["__reduced__"], columns := ["a"], rows := [[none]] } ∧
      df.reduceColumns "__reduced__" (Pandas.min false)
        = { index := ["__reduced__"], columns := ["a"], rows := [[some 3]] } := by
  refine ⟨⟨[[⟨[0, 1], ["a"], [[some 5], [some 3]]⟩], [⟨[], ["a"], []⟩]], none, none, none, none⟩,
    ⟨[0, 1], ["a"], [[some 5], [some 3]]⟩,
    ⟨⟨by decide, by decide⟩, ⟨[2, 0], [1], ⟨by decide, by decide, by decide, by decide⟩, by decide, Or.inl rfl, Or.inl rfl⟩,
      Or.inl rfl, Or.inl rfl⟩, by decide, by decide⟩

/-- **C14, where it fails.** `df.sum(skipna=False, min_count=1)` on such a frame. -/
theorem C14_sum_empty_band_wrong :
    ∃ (m : MFrame Nat String (Option Int)) (df : Frame Nat String (Option Int)), m.Represents df ∧
      (frameSum ⟨2, 1, 1⟩ false 1 m).bind (·.toPandas none)
        = some { index := ["__reduced__"], columns := ["a"], rows := [[none]] } ∧
      df.reduceColumns "__reduced__" (Pandas.sum false 1)
        = { index := ["__reduced__"], columns := ["a"], rows := [[some 8]] } := by
  refine ⟨⟨[[⟨[0, 1], ["a"], [[some 5], [some 3]]⟩], [⟨[], ["a"], []⟩]], none, none, none, none⟩,
    ⟨[0, 1], ["a"], [[some 5], [some 3]]⟩,
    ⟨⟨by decide, by decide⟩, ⟨[2, 0], [1], ⟨by decide, by decide, by decide, by decide⟩, by decide, Or.inl rfl, Or.inl rfl⟩,
      Or.inl rfl, Or.inl rfl⟩, by decide, by decide⟩
