import Verif.Lemmas.Resample
/-
C83: `resample`.
-/

variable {ι κ α β : Type}

/-- **C83 (`resample`).**  For every frame with times as row labels, in any order and with repetitions, however cut and whatever
    labels are still to be written, every step, origin and closed or labelled side, and every aggregation of the cells of a bin:
    `resample` gives pandas' frame, a row for every bin from that of the first time to that of the last, with empty bins in place. -/
theorem C83_resample [DecidableEq κ] (cfg : Cfg) (hp : 1 ≤ cfg.nPartitions) (hmr : 1 ≤ cfg.minRow) (R : ResampleRule)
    (agg : List α → β) (nan : β) (m : LFrame Int κ α) (df : Frame Int κ α) (h : m.Shows df) :
    (m.resample cfg R agg).bind (·.toPandas nan) = some (df.resample R agg) := by
  obtain ⟨m', e1, e2⟩ := applyFullColumns_labels_shows cfg hp hmr h (resample_local R agg) (func := fun b => some (b.resample R agg))
    (fun _ _ => rfl)
  unfold LFrame.resample
  rw [e1, Option.bind_some, (e2.observed nan).1]

/-- **C83 (what `resample` means).**  The cells of a row of the result are those whose time is in the bin the row is labelled by, and
    every time is in one bin: the label is its left edge (or its right edge), `step` apart from the other. -/
theorem C83_bins (R : ResampleRule) (hs : 0 < R.step) (o b t : Int) :
    R.bin o t = b ↔ if R.closedRight then R.edge o b < t ∧ t ≤ R.edge o b + R.step else R.edge o b ≤ t ∧ t < R.edge o b + R.step := by
  unfold ResampleRule.bin ResampleRule.edge
  have key : ∀ x : Int, x / R.step = b ↔ b * R.step ≤ x ∧ x < (b + 1) * R.step := by
    intro x
    rw [← Int.le_ediv_iff_mul_le hs, ← Int.ediv_lt_iff_lt_mul hs]
    omega
  rw [Int.mul_comm R.step b]
  split
  · rw [key, Int.add_mul, Int.one_mul]
    omega
  · rw [key, Int.add_mul, Int.one_mul]
    omega

/-- **C83 (`resample` with range partitioning).**  With `RangePartitioning` the rows are split at edges of bins and each range is
    resampled for itself, with rows of missing cells at its bounds.  For every frame with at least one row, however cut and whatever
    labels are still to be written, every aggregation that ignores missing cells, a step of at least two, and origins that do not
    depend on the data by more than whole steps: the result is pandas' frame, except that rows of empty bins may be missing; rows of
    bins that hold a time are all there, once and in order, with the right cells.  Missing (hence `_partial`): the empty bins
    (`C83_range_loses_bins`); bins closed on the right if a time is on an edge (`C83_range_closed_right`); origins that depend on the
    data (`C83_range_origin`); aggregations that count missing cells (`C83_range_counts_fillers`). -/
theorem C83_resample_range_partial [DecidableEq κ] (cfg : Cfg) (hmr : 1 ≤ cfg.minRow) (hmc : 1 ≤ cfg.minCol) (over : Bool)
    (R : ResampleRule) (hs : 2 ≤ R.step) (agg : List α → β) (isna : α → Bool) (nan : α) (nanb : β) (hnan : isna nan = true)
    (hagg : ∀ l, agg (l.filter fun x => !isna x) = agg l) (hor : ∀ a b c d, R.step ∣ R.origin a b - R.origin c d)
    (m : LFrame Int κ α) (df : Frame Int κ α) (h : m.Shows df) (hne : df.index ≠ [])
    (hclear : R.closedRight = false ∨ ∀ t ∈ df.index, ∀ b, t ≠ R.edge (R.bins df.index).1 b) :
    ∃ keep : Int → Bool, (∀ t ∈ df.index, keep (R.bin (R.bins df.index).1 t) = true) ∧
      (m.resampleRange cfg over R agg nan).bind (·.toPandas nanb) =
        some (df.resampleBins R agg (R.bins df.index).1 ((R.bins df.index).2.filter keep)) := by
  obtain ⟨keep, hk, m', e1, e2⟩ := resampleRange_shows cfg hmr hmc over hs agg isna nan hnan hagg hor h hne (by
    intro t ht
    rcases hclear with hc | hc
    · exact Or.inl hc
    · exact Or.inr (hc t ht))
  exact ⟨keep, hk, by rw [e1, Option.bind_some, (e2.observed nanb).1]⟩

/-- **C83 (range partitioning, no gaps).**  The same, if every bin holds a time: the result is pandas' frame. -/
theorem C83_resample_range_gapless [DecidableEq κ] (cfg : Cfg) (hmr : 1 ≤ cfg.minRow) (hmc : 1 ≤ cfg.minCol) (over : Bool)
    (R : ResampleRule) (hs : 2 ≤ R.step) (agg : List α → β) (isna : α → Bool) (nan : α) (nanb : β) (hnan : isna nan = true)
    (hagg : ∀ l, agg (l.filter fun x => !isna x) = agg l) (hor : ∀ a b c d, R.step ∣ R.origin a b - R.origin c d)
    (m : LFrame Int κ α) (df : Frame Int κ α) (h : m.Shows df) (hne : df.index ≠ [])
    (hclear : R.closedRight = false ∨ ∀ t ∈ df.index, ∀ b, t ≠ R.edge (R.bins df.index).1 b)
    (hfull : ∀ b ∈ (R.bins df.index).2, ∃ t ∈ df.index, R.bin (R.bins df.index).1 t = b) :
    (m.resampleRange cfg over R agg nan).bind (·.toPandas nanb) = some (df.resample R agg) := by
  obtain ⟨keep, hk, e⟩ := C83_resample_range_partial cfg hmr hmc over R hs agg isna nan nanb hnan hagg hor m df h hne hclear
  rw [e, resampleBins_full R agg df keep hk hfull]

/-- **C83 (`on`).**  With the times in a column: pandas' frame, or its `KeyError`, if the frame has a single column partition.
    Missing (hence `_partial`): frames of several column partitions, which are refused (`C83_resample_on_blocks`). -/
theorem C83_resample_on_partial [DecidableEq ι] [DecidableEq κ] (cfg : Cfg) (hmr : 1 ≤ cfg.minRow) (R : ResampleRule)
    (agg : List α → β) (time : α → Int) (k : κ) (nan : β) (m : LFrame ι κ α) (df : Frame ι κ α) (h : m.Shows df)
    (hw : gridWidth m.parts ≤ 1) :
    (m.resampleOn cfg R agg time k).bind (·.toPandas nan) = df.resampleOn R agg time k := by
  unfold LFrame.resampleOn
  cases hf : df.resampleOn R agg time k with
  | none => rw [applyFullColumns_single_none cfg h hw (func := fun b => b.resampleOn R agg time k) hf]; rfl
  | some r =>
    have hwf : r.WF := by
      unfold Frame.resampleOn at hf
      obtain ⟨c, _, rfl⟩ := Option.map_eq_some_iff.1 hf
      apply ofCols_wf
      intro c hc
      obtain ⟨e, _, rfl⟩ := List.mem_map.1 hc
      simp
    obtain ⟨m', e1, e2⟩ := applyFullColumns_single cfg hmr h hw (func := fun b => b.resampleOn R agg time k) hf hwf none (by simp)
    rw [e1, Option.bind_some, (e2.observed nan).1]
    rfl

/-- **C83 (`on` with several column partitions).**  Every frame of two column partitions or more is refused, although pandas has an
    answer whenever the column is there: each column partition is asked for the column, and only one has it. -/
theorem C83_resample_on_blocks [DecidableEq ι] [DecidableEq κ] (cfg : Cfg) (R : ResampleRule) (agg : List α → β) (time : α → Int)
    (k : κ) (m : MFrame ι κ α) (df : Frame ι κ α) (h : m.Represents df) (hw : 2 ≤ gridWidth m.parts) (hk : df.columns.count k = 1) :
    (LFrame.mk m false false).resampleOn cfg R agg time k = none ∧ ∃ r, df.resampleOn R agg time k = some r := by
  constructor
  · obtain ⟨rl, cw, hc, hp, _, _⟩ := h.blocks
    rw [hp, gridWidth_cut hc.rl_ne] at hw
    obtain ⟨q, hq, hq'⟩ := label_absent hc hw (Nat.le_of_eq hk)
    exact applyFullColumns_raises cfg h hc hp hq (by
      show Option.map _ (keyColumn k (df.ilocCols q.1 q.2).named) = none
      rw [keyColumn_absent hq']; rfl) none none
  · unfold Frame.resampleOn keyColumn
    have : (df.named.filter fun p => decide (p.1 = k)).length = 1 := by
      rw [← hk, ← named_labels df, List.count_eq_countP, List.countP_map, List.countP_eq_length_filter]
      rfl
    obtain ⟨p, hp⟩ := List.length_eq_one_iff.1 this
    rw [hp]
    exact ⟨_, rfl⟩

/-- **C83 (`size`).**  The number of rows of every bin, if the frame has a single column partition.  Missing (hence `_partial`):
    frames of several column partitions (`C83_resample_size_blocks`). -/
theorem C83_resample_size_partial [DecidableEq κ] (cfg : Cfg) (hmr : 1 ≤ cfg.minRow) (R : ResampleRule) (zero label : κ)
    (m : LFrame Int κ α) (df : Frame Int κ α) (h : m.Shows df) (hw : gridWidth m.parts ≤ 1) :
    (m.resampleSize cfg R zero label).bind (·.toPandas 0) = some (df.resampleSize R label) := by
  obtain ⟨m', e1, e2⟩ := applyFullColumns_single cfg hmr h hw (func := fun b => some (b.resampleSize R zero))
    (r := df.resampleSize R zero) rfl ⟨by simp [Frame.resampleSize], by simp [Frame.resampleSize]⟩ (some [label]) (by
      intro c hc
      cases hc
      rfl)
  unfold LFrame.resampleSize
  rw [e1, Option.bind_some, (e2.observed 0).1]
  rfl

namespace ResampleDemo

/-- a step of four, from zero -/
def four : ResampleRule := ⟨4, fun _ _ => 0, false, false⟩

/-- the sum of the cells that are not missing -/
def total (l : List (Option Int)) : Int := (l.filterMap id).sum

def df : Frame Int Int (Option Int) := ⟨[9, 1, 6, 2, 13], [10, 20], [[some 1, some 2], [some 3, none], [some 5, some 6], [some 7, some 8], [none, some 9]]⟩

def m : LFrame Int Int (Option Int) := ⟨⟨df.cut [2, 3] [1, 1], none, none, none, none⟩, false, false⟩

theorem m_shows : m.Shows df :=
  represents_shows (m := ⟨df.cut [2, 3] [1, 1], none, none, none, none⟩)
    ⟨by constructor <;> decide, ⟨[2, 3], [1, 1], by constructor <;> decide, rfl, Or.inl rfl, Or.inl rfl⟩, Or.inl rfl, Or.inl rfl⟩

def cfg : Cfg := ⟨2, 2, 2⟩

/-- the hypotheses of `C83_resample` are met, and the frame has four bins -/
example : (m.resample cfg four total).bind (·.toPandas 0) = some ⟨[0, 4, 8, 12], [10, 20], [[10, 8], [5, 6], [1, 2], [0, 9]]⟩ := by
  rw [C83_resample cfg (by decide) (by decide) four total 0 m df m_shows]
  decide +kernel

theorem total_skips : ∀ l, total (l.filter fun x => !(x == none)) = total l := by
  intro l
  unfold total
  congr 1
  induction l with
  | nil => rfl
  | cons x l ih => cases x <;> simp_all

/-- the hypotheses of `C83_resample_range_gapless` are met -/
example : (m.resampleRange cfg false four total none).bind (·.toPandas 0) = some (df.resample four total) :=
  C83_resample_range_gapless cfg (by decide) (by decide) false four (by decide) total (· == none) none 0 rfl total_skips
    (origin_fixed four 0 rfl) m df m_shows (by decide) (Or.inl rfl) (by decide +kernel)

/-- times with a gap from 8 to 20 -/
def gap : Frame Int Int (Option Int) := ⟨[1, 2, 21, 22], [10], [[some 1], [some 2], [some 3], [some 4]]⟩

def gapM : LFrame Int Int (Option Int) := ⟨⟨gap.cut [1, 1, 2] [1], none, none, none, none⟩, false, false⟩

/-- **C83 (`range` loses empty bins).**  With range partitioning a range of bins without rows is lost: pandas has a row for every
    bin, modin has none for the bins 8 and 12. -/
theorem C83_range_loses_bins :
    (gapM.resampleRange ⟨3, 2, 2⟩ false four total none).bind (·.toPandas 0) = some ⟨[0, 4, 16, 20], [10], [[3], [0], [0], [7]]⟩ ∧
    gap.resample four total = ⟨[0, 4, 8, 12, 16, 20], [10], [[3], [0], [0], [0], [0], [7]]⟩ := by decide +kernel

/-- a step of four, closed on the right -/
def fourRight : ResampleRule := ⟨4, fun _ _ => 0, true, false⟩

def edge : Frame Int Int (Option Int) := ⟨[1, 4, 5, 8], [10], [[some 1], [some 2], [some 3], [some 4]]⟩

def edgeM : LFrame Int Int (Option Int) := ⟨⟨edge.cut [2, 2] [1], none, none, none, none⟩, false, false⟩

/-- **C83 (`range` and bins closed on the right).**  `ShuffleResample` takes `closed_on_right` and does not hand it on: a time on the
    edge where the rows are split goes to the later range, and its bin appears twice. -/
theorem C83_range_closed_right :
    (edgeM.resampleRange ⟨2, 2, 2⟩ false fourRight total none).bind (·.toPandas 0) = some ⟨[0, 0, 4], [10], [[1], [2], [7]]⟩ ∧
    edge.resample fourRight total = ⟨[0, 4], [10], [[3], [7]]⟩ := by decide +kernel

/-- a step of seven from the start of the day (of 24) of the first time: `origin="start_day"`, the default -/
def seven : ResampleRule := ⟨7, fun a _ => a / 24 * 24, false, false⟩

def days : Frame Int Int (Option Int) := ⟨[1, 8, 15, 22, 30, 36, 43, 50], [10], [[some 1], [some 2], [some 3], [some 4], [some 5], [some 6], [some 7], [some 8]]⟩

def daysM : LFrame Int Int (Option Int) := ⟨⟨days.cut [4, 4] [1], none, none, none, none⟩, false, false⟩

/-- **C83 (`range` and the origin).**  Each range counts its bins from the start of its own first day: with a step that does not
    divide the day the edges of a later range are others than pandas'. -/
theorem C83_range_origin :
    (daysM.resampleRange ⟨2, 2, 2⟩ false seven total none).bind (·.toPandas 0) ≠ some (days.resample seven total) := by decide +kernel

/-- how many cells there are, missing or not (`apply(len)`) -/
def count (l : List (Option Int)) : Int := l.length

/-- **C83 (`range` and the rows at the bounds).**  An aggregation that counts missing cells counts the rows put at the bounds. -/
theorem C83_range_counts_fillers :
    (m.resampleRange cfg false four count none).bind (·.toPandas 0) = some ⟨[0, 4, 8, 12], [10, 20], [[2, 2], [2, 2], [2, 2], [1, 1]]⟩ ∧
    df.resample four count = ⟨[0, 4, 8, 12], [10, 20], [[2, 2], [1, 1], [1, 1], [1, 1]]⟩ := by decide +kernel

/-- **C83 (`size` of several column partitions).**  Each column partition gives a column of counts, one label is given for all:
    the result has two columns of blocks for one label. -/
theorem C83_resample_size_blocks :
    (m.resampleSize cfg four 0 7).bind (·.toPandas 0) ≠ some (df.resampleSize four 7) := by decide +kernel

def one : LFrame Int Int (Option Int) := ⟨⟨df.cut [2, 3] [2], none, none, none, none⟩, false, false⟩

theorem one_shows : one.Shows df :=
  represents_shows (m := ⟨df.cut [2, 3] [2], none, none, none, none⟩)
    ⟨by constructor <;> decide, ⟨[2, 3], [2], by constructor <;> decide, rfl, Or.inl rfl, Or.inl rfl⟩, Or.inl rfl, Or.inl rfl⟩

/-- the hypotheses of `C83_resample_on_partial` and `C83_resample_size_partial` are met -/
example : (one.resampleOn cfg four total (·.getD 0) 20).bind (·.toPandas 0) = df.resampleOn four total (·.getD 0) 20 ∧
    (one.resampleSize cfg four 0 7).bind (·.toPandas 0) = some ⟨[0, 4, 8, 12], [7], [[2], [1], [1], [1]]⟩ := by
  refine ⟨C83_resample_on_partial cfg (by decide) four total _ 20 0 one df one_shows (by decide), ?_⟩
  rw [C83_resample_size_partial cfg (by decide) four 0 7 one df one_shows (by decide)]
  decide +kernel

/-- the hypotheses of `C83_resample_on_blocks` are met -/
example : m.resampleOn cfg four total (·.getD 0) 20 = none :=
  (C83_resample_on_blocks cfg four total _ 20 ⟨df.cut [2, 3] [1, 1], none, none, none, none⟩ df
    ⟨by constructor <;> decide, ⟨[2, 3], [1, 1], by constructor <;> decide, rfl, Or.inl rfl, Or.inl rfl⟩, Or.inl rfl, Or.inl rfl⟩
    (by decide) (by decide)).1

end ResampleDemo
