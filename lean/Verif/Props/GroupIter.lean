import Verif.Lemmas.GroupIter
/-
C91: going through the groups of a frame, `groups`, `len`.
-/

variable {ι κ α K : Type}

/-- **C91 (what the groups are).**  Each key that occurs and is not dropped is given once; a sorted grouping gives the keys in their order;
    and a row (with its label) is in the frame of a key as often as it stands beside that key, in the order of the rows. -/
theorem C91_meaning [DecidableEq K] (G : Grouping K) (hG : G.Ordered) (keys : List K) (f : Frame ι κ α) :
    ((f.groupPairs G keys).map (·.1)).Nodup ∧
    (∀ k, k ∈ (f.groupPairs G keys).map (·.1) ↔ k ∈ keys ∧ G.dropped k = false) ∧
    (G.sort = true → ((f.groupPairs G keys).map (·.1)).Pairwise (G.le · ·)) ∧
    (∀ e ∈ f.groupPairs G keys, e.2.columns = f.columns ∧
      e.2.index = ((List.range keys.length).filter fun p => keys[p]? == some e.1).filterMap (f.index[·]?) ∧
      e.2.rows = ((List.range keys.length).filter fun p => keys[p]? == some e.1).filterMap (f.rows[·]?)) := by
  have hk : (f.groupPairs G keys).map (·.1) = G.groups keys := by
    unfold Frame.groupPairs
    rw [List.map_map]
    exact List.map_id' _
  rw [hk]
  refine ⟨groups_nodup G keys, ?_, ?_, ?_⟩
  · intro k
    rw [Grouping.mem_groups]
  · intro hs
    unfold Grouping.groups
    rw [if_pos hs]
    exact sortBy_pairwise hG.trans hG.total _
  · intro e he
    obtain ⟨k, _, rfl⟩ := List.mem_map.1 he
    exact ⟨rfl, (picked_cellsAt k keys f.index).symm, (picked_cellsAt k keys f.rows).symm⟩

/-- **C91 (own columns).**  `for k, g in df.groupby([c1, c2, ...])` for every frame, however cut, and different labels of it: pandas' groups in
    pandas' order, each with pandas' frame.  Missing (hence `_partial`): with `sort=False` the groups are pandas' too, but they stand sorted
    (`C91_unsorted`). -/
theorem C91_iter_own_partial [DecidableEq ι] [DecidableEq κ] [DecidableEq α] (cfg : Cfg) (hp : 1 ≤ cfg.nPartitions) (hmr : 1 ≤ cfg.minRow)
    (hmc : 1 ≤ cfg.minCol) (known : Nat → Nat → Bool × Bool) (nan : α) (G : Grouping (List α)) (hG : G.Ordered) (hs : G.sort = true)
    (sort : Bool) (m : MFrame ι κ α) (df : Frame ι κ α) (h : m.Represents df) (labels : List κ) (hl : ∀ k ∈ labels, k ∈ df.columns)
    (hn : labels.Nodup) :
    ∃ l, groupIter cfg known nan G.le G.dropped sort (.own labels) m = some l ∧
      l.map (·.1) = (df.groupPairs G (df.takeCols (labels.flatMap (positionsOf df.columns))).rows).map (·.1) ∧
      l.map (·.2.toPandas nan) = (df.groupPairs G (df.takeCols (labels.flatMap (positionsOf df.columns))).rows).map (some ·.2) := by
  obtain ⟨hk, hlen⟩ := ownKeys_rows cfg hp hmr hmc known nan h hl hn
  exact groupIter_pairs cfg hp hmr hmc known nan hG hs sort h hk hlen

/-- **C91 (one column).**  `for k, g in df.groupby(by)` for every frame and every column or series `by` with the same row labels, however
    both are cut.  Missing (hence `_partial`): `by` of a single row (`C91_one_row_raises`), other row labels (`C91_by_position`), the order
    with `sort=False` (`C91_unsorted`). -/
theorem C91_iter_one_partial [DecidableEq ι] [DecidableEq κ] [DecidableEq α] (cfg : Cfg) (hp : 1 ≤ cfg.nPartitions) (hmr : 1 ≤ cfg.minRow)
    (hmc : 1 ≤ cfg.minCol) (known : Nat → Nat → Bool × Bool) (nan : α) (G : Grouping (List α)) (hG : G.Ordered) (hs : G.sort = true)
    (sort : Bool) (m b : MFrame ι κ α) (df bdf : Frame ι κ α) (h : m.Represents df) (hb : b.Represents bdf) (hidx : bdf.index = df.index)
    (h1 : df.nrows ≠ 1) :
    ∃ l, groupIter cfg known nan G.le G.dropped sort (.one b) m = some l ∧
      l.map (·.1) = (df.groupPairs G bdf.rows).map (·.1) ∧ l.map (·.2.toPandas nan) = (df.groupPairs G bdf.rows).map (some ·.2) := by
  obtain ⟨hk, hlen⟩ := oneKeys_rows cfg known nan m hb hidx h1
  exact groupIter_pairs cfg hp hmr hmc known nan hG hs sort h hk hlen

/-- **C91 (`groups`, `len`).**  The keys with the labels of their rows, and their number, for the two kinds of keys above.  (`groups` is a
    dictionary: the order is not part of it.) -/
theorem C91_groups_own [DecidableEq ι] [DecidableEq κ] [DecidableEq α] (cfg : Cfg) (hp : 1 ≤ cfg.nPartitions) (hmr : 1 ≤ cfg.minRow)
    (hmc : 1 ≤ cfg.minCol) (known : Nat → Nat → Bool × Bool) (nan : α) (G : Grouping (List α)) (m : MFrame ι κ α) (df : Frame ι κ α)
    (h : m.Represents df) (labels : List κ) (hl : ∀ k ∈ labels, k ∈ df.columns) (hn : labels.Nodup) :
    (∃ l, groupLabelsOf cfg known nan G.le G.dropped (.own labels) m = some l ∧
      l.Perm (df.groupLabels G (df.takeCols (labels.flatMap (positionsOf df.columns))).rows)) ∧
    groupCountOf cfg known nan G.le G.dropped (.own labels) m =
      some (G.groups (df.takeCols (labels.flatMap (positionsOf df.columns))).rows).length := by
  obtain ⟨hk, hlen⟩ := ownKeys_rows cfg hp hmr hmc known nan h hl hn
  exact groupLabelsOf_spec cfg known nan G h hk

/-- **C91 (`groups`, `len`), one column.**  Missing (hence `_partial`): as for `C91_iter_one_partial`. -/
theorem C91_groups_one_partial [DecidableEq ι] [DecidableEq κ] [DecidableEq α] (cfg : Cfg) (known : Nat → Nat → Bool × Bool) (nan : α)
    (G : Grouping (List α)) (m b : MFrame ι κ α) (df bdf : Frame ι κ α) (h : m.Represents df) (hb : b.Represents bdf)
    (hidx : bdf.index = df.index) (h1 : df.nrows ≠ 1) :
    (∃ l, groupLabelsOf cfg known nan G.le G.dropped (.one b) m = some l ∧ l.Perm (df.groupLabels G bdf.rows)) ∧
    groupCountOf cfg known nan G.le G.dropped (.one b) m = some (G.groups bdf.rows).length := by
  obtain ⟨hk, hlen⟩ := oneKeys_rows cfg known nan m hb hidx h1
  exact groupLabelsOf_spec cfg known nan G h hk

/-- **C91 is violated for one row**: going through the groups of one column always raises when that column has one row. -/
theorem C91_one_row_raises [DecidableEq ι] [DecidableEq κ] [DecidableEq α] (cfg : Cfg) (known : Nat → Nat → Bool × Bool) (nan : α)
    (le : List α → List α → Bool) (dropped : List α → Bool) (sort : Bool) (m b : MFrame ι κ α) (bdf : Frame ι κ α) (hb : b.Represents bdf)
    (h1 : bdf.nrows = 1) :
    groupIter cfg known nan le dropped sort (.one b) m = none ∧ groupLabelsOf cfg known nan le dropped (.one b) m = none ∧
    groupCountOf cfg known nan le dropped (.one b) m = none := by
  have : (GroupSource.one b).keys cfg known nan m = none := by
    simp only [GroupSource.keys]
    rw [hb.toPandas nan, Option.bind_some, if_pos h1]
  unfold groupIter groupCountOf groupLabelsOf
  rw [this]
  exact ⟨rfl, rfl, rfl⟩

namespace GroupIterDemo

def cfg : Cfg := ⟨2, 1, 1⟩
def known (_ _ : Nat) : Bool × Bool := (true, true)
def le := (pandasGrouping true true).le
def dropped := (pandasGrouping true true).dropped

/-- the frame of the examples: the group 7 in two blocks of rows, a row with a missing key -/
def df : Frame Int Int (Option Int) :=
  ⟨[10, 11, 12, 13, 14], [0, 1, 2],
    [[some 8, some 2, some 5], [some 7, some 1, some 6], [none, some 1, some 8], [some 7, some 1, some 9], [some 8, some 1, some 4]]⟩
def m : MFrame Int Int (Option Int) := ⟨df.cut [2, 3] [1, 2], none, none, none, none⟩
/-- its first column, cut in other places -/
def bdf : Frame Int Int (Option Int) := df.takeCols [0]
def b : MFrame Int Int (Option Int) := ⟨bdf.cut [1, 4] [1], none, none, none, none⟩

theorem m_ok : m.Represents df :=
  ⟨⟨by decide, by decide⟩, ⟨[2, 3], [1, 2], ⟨by decide, by decide, by decide, by decide⟩, rfl, by simp [m], by simp [m]⟩,
    by simp [m], by simp [m]⟩
theorem b_ok : b.Represents bdf :=
  ⟨⟨by decide, by decide⟩, ⟨[1, 4], [1], ⟨by decide, by decide, by decide, by decide⟩, rfl, by simp [b], by simp [b]⟩,
    by simp [b], by simp [b]⟩

/-- the hypotheses of the theorems hold -/
example := C91_iter_own_partial cfg (by decide) (by decide) (by decide) known none (pandasGrouping true true) (pandasGrouping_ordered true true)
  rfl true m df m_ok [1, 0] (by decide) (by decide)
example := C91_iter_one_partial cfg (by decide) (by decide) (by decide) known none (pandasGrouping true true) (pandasGrouping_ordered true true)
  rfl true m b df bdf m_ok b_ok rfl (by decide)
example := C91_groups_own cfg (by decide) (by decide) (by decide) known none (pandasGrouping false true) m df m_ok [1, 0] (by decide) (by decide)
example := C91_groups_one_partial cfg known none (pandasGrouping false true) m b df bdf m_ok b_ok rfl (by decide)
example := C91_meaning (pandasGrouping true true) (pandasGrouping_ordered true true) bdf.rows df

example : df.groupPairs (pandasGrouping true true) bdf.rows =
    [([some 7], ⟨[11, 13], [0, 1, 2], [[some 7, some 1, some 6], [some 7, some 1, some 9]]⟩),
     ([some 8], ⟨[10, 14], [0, 1, 2], [[some 8, some 2, some 5], [some 8, some 1, some 4]]⟩)] := by decide +kernel

/-- what a loop over the groups sees -/
def seen (r : Option (List (List (Option Int) × MFrame Int Int (Option Int)))) :
    Option (List (List (Option Int) × Option (Frame Int Int (Option Int)))) :=
  r.map fun l => l.map fun e => (e.1, e.2.toPandas none)

/-- **violated with `sort=False`**: the groups stand sorted, pandas gives them in the order of appearance -/
theorem C91_unsorted :
    (seen (groupIter cfg known none le dropped false (.one b) m)).map (·.map (·.1)) = some [[some 7], [some 8]] ∧
    (df.groupPairs (pandasGrouping false true) bdf.rows).map (·.1) = [[some 8], [some 7]] := by decide +kernel

/-- a series with the same row labels in another order -/
def sdf : Frame Int Int (Option Int) := ⟨[14, 13, 12, 11, 10], [0], [[some 1], [some 2], [some 2], [some 2], [some 2]]⟩
def s : MFrame Int Int (Option Int) := ⟨sdf.cut [5] [1], none, none, none, none⟩

/-- **violated for a series with its rows in another order**: values and rows are paired by position; pandas pairs them by label, so that
    the group 1 is the row 14 -/
theorem C91_by_position :
    (seen (groupIter cfg known none le dropped true (.one s) m)).map (·.map fun e => (e.1, e.2.map (·.index))) =
      some [([some 1], some [10]), ([some 2], some [11, 12, 13, 14])] := by decide +kernel

/-- **violated after a selection**: the groups of `df.groupby(0)[[2]]` have the column 0 too, in pandas only the column 2 -/
theorem C91_selection_keeps_keys :
    ((groupSelect cfg known [0] [2] m).bind fun sel => (seen (groupIter cfg known none le dropped true (.one b) sel))).map
      (·.map fun e => e.2.map (·.columns)) = some [some [0, 2], some [0, 2]] := by decide +kernel

end GroupIterDemo
