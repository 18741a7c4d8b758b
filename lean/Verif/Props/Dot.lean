import Verif.Lemmas.Dot

variable {L α : Type}

/-- **C77.** `df.dot(other)` with a frame: the frame pandas computes, cell by cell and label by label, however the two frames are divided
    into blocks, and an error exactly when pandas raises one.  Partial: labels that do not repeat on the axis that is summed over, and
    not when `other` has one column, unless `df` has one column and not one row (see `DotDemo.C77_one_column_relabelled`,
    `DotDemo.C77_one_cell_relabelled`). -/
theorem C77_frame_by_frame_partial [DecidableEq L] (cfg : Cfg) (hp : 1 ≤ cfg.nPartitions) (hmr : 1 ≤ cfg.minRow) (hmc : 1 ≤ cfg.minCol)
    (P : DotOps L α) (hP : ∀ l, (P.arrange l).Perm l) (unnamed : L) (m o : LFrame L L α) (df f : Frame L L α) (hm : m.Shows df) (ho : o.Shows f)
    (hdf : df.columns.Nodup) (hf : f.index.Nodup) (hw : df.ncols = 1 → gridWidth m.parts ≤ 1)
    (hone : f.ncols = 1 → df.ncols = 1 ∧ df.nrows ≠ 1) :
    m.dot cfg P unnamed (.frame o) = df.dot P (.frame f) := by
  have ha := dotAligned_spec cfg hp hmr hmc P df.columns ho hf
  simp only [LFrame.dot, hm.getColumns]
  cases hc : dotCommon P df.columns f.index with
  | none =>
    rw [hc] at ha
    simp only at ha
    rw [ha]
    simp [Frame.dot, hc]
  | some c =>
    rw [hc] at ha
    obtain ⟨r, e1, e2, e3, e4⟩ := ha
    rw [dot_aligned_frame hP df f r hc e1 e3 e4, e2, Option.bind_some]
    have hready : DotReady P df.columns (.frame r) := by
      simp only [DotReady, e3]; exact dotCommon_again hP hc
    obtain ⟨out, e5, e6⟩ := dot_ready P (.frame r) df hdf hready
    have hout : ∃ g, out = .frame g := by
      simp only [Frame.dot, Option.bind_eq_some_iff, Option.map_eq_some_iff] at e5
      obtain ⟨_, _, _, _, _, _, e⟩ := e5
      exact ⟨_, e.symm⟩
    obtain ⟨g, rfl⟩ := hout
    simp only [DotOut.toFrame] at e6
    rw [e5, e6]
    have hn : (DotArg.frame r).numCols = f.ncols := by simp [DotArg.numCols, Frame.ncols, e4]
    by_cases h1 : df.ncols = 1
    · obtain ⟨m', e7, e8⟩ := dotCompiled_one cfg hmr P unnamed hm h1 (hw h1) (.frame r) hready
      rw [e7, Option.bind_some, (e8.observed P.nan).1]
      rw [hn, if_neg (fun e => (hone e.2).2 e.1)]
      rfl
    · obtain ⟨m', e7, e8⟩ := dotCompiled_many cfg hp hmc P unnamed hm h1 hdf (.frame r) hready
      rw [e7, Option.bind_some, (e8.observed P.nan).1]
      rw [hn, if_neg (fun e => h1 (hone e).1)]
      rfl

/-- **C77.** `df.dot(other)` with a Series: the unnamed Series pandas computes.  Partial: labels that do not repeat, `df` has not
    exactly one column (see `DotDemo.C77_one_column_by_series`), and no row is called `__reduced__`. -/
theorem C77_frame_by_series_partial [DecidableEq L] (cfg : Cfg) (hp : 1 ≤ cfg.nPartitions) (hmr : 1 ≤ cfg.minRow) (hmc : 1 ≤ cfg.minCol)
    (P : DotOps L α) (hP : ∀ l, (P.arrange l).Perm l) (unnamed : L) (m o : LFrame L L α) (df : Frame L L α) (hm : m.Shows df)
    (index : List L) (name : L) (values : List α) (ho : o.Shows ⟨index, [name], values.map fun v => [v]⟩)
    (hdf : df.columns.Nodup) (hf : index.Nodup) (hone : df.ncols ≠ 1) (hun : unnamed ∉ df.index) :
    m.dot cfg P unnamed (.series o) = df.dot P (.series index values) := by
  have ha := dotAligned_spec cfg hp hmr hmc P df.columns ho hf
  simp only [LFrame.dot, hm.getColumns]
  simp only at ha
  cases hc : dotCommon P df.columns index with
  | none =>
    rw [hc] at ha
    simp only at ha
    rw [ha]
    simp [Frame.dot, hc]
  | some c =>
    rw [hc] at ha
    obtain ⟨r, e1, e2, e3, e4⟩ := ha
    obtain ⟨w, h1, h2⟩ := reindex_series P.nan index name values c hf
    rw [h2] at e1
    simp only [Option.some.injEq] at e1
    subst e1
    rw [dot_aligned_series hP df index values w hc h1, e2, Option.bind_some]
    have hsq : (⟨c, [name], w.map fun v => [v]⟩ : Frame L L α).squeezedArg = .series c w := by
      simp only [Frame.squeezedArg, jthCells_singles]
    rw [hsq]
    have hready : DotReady P df.columns (.series c w) := dotCommon_again hP hc
    obtain ⟨m', e7, e8⟩ := dotCompiled_many cfg hp hmc P unnamed hm hone hdf (.series c w) hready
    rw [e7, Option.bind_some]
    simp only [DotArg.numCols, ↓reduceIte] at e8
    rw [asSeries_shows P.nan unnamed e8 (fun e => hun (by rw [e]; simp))]
    obtain ⟨l, e9, e10⟩ := reindexColumns_fit P.nan hdf c
    simp only [Frame.dot, show dotCommon P df.columns c = some c from hready, Option.bind_some, e9, valuesFor_self, Option.map_some, e10,
      ↓reduceIte, List.map_map]
    congr 2
    rw [show (df.rows.map (dotRow P df.columns (.series c w))) = (df.rows.map fun x => P.inner (fitRow P.nan df.columns c x) w).map fun v => [v] by
      rw [List.map_map]; rfl, jthCells_singles]
    rfl

/-- **C77.** `df.dot(array)` with a 2-dimensional array of `k` columns: each row times each column of the array; an error exactly when
    the sizes do not match.  Partial: as for frames. -/
theorem C77_frame_by_matrix_partial [DecidableEq L] (cfg : Cfg) (hp : 1 ≤ cfg.nPartitions) (hmr : 1 ≤ cfg.minRow) (hmc : 1 ≤ cfg.minCol)
    (P : DotOps L α) (unnamed : L) (m : LFrame L L α) (df : Frame L L α) (hm : m.Shows df) (k : Nat) (rows : List (List α))
    (hdf : df.columns.Nodup) (hw : df.ncols = 1 → gridWidth m.parts ≤ 1) (hone : k = 1 → df.ncols = 1 ∧ df.nrows ≠ 1) :
    m.dot cfg P unnamed (.matrix k rows) = df.dot P (.matrix k rows) := by
  simp only [LFrame.dot, hm.getColumns]
  by_cases hl : df.ncols = rows.length
  · have hl' : df.columns.length = rows.length := hl
    rw [if_neg (by simpa using hl')]
    have hready : DotReady P df.columns (.matrix k rows) := hl'
    simp only [Frame.dot, hl, ↓reduceIte]
    by_cases h1 : df.ncols = 1
    · obtain ⟨m', e7, e8⟩ := dotCompiled_one cfg hmr P unnamed hm h1 (hw h1) _ hready
      rw [e7, Option.bind_some, (e8.observed P.nan).1]
      rw [show (DotArg.matrix k rows : DotArg L α).numCols = k from rfl, if_neg (fun e => (hone e.2).2 e.1)]
      rfl
    · obtain ⟨m', e7, e8⟩ := dotCompiled_many cfg hp hmc P unnamed hm h1 hdf _ hready
      rw [e7, Option.bind_some, (e8.observed P.nan).1]
      rw [show (DotArg.matrix k rows : DotArg L α).numCols = k from rfl, if_neg (fun e => h1 (hone e).1)]
      rfl
  · have hl' : ¬ df.columns.length = rows.length := hl
    rw [if_pos hl']
    simp [Frame.dot, hl]

/-- **C77.** `df.dot(array)` with a 1-dimensional array.  Partial: as for Series. -/
theorem C77_frame_by_vector_partial [DecidableEq L] (cfg : Cfg) (hp : 1 ≤ cfg.nPartitions) (hmc : 1 ≤ cfg.minCol)
    (P : DotOps L α) (unnamed : L) (m : LFrame L L α) (df : Frame L L α) (hm : m.Shows df) (values : List α)
    (hdf : df.columns.Nodup) (hone : df.ncols ≠ 1) (hun : unnamed ∉ df.index) :
    m.dot cfg P unnamed (.vector values) = df.dot P (.vector values) := by
  simp only [LFrame.dot, hm.getColumns]
  by_cases hl : df.ncols = values.length
  · have hl' : df.columns.length = values.length := hl
    rw [if_neg (by simpa using hl')]
    obtain ⟨m', e7, e8⟩ := dotCompiled_many cfg hp hmc P unnamed hm hone hdf (.vector values) hl'
    simp only [DotArg.numCols, ↓reduceIte] at e8
    simp only [Frame.dot, hl, ↓reduceIte]
    rw [e7, Option.bind_some, asSeries_shows P.nan unnamed e8 (fun e => hun (by rw [e]; simp))]
    rw [show (df.rows.map (dotRow P df.columns (.vector values))) = (df.rows.map fun x => P.inner x values).map fun v => [v] by
      rw [List.map_map]; rfl, jthCells_singles]
    simp
  · have hl' : ¬ df.columns.length = values.length := hl
    rw [if_pos hl']
    simp [Frame.dot, hl]

/-- **C77.** `s.dot(other)` with a frame: a Series with the name of `s`, labelled by the columns of `other`.  Partial: labels that do not
    repeat, and `other` has not exactly one column (see `DotDemo.C77_series_by_one_column`).  (`unnamed` as the label of the only column
    means that the Series has no name.) -/
theorem C77_series_by_frame_partial [DecidableEq L] (cfg : Cfg) (hp : 1 ≤ cfg.nPartitions) (hmr : 1 ≤ cfg.minRow) (hmc : 1 ≤ cfg.minCol)
    (P : DotOps L α) (hP : ∀ l, (P.arrange l).Perm l) (unnamed : L) (m o : LFrame L L α) (index : List L) (label : L) (values : List α)
    (hm : m.Shows ⟨index, [label], values.map fun v => [v]⟩) (hw : gridWidth m.parts ≤ 1) (f : Frame L L α) (ho : o.Shows f)
    (hi : index.Nodup) (hf : f.index.Nodup) (hone : f.ncols ≠ 1) :
    m.seriesDot cfg P unnamed (.frame o)
      = seriesDot P (if label = unnamed then none else some label) index values (.frame f) := by
  have ha := dotAligned_spec cfg hp hmr hmc P index ho hf
  simp only [LFrame.seriesDot, hm.getIndex]
  cases hc : dotCommon P index f.index with
  | none =>
    rw [hc] at ha
    simp only at ha
    rw [ha]
    simp [seriesDot, hc]
  | some c =>
    rw [hc] at ha
    obtain ⟨r, e1, e2, e3, e4⟩ := ha
    rw [series_aligned_frame hP _ index values f r hc e1 e3 e4, e2, Option.bind_some]
    have hready : DotReady P index (.frame r) := by
      simp only [DotReady, e3]; exact dotCommon_again hP hc
    have hl : values.length = index.length := by have := hm.wf.rows_len; simpa using this
    rw [seriesDot_ready P _ hl hi (.frame r) hready]
    obtain ⟨m', e7, e8⟩ := seriesCompiled cfg hmr P unnamed hm hw hi (.frame r) hready
    have hn : ¬ (DotArg.frame r).numCols = 1 := by simpa [DotArg.numCols, Frame.ncols, e4] using hone
    simp only [hn, ↓reduceIte] at e8
    rw [e7, Option.bind_some, asSeries_shows P.nan unnamed e8, jthCells_singles]
    · rfl
    · intro e
      apply hn
      rw [← seriesLabels_length P, e]
      rfl

/-- **C77.** `s.dot(other)` with a Series: the inner product, aligned by labels.  Labels do not repeat. -/
theorem C77_series_by_series_partial [DecidableEq L] (cfg : Cfg) (hp : 1 ≤ cfg.nPartitions) (hmr : 1 ≤ cfg.minRow) (hmc : 1 ≤ cfg.minCol)
    (P : DotOps L α) (hP : ∀ l, (P.arrange l).Perm l) (unnamed : L) (m o : LFrame L L α) (index : List L) (label : L) (values : List α)
    (hm : m.Shows ⟨index, [label], values.map fun v => [v]⟩) (hw : gridWidth m.parts ≤ 1)
    (index' : List L) (label' : L) (values' : List α) (ho : o.Shows ⟨index', [label'], values'.map fun v => [v]⟩)
    (hi : index.Nodup) (hf : index'.Nodup) (name : Option L) :
    m.seriesDot cfg P unnamed (.series o) = seriesDot P name index values (.series index' values') := by
  have ha := dotAligned_spec cfg hp hmr hmc P index ho hf
  simp only [LFrame.seriesDot, hm.getIndex]
  simp only at ha
  cases hc : dotCommon P index index' with
  | none =>
    rw [hc] at ha
    simp only at ha
    rw [ha]
    simp [seriesDot, hc]
  | some c =>
    rw [hc] at ha
    obtain ⟨r, e1, e2, e3, e4⟩ := ha
    obtain ⟨w, h1, h2⟩ := reindex_series P.nan index' label' values' c hf
    rw [h2] at e1
    simp only [Option.some.injEq] at e1
    subst e1
    rw [series_aligned_series hP _ index values index' values' w hc h1, e2, Option.bind_some]
    have hsq : (⟨c, [label'], w.map fun v => [v]⟩ : Frame L L α).squeezedArg = .series c w := by
      simp only [Frame.squeezedArg, jthCells_singles]
    rw [hsq]
    have hready : DotReady P index (.series c w) := dotCommon_again hP hc
    have hl : values.length = index.length := by have := hm.wf.rows_len; simpa using this
    rw [seriesDot_ready P _ hl hi (.series c w) hready]
    obtain ⟨m', e7, e8⟩ := seriesCompiled cfg hmr P unnamed hm hw hi (.series c w) hready
    simp only [DotArg.numCols, ↓reduceIte, dotColumn, List.map_cons, List.map_nil] at e8
    rw [e7, Option.bind_some, onlyCell_shows e8]
    rfl

/-- **C77.** `s.dot(array)` with a 2-dimensional array of `k` columns: the array of the inner products.  Partial: `k` is not 1 (see
    `DotDemo.C77_series_by_one_column_matrix`), labels that do not repeat. -/
theorem C77_series_by_matrix_partial [DecidableEq L] (cfg : Cfg) (hmr : 1 ≤ cfg.minRow)
    (P : DotOps L α) (unnamed : L) (m : LFrame L L α) (index : List L) (label : L) (values : List α)
    (hm : m.Shows ⟨index, [label], values.map fun v => [v]⟩) (hw : gridWidth m.parts ≤ 1) (hi : index.Nodup)
    (k : Nat) (rows : List (List α)) (hone : k ≠ 1) (name : Option L) :
    m.seriesDot cfg P unnamed (.matrix k rows) = seriesDot P name index values (.matrix k rows) := by
  have hl : values.length = index.length := by have := hm.wf.rows_len; simpa using this
  simp only [LFrame.seriesDot, hm.getIndex]
  by_cases hk : index.length = rows.length
  · rw [if_neg (by simpa using hk)]
    have hready : DotReady P index (.matrix k rows) := hk
    rw [seriesDot_ready P _ hl hi _ hready]
    obtain ⟨m', e7, e8⟩ := seriesCompiled cfg hmr P unnamed hm hw hi _ hready
    rw [e7, Option.bind_some, (e8.observed P.nan).1]
    simp only [Option.map_some, Frame.numpySqueezed, jthCells_singles, DotArg.seriesOut]
    have h2 := dotColumn_length P index values (.matrix k rows)
    split
    · rename_i a e
      rw [e] at h2
      exact absurd h2.symm hone
    · rfl
  · rw [if_pos hk]
    simp [seriesDot, hl, hk]

/-- **C77.** `s.dot(array)` with a 1-dimensional array: the inner product, by position. -/
theorem C77_series_by_vector_partial [DecidableEq L] (cfg : Cfg) (hmr : 1 ≤ cfg.minRow)
    (P : DotOps L α) (unnamed : L) (m : LFrame L L α) (index : List L) (label : L) (values : List α)
    (hm : m.Shows ⟨index, [label], values.map fun v => [v]⟩) (hw : gridWidth m.parts ≤ 1) (hi : index.Nodup)
    (values' : List α) (name : Option L) :
    m.seriesDot cfg P unnamed (.vector values') = seriesDot P name index values (.vector values') := by
  have hl : values.length = index.length := by have := hm.wf.rows_len; simpa using this
  simp only [LFrame.seriesDot, hm.getIndex]
  by_cases hk : index.length = values'.length
  · rw [if_neg (by simpa using hk)]
    have hready : DotReady P index (.vector values') := hk
    rw [seriesDot_ready P _ hl hi _ hready]
    obtain ⟨m', e7, e8⟩ := seriesCompiled cfg hmr P unnamed hm hw hi _ hready
    simp only [DotArg.numCols, ↓reduceIte, dotColumn, List.map_cons, List.map_nil] at e8
    rw [e7, Option.bind_some, onlyCell_shows e8]
    rfl
  · rw [if_pos hk]
    simp [seriesDot, hl, hk]

/-! ### demonstrations -/

namespace DotDemo

/-- sums of products of integers; `-9` is the missing value, unions are sorted, `__reduced__` is `-1` -/
def P : DotOps Int Int := ⟨fun xs ys => ((xs.zip ys).map fun p => p.1 * p.2).sum, -9, sortBy fun a b => decide (a ≤ b), fun n => n⟩

theorem P_perm : ∀ l, (P.arrange l).Perm l := sortBy_perm _

def cfg : Cfg := ⟨4, 1, 1⟩

/-- 3 rows, 3 columns -/
def df : Frame Int Int Int := ⟨[7, 5, 9], [30, 10, 20], [[1, 2, 3], [4, 5, 6], [7, 8, 9]]⟩

/-- in four blocks -/
def m : LFrame Int Int Int := ⟨⟨df.cut [2, 1] [1, 2], none, none, none, none⟩, false, false⟩

theorem m_shows : m.Shows df :=
  represents_shows (m := ⟨df.cut [2, 1] [1, 2], none, none, none, none⟩) ⟨by constructor <;> decide, ⟨[2, 1], [1, 2],
    by constructor <;> decide, rfl, Or.inl rfl, Or.inl rfl⟩, Or.inl rfl, Or.inl rfl⟩

/-- its rows carry the labels of the columns of `df`, in another order -/
def f : Frame Int Int Int := ⟨[20, 30, 10], [70, 80], [[100, 1], [10, 0], [1, 0]]⟩

def o : LFrame Int Int Int := ⟨⟨f.cut [1, 2] [1, 1], none, none, none, none⟩, false, false⟩

theorem o_shows : o.Shows f :=
  represents_shows (m := ⟨f.cut [1, 2] [1, 1], none, none, none, none⟩) ⟨by constructor <;> decide, ⟨[1, 2], [1, 1],
    by constructor <;> decide, rfl, Or.inl rfl, Or.inl rfl⟩, Or.inl rfl, Or.inl rfl⟩

/-- a Series named 70, in two blocks -/
def s : LFrame Int Int Int :=
  ⟨⟨(⟨[20, 30, 10], [70], [[100], [10], [1]]⟩ : Frame Int Int Int).cut [1, 2] [1], none, none, none, none⟩, false, false⟩

theorem s_shows : s.Shows ⟨[20, 30, 10], [70], [100, 10, 1].map fun v => [v]⟩ :=
  represents_shows (m := ⟨(⟨[20, 30, 10], [70], [[100], [10], [1]]⟩ : Frame Int Int Int).cut [1, 2] [1], none, none, none, none⟩)
    ⟨by constructor <;> decide, ⟨[1, 2], [1], by constructor <;> decide, rfl, Or.inl rfl, Or.inl rfl⟩, Or.inl rfl, Or.inl rfl⟩

-- a frame by a frame
example : m.dot cfg P (-1) (.frame o) = some (.frame ⟨[7, 5, 9], [70, 80], [[312, 3], [645, 6], [978, 9]]⟩) := by
  rw [C77_frame_by_frame_partial cfg (by decide) (by decide) (by decide) P P_perm (-1) m o df f m_shows o_shows (by decide) (by decide)
    (fun h => absurd h (by decide)) (fun h => absurd h (by decide))]
  decide +kernel

-- one column by one column, two rows: no labels are lost
example : s.dot cfg P (-1) (.frame ⟨⟨[[⟨[70], [4], [[2]]⟩]], none, none, none, none⟩, false, false⟩)
    = some (.frame ⟨[20, 30, 10], [4], [[200], [20], [2]]⟩) := by
  rw [C77_frame_by_frame_partial cfg (by decide) (by decide) (by decide) P P_perm (-1) s _ _ ⟨[70], [4], [[2]]⟩ s_shows
    (represents_shows (m := ⟨[[⟨[70], [4], [[2]]⟩]], none, none, none, none⟩)
      ⟨by constructor <;> decide, ⟨[1], [1], by constructor <;> decide, rfl, Or.inl rfl, Or.inl rfl⟩, Or.inl rfl, Or.inl rfl⟩)
    (by decide) (by decide) (fun _ => by decide) (fun _ => by decide)]
  decide +kernel

-- labels that do not match: an error
example : m.dot cfg P (-1) (.frame m) = none := by
  rw [C77_frame_by_frame_partial cfg (by decide) (by decide) (by decide) P P_perm (-1) m m df df m_shows m_shows (by decide) (by decide)
    (fun h => absurd h (by decide)) (fun h => absurd h (by decide))]
  decide +kernel

-- a frame by a Series
example : m.dot cfg P (-1) (.series s) = some (.series none [7, 5, 9] [312, 645, 978]) := by
  rw [C77_frame_by_series_partial cfg (by decide) (by decide) (by decide) P P_perm (-1) m s df m_shows [20, 30, 10] 70 [100, 10, 1] s_shows
    (by decide) (by decide) (by decide) (by decide)]
  decide +kernel

-- a frame by arrays: by position
example : m.dot cfg P (-1) (.matrix 2 [[100, 1], [10, 0], [1, 0]]) = some (.frame ⟨[7, 5, 9], [0, 1], [[123, 1], [456, 4], [789, 7]]⟩) := by
  rw [C77_frame_by_matrix_partial cfg (by decide) (by decide) (by decide) P (-1) m df m_shows 2 _ (by decide)
    (fun h => absurd h (by decide)) (fun h => absurd h (by decide))]
  decide +kernel

example : m.dot cfg P (-1) (.vector [100, 10, 1]) = some (.series none [7, 5, 9] [123, 456, 789]) := by
  rw [C77_frame_by_vector_partial cfg (by decide) (by decide) P (-1) m df m_shows _ (by decide) (by decide) (by decide)]
  decide +kernel

-- a Series by a frame keeps its name
example : s.seriesDot cfg P (-1) (.frame o) = some (.series (some 70) [70, 80] [10101, 100]) := by
  rw [C77_series_by_frame_partial cfg (by decide) (by decide) (by decide) P P_perm (-1) s o [20, 30, 10] 70 [100, 10, 1] s_shows (by decide) f
    o_shows (by decide) (by decide) (by decide)]
  decide +kernel

example : s.seriesDot cfg P (-1) (.series s) = some (.scalar 10101) := by
  rw [C77_series_by_series_partial cfg (by decide) (by decide) (by decide) P P_perm (-1) s s [20, 30, 10] 70 [100, 10, 1] s_shows (by decide)
    [20, 30, 10] 70 [100, 10, 1] s_shows (by decide) (by decide) none]
  decide +kernel

example : s.seriesDot cfg P (-1) (.matrix 2 [[1, 2], [3, 4], [5, 6]]) = some (.array [135, 246]) := by
  rw [C77_series_by_matrix_partial cfg (by decide) P (-1) s [20, 30, 10] 70 [100, 10, 1] s_shows (by decide) (by decide) 2 _ (by decide) none]
  decide +kernel

example : s.seriesDot cfg P (-1) (.vector [1, 2, 3]) = some (.scalar 123) ∧ s.seriesDot cfg P (-1) (.vector [1, 2]) = none := by
  rw [C77_series_by_vector_partial cfg (by decide) P (-1) s [20, 30, 10] 70 [100, 10, 1] s_shows (by decide) (by decide) _ none,
    C77_series_by_vector_partial cfg (by decide) P (-1) s [20, 30, 10] 70 [100, 10, 1] s_shows (by decide) (by decide) _ none]
  decide +kernel

/-! ### what fails -/

/-- `df.dot(other)` with a frame of one column: the column of the result is called `__reduced__` -/
theorem C77_one_column_relabelled :
    m.dot cfg P (-1) (.frame s) = some (.frame ⟨[7, 5, 9], [-1], [[312], [645], [978]]⟩) ∧
    df.dot P (.frame ⟨[20, 30, 10], [70], [[100], [10], [1]]⟩) = some (.frame ⟨[7, 5, 9], [70], [[312], [645], [978]]⟩) := by decide +kernel

/-- a frame of one row and one column, row 5, column 70 -/
def cell : LFrame Int Int Int := ⟨⟨[[⟨[5], [70], [[3]]⟩]], none, none, none, none⟩, false, false⟩

/-- a frame of one row and one column, row 70, column 4 -/
def cell' : LFrame Int Int Int := ⟨⟨[[⟨[70], [4], [[2]]⟩]], none, none, none, none⟩, false, false⟩

/-- one cell by one cell: the row of the result is called `__reduced__`; by a Series: the result is labelled 0 -/
theorem C77_one_cell_relabelled :
    cell.dot cfg P (-1) (.frame cell') = some (.frame ⟨[-1], [4], [[6]]⟩) ∧
    Frame.dot P ⟨[5], [70], [[3]]⟩ (.frame ⟨[70], [4], [[2]]⟩) = some (.frame ⟨[5], [4], [[6]]⟩) ∧
    cell.dot cfg P (-1) (.series cell') = some (.series none [0] [6]) ∧
    Frame.dot P ⟨[5], [70], [[3]]⟩ (.series [70] [2]) = some (.series none [5] [6]) := by decide +kernel

/-- a frame of one column by a Series: the result is called 0, it should have no name -/
theorem C77_one_column_by_series :
    s.dot cfg P (-1) (.series cell') = some (.series (some 0) [20, 30, 10] [200, 20, 2]) ∧
    Frame.dot P ⟨[20, 30, 10], [70], [[100], [10], [1]]⟩ (.series [70] [2]) = some (.series none [20, 30, 10] [200, 20, 2]) := by decide +kernel

/-- a Series by a frame of one column: the name of the Series and the label of the column are lost -/
theorem C77_series_by_one_column :
    s.seriesDot cfg P (-1) (.frame s) = some (.series none [-1] [10101]) ∧
    seriesDot P (some 70) [20, 30, 10] [100, 10, 1] (.frame ⟨[20, 30, 10], [70], [[100], [10], [1]]⟩)
      = some (.series (some 70) [70] [10101]) := by decide +kernel

/-- a Series by an array with one column: the result has no dimension, it should be an array of one element -/
theorem C77_series_by_one_column_matrix :
    s.seriesDot cfg P (-1) (.matrix 1 [[1], [2], [3]]) = some (.scalar 123) ∧
    seriesDot P (some 70) [20, 30, 10] [100, 10, 1] (.matrix 1 [[1], [2], [3]]) = some (.array [123]) := by decide +kernel

end DotDemo
