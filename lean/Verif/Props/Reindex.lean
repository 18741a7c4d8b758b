import Verif.Lemmas.Reindex
import Verif.Props.LocAssign

variable {L α : Type}

/-- **C56.** `df.reindex(index=J, columns=K, fill_value=fill)`: every row and column label asked for brings its cells along, labels
    that do not exist bring `fill`, and the call raises exactly when pandas raises, whatever the partitioning.  Partial: not when
    `index` is a `pandas.Index` and `columns` is another list (see `ReindexDemo.C56_mixed_arguments_raise`). -/
theorem C56_reindex_partial [DecidableEq L] (cfg : Cfg) (hp : 1 ≤ cfg.nPartitions) (hmr : 1 ≤ cfg.minRow) (hmc : 1 ≤ cfg.minCol) (fill nan : α)
    (m : LFrame L L α) (df : Frame L L α) (h : m.Shows df) (index columns : Option (LabelArg L))
    (hargs : ∀ J K, index = some J → columns = some K → J.isIndex = true → K.isIndex = true) :
    match df.reindex fill (index.map LabelArg.labels) (columns.map LabelArg.labels) with
    | none => m.reindex cfg fill index columns = none
    | some df' => ∃ m', m.reindex cfg fill index columns = some m' ∧ m'.Shows df' ∧ m'.toPandas nan = some df' := by
  have step1 : match df.reindexIndex? fill (index.map LabelArg.labels) with
      | none => m.reindexIndexArg cfg fill index = none
      | some df1 => ∃ m1, m.reindexIndexArg cfg fill index = some m1 ∧ m1.Shows df1 ∧ df1.columns = df.columns := by
    unfold Frame.reindexIndex? LFrame.reindexIndexArg
    cases index with
    | none => exact ⟨m, rfl, h, rfl⟩
    | some J =>
      simp only [Option.map_some]
      by_cases hs : J.isIndex = true ∧ J.labels = m.getIndex
      · have : df.reindexIndex fill J.labels = some df := by
          unfold Frame.reindexIndex; rw [if_pos (by rw [hs.2, h.getIndex])]
        rw [this]
        exact ⟨m, if_pos hs, h, rfl⟩
      · rw [if_neg hs]
        cases e : df.reindexIndex fill J.labels with
        | none => exact reindexRowsTo_none cfg fill h e
        | some df1 =>
          obtain ⟨m1, e1, e2⟩ := reindexRowsTo_some cfg hp hmr fill h e
          refine ⟨m1, e1, e2, ?_⟩
          unfold Frame.reindexIndex at e
          split at e
          · cases e; rfl
          · split at e
            · cases e; rfl
            · cases e
  unfold Frame.reindex LFrame.reindex
  cases e1 : df.reindexIndex? fill (index.map LabelArg.labels) with
  | none =>
    rw [e1] at step1
    simp only at step1
    rw [step1]
    simp
  | some df1 =>
    rw [e1] at step1
    obtain ⟨m1, e2, h1, hcol⟩ := step1
    rw [e2]
    simp only [Option.bind_some]
    unfold Frame.reindexColumns?
    cases columns with
    | none => exact ⟨m1, rfl, h1, (h1.observed nan).1⟩
    | some K =>
      simp only [Option.map_some]
      have hgo : match df1.reindexColumns fill K.labels with
          | none => m1.reindexColsTo cfg fill K.labels = none
          | some df' => ∃ m', m1.reindexColsTo cfg fill K.labels = some m' ∧ m'.Shows df' ∧ m'.toPandas nan = some df' := by
        cases e : df1.reindexColumns fill K.labels with
        | none => exact reindexColsTo_none cfg fill h1 e
        | some df' =>
          obtain ⟨m', e3, e4⟩ := reindexColsTo_some cfg hp hmc fill h1 e
          exact ⟨m', e3, e4, (e4.observed nan).1⟩
      by_cases hi : (index.map LabelArg.isIndex).getD false = true
      · rw [if_pos hi]
        have hK : K.isIndex = true := by
          cases index with
          | none => simp at hi
          | some J => exact hargs J K rfl rfl (by simpa using hi)
        rw [if_pos hK]
        by_cases hk : K.labels = m.getColumns
        · have : df1.reindexColumns fill K.labels = some df1 := by
            unfold Frame.reindexColumns; rw [if_pos (by rw [hk, h.getColumns, hcol])]
          rw [this, if_pos hk]
          exact ⟨m1, rfl, h1, (h1.observed nan).1⟩
        · rw [if_neg hk]; exact hgo
      · rw [if_neg hi]; exact hgo

/-- **C56.** `df.loc[r, c] = item` where every label exists assigns as in C55.  Partial: not for an empty list of rows (see
    `ReindexDemo.C56_no_rows_raise`). -/
theorem C56_loc_existing_partial [DecidableEq L] (cfg : Cfg) (hp : 1 ≤ cfg.nPartitions) (hmr : 1 ≤ cfg.minRow) (hmc : 1 ≤ cfg.minCol)
    (zero nan : α) (known : Nat → Nat → Bool × Bool) (knownG : Grid L L α → Bool) (unnamed : L) (m : LFrame L L α) (df : Frame L L α)
    (h : m.Shows df) (hr : 0 < df.nrows) (hc : 0 < df.ncols) (r c : LKey L) (rs cs : List Nat)
    (hrs : r.addressed df.index = some rs) (hcs : c.addressed df.columns = some cs) (item : Item α)
    (hplain : PlainAssignment df rs cs item) (hmask : ∀ bs, r = .mask bs → ∃ v, item = .scalar v) (hne : r ≠ .list []) :
    ∃ m', m.locSetAny cfg zero nan known knownG unnamed r c item = some m' ∧
      m'.Shows (df.assign rs cs (item.at cs.length)) ∧ m'.toPandas nan = some (df.assign rs cs (item.at cs.length)) := by
  have hcm : columnsMissing df.columns c = none := by
    unfold columnsMissing
    cases c with
    | label y =>
      unfold LKey.addressed at hcs
      simp only at hcs
      split at hcs
      · rename_i hy; simp [hy]
      · cases hcs
    | list ys =>
      unfold LKey.addressed at hcs
      simp only at hcs
      split at hcs
      · rename_i hy
        simp only
        rw [if_neg]
        simpa using hy
      · cases hcs
    | mask bs => rfl
    | all => rfl
  have hck : checkMissing df.index df.columns r c = some none := by
    unfold checkMissing
    simp only [hcm]
    cases r with
    | label x =>
      unfold LKey.addressed at hrs
      simp only at hrs
      split at hrs
      · rename_i hx; simp [hx]
      · cases hrs
    | list xs =>
      unfold LKey.addressed at hrs
      simp only at hrs
      split at hrs
      · rename_i hx
        simp only
        have h0 : xs.filter (fun x => decide (x ∉ df.index)) = [] := by
          rw [List.filter_eq_nil_iff]; intro x hx'; simp [hx x hx']
        rw [h0]
        cases xs with
        | nil => exact absurd rfl hne
        | cons x xs => simp [hx x (by simp)]
      · cases hrs
    | mask bs => rfl
    | all => rfl
  have := C55_loc_set_partial cfg hp hmr hmc nan known knownG unnamed m df h hr hc r c rs cs hrs hcs item hplain hmask
  unfold LFrame.locSetAny
  rw [h.getIndex, h.getColumns, hck]
  simp only [Option.bind_some]
  split <;> exact this

/-- **C56.** `df.loc[x, :] = item` with a label `x` that does not exist adds one row at the end that holds the item, and leaves all
    else as it is, whatever the partitioning.  Partial: the row labels do not repeat, the columns key is not a single label, and it
    addresses all columns in order (see the witnesses in `ReindexDemo`). -/
theorem C56_loc_new_row_partial [DecidableEq L] (cfg : Cfg) (hp : 1 ≤ cfg.nPartitions) (hmr : 1 ≤ cfg.minRow) (hmc : 1 ≤ cfg.minCol)
    (zero nan : α) (known : Nat → Nat → Bool × Bool) (knownG : Grid L L α → Bool) (unnamed : L) (m : LFrame L L α) (df : Frame L L α)
    (h : m.Shows df) (hr : 0 < df.nrows) (hc : 0 < df.ncols) (hnd : df.index.Nodup) (x : L) (hx : x ∉ df.index) (c : LKey L)
    (hcs : c.addressed df.columns = some (List.range df.ncols)) (hscalar : c.isScalar = false) (item : Item α)
    (hshape : item.Matches 1 df.ncols) (row : List α) (hrow : row.length = df.ncols)
    (hitem : ∀ j, j < df.ncols → item.at df.ncols 0 j = row[j]?) :
    ∃ m', m.locSetAny cfg zero nan known knownG unnamed (.label x) c item = some m' ∧
      m'.Shows (df.addRow x row) ∧ m'.toPandas nan = some (df.addRow x row) := by
  obtain ⟨m1, e1, h1⟩ := reindexRowsTo_some cfg hp hmr zero h (reindexIndex_add h.wf hnd hx zero)
  have hn1 : (df.addRow x (List.replicate df.ncols zero)).nrows = df.nrows + 1 := by simp [Frame.addRow, Frame.nrows]
  have hadd : (LKey.label x).addressed (df.addRow x (List.replicate df.ncols zero)).index = some [df.nrows] := by
    unfold LKey.addressed Frame.addRow
    simp only
    rw [if_pos (by simp)]
    congr 1
    have hq : (df.index ++ [x])[df.nrows]? = some x := by simp [Frame.nrows]
    have hcount : (df.index ++ [x]).count x = 1 := by
      rw [List.count_append, List.count_eq_zero.2 hx]; simp
    exact positionsOf_unique hq hcount
  have hplain : PlainAssignment (df.addRow x (List.replicate df.ncols zero)) [df.nrows] (List.range df.ncols) item := by
    refine ⟨by simpa using hshape, ?_, fun _ => rfl, ?_, ?_, ?_, ?_⟩
    · intro hl; rw [hn1] at hl; simp at hl; omega
    · intro hl; rw [hn1] at hl; omega
    · intro q y _ hl; rw [hn1] at hl; simp at hl; omega
    · intro p y _ _ hp' hy
      have : p = df.nrows := by simpa using hp'.symm
      subst this
      have hq : (df.index ++ [x])[df.nrows]? = some x := by simp [Frame.nrows]
      have : y = x := by
        have hy' : (df.index ++ [x])[df.nrows]? = some y := hy
        rw [hq] at hy'; exact (Option.some.inj hy').symm
      subst this
      show (df.index ++ [y]).count y = 1
      rw [List.count_append, List.count_eq_zero.2 hx]; simp
    · intro xs _
      right
      simp [Frame.addRow, Frame.ncols]
  have hset := C55_loc_set_partial cfg hp hmr hmc nan known knownG unnamed m1 _ h1 (by rw [hn1]; omega) hc (.label x) c [df.nrows]
    (List.range df.ncols) hadd hcs item hplain (by intro bs hb; cases hb)
  rw [List.length_range, addRow_assign h.wf x hrow (by simp) hitem] at hset
  unfold LFrame.locSetAny
  rw [h.getIndex, h.getColumns]
  have hck : checkMissing df.index df.columns (.label x) c = some (some 0) := by
    unfold checkMissing; simp [hx]
  have hd : locNdim (.label x) c ≥ 1 := by
    unfold locNdim; rw [hscalar]; simp [LKey.isScalar]
  rw [hck]
  simp only [Option.bind_some]
  rw [if_pos hd, e1]
  exact hset

/-- **C56.** `df.loc[r, ys] = item` or `df.loc[r, y] = item` with columns that do not exist adds them at the end, in the order they
    are named, missing where the item does not reach, and assigns the item to the addressed cells, whatever the partitioning.
    Partial: no label of the columns repeats, the rows key is not a single label nor an empty list, and the conditions of C55 hold of
    the enlarged frame. -/
theorem C56_loc_new_columns_partial [DecidableEq L] (cfg : Cfg) (hp : 1 ≤ cfg.nPartitions) (hmr : 1 ≤ cfg.minRow) (hmc : 1 ≤ cfg.minCol)
    (zero nan : α) (known : Nat → Nat → Bool × Bool) (knownG : Grid L L α → Bool) (unnamed : L) (m : LFrame L L α) (df : Frame L L α)
    (h : m.Shows df) (hr : 0 < df.nrows) (hnd : df.columns.Nodup) (r c : LKey L) (ys : List L) (hys : ys.Nodup)
    (hckey : c = .list ys ∨ ∃ y, c = .label y ∧ ys = [y]) (hnew : ∃ y ∈ ys, y ∉ df.columns) (rs cs : List Nat)
    (hrs : r.addressed df.index = some rs) (hrs0 : rs ≠ []) (hscalar : r.isScalar = false) (item : Item α) (df1 : Frame L L α)
    (hdf1 : df1 = df.addColumns (ys.filter fun y => decide (y ∉ df.columns)) nan) (hcs : (LKey.list ys).addressed df1.columns = some cs)
    (hplain : PlainAssignment df1 rs cs item) (hline : ∀ xs, item = .arr1 xs → ys.length = 1)
    (hmask : ∀ bs, r = .mask bs → ∃ v, item = .scalar v) :
    ∃ m', m.locSetAny cfg zero nan known knownG unnamed r c item = some m' ∧
      m'.Shows (df1.assign rs cs (item.at cs.length)) ∧ m'.toPandas nan = some (df1.assign rs cs (item.at cs.length)) := by
  have hnew' : ∀ y ∈ ys.filter (fun y => decide (y ∉ df.columns)), y ∉ df.columns := by
    intro y hy; simpa using (List.mem_filter.1 hy).2
  obtain ⟨m1, e1, h1⟩ := reindexColsTo_some cfg hp hmc nan h (reindexColumns_add h.wf hnd hnew' nan)
  rw [← hdf1] at h1
  have hnd1 : df1.columns.Nodup := by
    rw [hdf1]
    show (df.columns ++ _).Nodup
    rw [List.nodup_append]
    refine ⟨hnd, hys.sublist List.filter_sublist, ?_⟩
    intro a ha b hb hab
    exact hnew' b hb (hab ▸ ha)
  have hlen := addressed_list_length hnd1 hcs
  have hr1 : 0 < df1.nrows := by rw [hdf1]; exact hr
  have hc1 : 0 < df1.ncols := by
    obtain ⟨y, hy1, hy2⟩ := hnew
    rw [hdf1]
    show 0 < (df.columns ++ _).length
    rw [List.length_append]
    have : 0 < (ys.filter (fun y => decide (y ∉ df.columns))).length :=
      List.length_pos_of_mem (List.mem_filter.2 ⟨hy1, by simpa using hy2⟩)
    omega
  have hset := C55_loc_set_partial cfg hp hmr hmc nan known knownG unnamed m1 df1 h1 hr1 hc1 r (.list ys) rs cs
    (by rw [hdf1]; exact hrs) hcs item hplain hmask
  have hcm : columnsMissing df.columns c = some 1 := by
    unfold columnsMissing
    obtain ⟨y, hy1, hy2⟩ := hnew
    rcases hckey with rfl | ⟨z, rfl, rfl⟩
    · simp only
      rw [if_pos]
      rw [List.any_eq_true]
      exact ⟨y, hy1, by simpa using hy2⟩
    · rw [List.mem_singleton] at hy1
      subst hy1
      simp [hy2]
  have hck : checkMissing df.index df.columns r c = some (some 1) := by
    unfold checkMissing
    simp only [hcm]
    cases r with
    | label x => cases hscalar
    | list xs =>
      unfold LKey.addressed at hrs
      simp only at hrs
      split at hrs
      · rename_i hx
        simp only
        have h0 : xs.filter (fun x => decide (x ∉ df.index)) = [] := by
          rw [List.filter_eq_nil_iff]; intro x hx'; simp [hx x hx']
        rw [h0]
        cases xs with
        | nil => cases hrs; exact absurd rfl hrs0
        | cons x xs => simp [hx x (by simp)]
      · cases hrs
    | mask bs => rfl
    | all => rfl
  have hd : locNdim r c ≥ 1 := by
    unfold locNdim; rw [hscalar]; cases c.isScalar <;> simp
  have hkey : c.named = ys := by
    rcases hckey with rfl | ⟨z, rfl, rfl⟩ <;> rfl
  have hfits : itemFits ys.length item = true := by
    unfold itemFits
    cases item with
    | scalar v => rfl
    | arr1 xs => simpa using hline xs rfl
    | arr2 M =>
      obtain ⟨hM1, hM2⟩ := hplain.shape
      cases M with
      | nil => exact absurd (List.length_eq_zero_iff.1 hM1.symm) hrs0
      | cons x M =>
        exact decide_eq_true (show x.length = ys.length by rw [hM2 x (by simp), hlen])
  unfold LFrame.locSetAny
  rw [h.getIndex, h.getColumns, hck]
  simp only [Option.bind_some]
  rw [if_pos hd]
  simp only [hkey, hfits, ↓reduceIte, e1, Option.bind_some]
  exact hset

/-! ### demonstrations -/

namespace ReindexDemo
open LocAssignDemo

/-- the frame after `m.reindex(index=..., columns=..., fill_value=-1)` -/
def re (m : LFrame Int Int Int) (index columns : Option (LabelArg Int)) : Option (Frame Int Int Int) :=
  (m.reindex cfg (-1) index columns).bind (·.toPandas 0)

/-- the frame after `m.loc[r, c] = item`; the missing value is `-9` -/
def lany (m : LFrame Int Int Int) (r c : LKey Int) (item : Item Int) : Option (Frame Int Int Int) :=
  (m.locSetAny cfg 0 (-9) no noG 99 r c item).bind (·.toPandas (-9))

-- `df.reindex(index=[9, 4, 7, 9], columns=[3, 8, 1], fill_value=-1)`
example : ∃ m', m.reindex cfg (-1) (some ⟨false, [9, 4, 7, 9]⟩) (some ⟨false, [3, 8, 1]⟩) = some m' ∧
    m'.toPandas 0 = some ⟨[9, 4, 7, 9], [3, 8, 1], [[32, -1, 12], [-1, -1, -1], [30, -1, 10], [32, -1, 12]]⟩ := by
  have := C56_reindex_partial cfg (by decide) (by decide) (by decide) (-1) 0 m df m_shows (some ⟨false, [9, 4, 7, 9]⟩) (some ⟨false, [3, 8, 1]⟩)
    (by intro J K h _ h'; cases h; cases h')
  have e : df.reindex (-1) ((some (LabelArg.mk false [9, 4, 7, 9])).map LabelArg.labels) ((some (LabelArg.mk false [3, 8, 1])).map LabelArg.labels)
      = some { index := [9, 4, 7, 9], columns := [3, 8, 1], rows := [[32, -1, 12], [-1, -1, -1], [30, -1, 10], [32, -1, 12]] } := by
    decide +kernel
  rw [e] at this
  obtain ⟨m', e1, _, e2⟩ := this
  exact ⟨m', e1, e2⟩

-- `df.loc[4, :] = np.array([1, 2, 3])` adds a row
example : ∃ m', m.locSetAny cfg 0 (-9) no noG 99 (.label 4) .all (.arr1 [1, 2, 3]) = some m' ∧
    m'.toPandas (-9) = some { index := [7, 5, 9, 4], columns := [1, 2, 3], rows := [[10, 20, 30], [11, 21, 31], [12, 22, 32], [1, 2, 3]] } := by
  obtain ⟨m', e1, _, e2⟩ := C56_loc_new_row_partial cfg (by decide) (by decide) (by decide) 0 (-9) no noG 99 m df m_shows (by decide) (by decide)
    (by decide) 4 (by decide) .all (by decide) rfl (.arr1 [1, 2, 3]) (Or.inr ⟨rfl, rfl⟩) [1, 2, 3] rfl (by decide)
  exact ⟨m', e1, e2⟩

-- `df.loc[[9, 7], [2, 8]] = np.array([[1, 2], [3, 4]])` adds a column
example : ∃ m', m.locSetAny cfg 0 (-9) no noG 99 (.list [9, 7]) (.list [2, 8]) (.arr2 [[1, 2], [3, 4]]) = some m' ∧
    m'.toPandas (-9) = some { index := [7, 5, 9], columns := [1, 2, 3, 8], rows := [[10, 3, 30, 4], [11, 21, 31, -9], [12, 1, 32, 2]] } := by
  obtain ⟨m', e1, _, e2⟩ := C56_loc_new_columns_partial cfg (by decide) (by decide) (by decide) 0 (-9) no noG 99 m df m_shows (by decide)
    (by decide) (.list [9, 7]) (.list [2, 8]) [2, 8] (by decide) (Or.inl rfl) ⟨8, by decide, by decide⟩ [2, 0] [1, 3] (by decide) (by decide) rfl
    (.arr2 [[1, 2], [3, 4]]) _ rfl (by decide)
    ⟨⟨rfl, by decide⟩, by decide, by decide, by decide, by intro _ _ _ h; exact absurd h (by decide),
      by intro _ _ _ h; exact absurd h (by decide), by intro _ h; cases h⟩ (by intro _ h; cases h) (by intro _ h; cases h)
  exact ⟨m', e1, by rw [e2]; decide +kernel⟩

-- `df.loc[[9, 7], 2] = 5`, all labels exist
example : ∃ m', m.locSetAny cfg 0 (-9) no noG 99 (.list [9, 7]) (.label 2) (.scalar 5) = some m' ∧
    m'.toPandas (-9) = some { df with rows := [[10, 5, 30], [11, 21, 31], [12, 5, 32]] } := by
  obtain ⟨m', e1, _, e2⟩ := C56_loc_existing_partial cfg (by decide) (by decide) (by decide) 0 (-9) no noG 99 m df m_shows (by decide)
    (by decide) (.list [9, 7]) (.label 2) [2, 0] [1] (by decide) (by decide) (.scalar 5)
    ⟨trivial, by decide, by decide, by decide, by intro _ _ _ h; exact absurd h (by decide),
      by intro _ _ _ h; exact absurd h (by decide), by intro _ h; cases h⟩ (by intro _ h; cases h) (by decide)
  exact ⟨m', e1, by rw [e2]; decide +kernel⟩

/-- **C56, violated.** `df.reindex(index=pd.Index([5]), columns=[1])` raises `AttributeError`: whether `columns` has a method
    `equals` is decided by looking at `index`. -/
theorem C56_mixed_arguments_raise :
    m.reindex cfg (-1) (some ⟨true, [5]⟩) (some ⟨false, [1]⟩) = none ∧
    df.reindex (-1) (some [5]) (some [1]) = some { index := [5], columns := [1], rows := [[11]] } := by decide +kernel

/-- **C56, violated.** `df.loc[4, [1]] = 5` adds a row with `0` in the other columns, where pandas puts the missing value. -/
theorem C56_new_row_filled_with_zero :
    lany m (.label 4) (.list [1]) (.scalar 5)
      = some { index := [7, 5, 9, 4], columns := [1, 2, 3], rows := [[10, 20, 30], [11, 21, 31], [12, 22, 32], [5, 0, 0]] } ∧
    df.reindexIndex (-9) [7, 5, 9, 4]
      = some { index := [7, 5, 9, 4], columns := [1, 2, 3], rows := [[10, 20, 30], [11, 21, 31], [12, 22, 32], [-9, -9, -9]] } := by
  decide +kernel

/-- **C56, violated.** `df.loc[4, 1] = 5` and `df.loc[5, 8] = 5` raise `KeyError`; pandas adds the row or the column. -/
theorem C56_new_cell_raises :
    lany m (.label 4) (.label 1) (.scalar 5) = none ∧ lany m (.label 5) (.label 8) (.scalar 5) = none := by decide +kernel

/-- **C56, violated.** `df.loc[5, [8]] = 5` raises `KeyError`: the columns are not looked at when the row is a single label. -/
theorem C56_row_label_hides_new_column : lany m (.label 5) (.list [8]) (.scalar 5) = none := by decide +kernel

/-- **C56, violated.** `df.loc[4, :] = 5` raises when row labels repeat; pandas adds a row. -/
theorem C56_new_row_beside_repeated_labels :
    lany ⟨⟨[[⟨[7, 7], [1], [[10], [11]]⟩]], none, none, none, none⟩, false, false⟩ (.label 4) .all (.scalar 5) = none := by decide +kernel

/-- **C56, violated.** `df.loc[[], 1] = 5` raises `KeyError`; pandas assigns nothing. -/
theorem C56_no_rows_raise :
    lany m (.list []) (.label 1) (.scalar 5) = none ∧ LKey.addressed df.index (.list []) = some [] := by decide +kernel

end ReindexDemo
