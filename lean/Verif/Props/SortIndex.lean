import Verif.Lemmas.SortIndex

variable {L ι κ α : Type}

/-- **C57.** `df.sort_index(axis=0, ascending=..., ignore_index=..., ...)`: the rows in the order pandas gives to all the row
    labels, and no row loses its label, whatever the partitioning. -/
theorem C57_sort_index [DecidableEq L] (cfg : Cfg) (hp : 1 ≤ cfg.nPartitions) (hmr : 1 ≤ cfg.minRow) (nan : α)
    (order : Bool → List L → List Nat) (num : Nat → L) (m : LFrame L L α) (df : Frame L L α) (h : m.Shows df) (asc ignoreIndex : Bool) :
    ∃ m', m.sortIndex cfg order num true (some asc) ignoreIndex = some m' ∧
      m'.Shows (df.sortIndex (order asc) (if ignoreIndex then some num else none)) ∧
      m'.toPandas nan = some (df.sortIndex (order asc) (if ignoreIndex then some num else none)) := by
  obtain ⟨m', e1, e2⟩ := sortRows_shows cfg hp hmr (order asc) (if ignoreIndex then some num else none) h
  exact ⟨m', by unfold LFrame.sortIndex; rw [if_neg (by simp), if_pos rfl]; exact e1, e2, (e2.observed nan).1⟩

/-- **C57.** `df.sort_index(axis=1, ...)`: the same for the columns. -/
theorem C57_sort_columns [DecidableEq L] (cfg : Cfg) (hp : 1 ≤ cfg.nPartitions) (hmc : 1 ≤ cfg.minCol) (nan : α)
    (order : Bool → List L → List Nat) (num : Nat → L) (m : LFrame L L α) (df : Frame L L α) (h : m.Shows df) (asc ignoreIndex : Bool) :
    ∃ m', m.sortIndex cfg order num false (some asc) ignoreIndex = some m' ∧
      m'.Shows (df.sortColumns (order asc) (if ignoreIndex then some num else none)) ∧
      m'.toPandas nan = some (df.sortColumns (order asc) (if ignoreIndex then some num else none)) := by
  obtain ⟨m', e1, e2⟩ := sortCols_shows cfg hp hmc (order asc) (if ignoreIndex then some num else none) h
  exact ⟨m', by unfold LFrame.sortIndex; rw [if_neg (by simp), if_neg (by simp)]; exact e1, e2, (e2.observed nan).1⟩

/-- **C57.** `ascending=None` raises, as in pandas. -/
theorem C57_ascending_none [DecidableEq L] (cfg : Cfg) (order : Bool → List L → List Nat) (num : Nat → L) (axis0 ignoreIndex : Bool)
    (m : LFrame L L α) : m.sortIndex cfg order num axis0 none ignoreIndex = none := by
  unfold LFrame.sortIndex; rw [if_pos rfl]

/-- **C57.** With a stable sort (`kind="stable"`) by a total order `le`: the labels of the result are in order, its labelled rows
    are those of the frame, and rows with equal labels keep their order. -/
theorem C57_sorted [DecidableEq L] (cfg : Cfg) (hp : 1 ≤ cfg.nPartitions) (hmr : 1 ≤ cfg.minRow) (nan : α) (le : L → L → Bool)
    (htr : ∀ a b c, le a b → le b c → le a c) (htot : ∀ a b, le a b ∨ le b a) (num : Nat → L) (m : LFrame L L α) (df : Frame L L α)
    (h : m.Shows df) :
    ∃ m' out, m.sortIndex cfg (fun asc => stableOrder fun a b => if asc then le a b else le b a) num true (some true) false = some m' ∧
      m'.toPandas nan = some out ∧ out.columns = df.columns ∧ out.index.Pairwise (fun a b => le a b = true) ∧
      (out.index.zip out.rows).Perm (df.index.zip df.rows) ∧
      ∀ x, ((out.index.zip out.rows).filter fun p => le p.1 x && le x p.1) = (df.index.zip df.rows).filter fun p => le p.1 x && le x p.1 := by
  obtain ⟨m', e1, e2, e3⟩ := C57_sort_index cfg hp hmr nan (fun asc => stableOrder fun a b => if asc then le a b else le b a) num m df h true false
  refine ⟨m', _, e1, e3, rfl, ?_⟩
  have hz := stableOrder_zip le df.index df.rows h.wf.rows_len
  have hi : takeList df.index (stableOrder le df.index) = (sortBy (fun x y : L × List α => le x.1 y.1) (df.index.zip df.rows)).map (·.1) := by
    rw [← hz, List.map_fst_zip]
    rw [takeList_length_congr h.wf.rows_len]; exact Nat.le_refl _
  show (takeList df.index (stableOrder le df.index)).Pairwise _ ∧
    ((takeList df.index (stableOrder le df.index)).zip (takeList df.rows (stableOrder le df.index))).Perm _ ∧ ∀ x,
    ((takeList df.index (stableOrder le df.index)).zip (takeList df.rows (stableOrder le df.index))).filter _ = _
  refine ⟨?_, ?_, ?_⟩
  · rw [hi, List.pairwise_map]
    exact sortBy_pairwise (le := fun x y : L × List α => le x.1 y.1) (fun a b c => htr a.1 b.1 c.1) (fun a b => htot a.1 b.1) _
  · rw [hz]; exact sortBy_perm _ _
  · intro x
    rw [hz]
    apply sortBy_filter
    intro a _ b _ ha hb
    simp only [Bool.and_eq_true] at ha hb
    exact htr _ _ _ ha.1 hb.2

/-- **C58.** `df.nlargest(n, columns, keep)` and `nsmallest` on a frame held in one column of blocks: the rows pandas picks, in its
    order, and an error exactly when a key column does not exist.  Partial: not for a frame held in several columns of blocks
    (see `C58_nsort_wide_raises`). -/
theorem C58_nsort_partial [DecidableEq ι] [DecidableEq κ] (cfg : Cfg) (hp : 1 ≤ cfg.nPartitions) (hmr : 1 ≤ cfg.minRow) (nan : α)
    (choose : List (List α) → List Nat) (keys : List κ) (m : LFrame ι κ α) (df : Frame ι κ α) (h : m.Shows df)
    (hw : gridWidth m.parts ≤ 1) :
    match df.nsort choose keys with
    | none => m.nsort cfg choose keys = none
    | some df' => ∃ m', m.nsort cfg choose keys = some m' ∧ m'.Shows df' ∧ m'.toPandas nan = some df' := by
  unfold LFrame.nsort
  rw [h.getColumns]
  cases e : df.nsort choose keys with
  | none =>
    obtain ⟨m1, rl, w, e1, hc, hpp, hrl⟩ := synced_single h hw
    obtain rfl : w = df.ncols := by simpa using hc.cw_sum
    show LFrame.applyFullColumns cfg _ none (some df.columns) m = none
    unfold LFrame.applyFullColumns
    rw [e1, Option.bind_some, hpp, mapAxis_rows_fails cfg h.wf hc true none none (q := (0, df.ncols)) (by rw [sliceBounds_single]; simp)
      (by simp only; rw [Frame.ilocCols_all h.wf]; exact e)]
    rfl
  | some df' =>
    have e2 := e
    unfold Frame.nsort at e2
    split at e2
    · rw [Option.some.injEq] at e2
      subst e2
      obtain ⟨m', h1, h2⟩ := applyFullColumns_take cfg hp hmr h hw (func := fun b => b.nsort choose keys) _ e df.columns rfl
      exact ⟨m', h1, h2, (h2.observed nan).1⟩
    · cases e2

/-- **C58 does not hold for wide frames.** With two columns of blocks or more, `nlargest` and `nsmallest` always raise: a column
    partition without the key column has nothing to choose the rows by. -/
theorem C58_nsort_wide_raises [DecidableEq ι] [DecidableEq κ] (cfg : Cfg) (choose : List (List α) → List Nat) (keys : List κ) (hk : keys ≠ [])
    (m : LFrame ι κ α) (df : Frame ι κ α) (h : m.Shows df) (hf : m.defIndex = false ∧ m.defColumns = false) (hn : df.columns.Nodup)
    (hw : 2 ≤ gridWidth m.parts) : m.nsort cfg choose keys = none := by
  obtain ⟨df0, rl, cw, hwf0, hrows, hcl, hc, hpp, hrl, hcw, hdi, hdc⟩ := h.blocks
  obtain rfl : df0 = df := by
    cases df0; cases df; simp only [Frame.mk.injEq]; exact ⟨hdi hf.1, hdc hf.2, hrows⟩
  have hs : m.synced = some m := by unfold LFrame.synced; rw [hf.1, hf.2]; rfl
  unfold LFrame.nsort LFrame.applyFullColumns
  rw [hs, Option.bind_some, hpp]
  rw [hpp, gridWidth_cut hc.rl_ne] at hw
  obtain ⟨k, hk'⟩ := List.exists_mem_of_ne_nil _ hk
  match cw, hw, hc with
  | a :: b :: t, _, hc =>
    have hb : sliceBounds (a :: b :: t) = (0, a) :: (a, a + b) :: (sliceBounds t).map (fun q => (q.1 + b + a, q.2 + b + a)) := by
      rw [sliceBounds_cons', sliceBounds_cons']
      simp [Nat.add_comm, Nat.add_left_comm]
    have hnone : ∀ c d, k ∉ pySlice df0.columns c d → (df0.ilocCols c d).nsort choose keys = none := by
      intro c d hc
      unfold Frame.nsort
      rw [if_neg]
      intro hall
      exact hc (hall k hk')
    by_cases h1 : k ∈ pySlice df0.columns 0 a
    · rw [mapAxis_rows_fails cfg hwf0 hc true none none (q := (a, a + b)) (by rw [hb]; simp)
        (hnone _ _ fun h2 => nodup_slices hn h1 h2)]
      rfl
    · rw [mapAxis_rows_fails cfg hwf0 hc true none none (q := (0, a)) (by rw [hb]; simp) (hnone _ _ h1)]
      rfl

/-- **C58.** `nlargest` and `nsmallest` of a Series without a name. -/
theorem C58_nsort_series [DecidableEq ι] (cfg : Cfg) (hp : 1 ≤ cfg.nPartitions) (hmr : 1 ≤ cfg.minRow) (nan : α)
    (choose : List α → List Nat) (m : LFrame ι String α) (df : Frame ι String α) (h : m.Shows df) (hw : gridWidth m.parts ≤ 1)
    (h1 : df.columns = [unnamed]) :
    ∃ m', m.nsortSeries cfg choose = some m' ∧ m'.Shows (df.takeRows (choose (df.column 0))) ∧
      m'.toPandas nan = some (df.takeRows (choose (df.column 0))) := by
  obtain ⟨m', e1, e2⟩ := applyFullColumns_take cfg hp hmr h hw
    (func := fun b => if b.columns.length = 1 then some (b.takeRows (choose (b.column 0))) else none) (choose (df.column 0))
    (if_pos (by rw [h1]; rfl)) df.columns rfl
  rw [h1] at e1
  exact ⟨m', e1, e2, (e2.observed nan).1⟩

/-- **C58.** `df.first_valid_index()`: the label of the first row with a cell that is not missing, whatever the partitioning.
    Partial: only if every column has such a cell (see `C58_first_valid_raises`). -/
theorem C58_first_valid_index_partial [DecidableEq ι] [DecidableEq κ] (cfg : Cfg) (hp : 1 ≤ cfg.nPartitions) (hmr : 1 ≤ cfg.minRow)
    (hmc : 1 ≤ cfg.minCol) (isna : α → Bool) (m : LFrame ι κ α) (df : Frame ι κ α) (h : m.Shows df) (hpos : 0 < df.ncols)
    (hv : ∀ c ∈ df.cols, ∃ x ∈ c, isna x = false) :
    m.firstValidIndex cfg isna = df.firstValidIndex isna ∧ (df.firstValidIndex isna).isSome = true := by
  have hall : (df.cols.map fun c => (firstValidPos isna c).map Int.ofNat).all Option.isSome = true := by
    simp only [List.all_map, List.all_eq_true, Function.comp, Option.isSome_map]
    intro c hc
    obtain ⟨x, hx, hn⟩ := hv c hc
    unfold firstValidPos
    rw [List.findIdx?_isSome]
    exact List.any_eq_true.2 ⟨x, hx, by rw [hn]; rfl⟩
  refine ⟨?_, ?_⟩
  · unfold LFrame.firstValidIndex
    rw [validIndex_eq cfg hp hmr hmc h hpos (firstValidPos isna) (minOp true) (Pandas.min true)
      (fun bs => minOp_law (Or.inl rfl) (lens := bs.map List.length) bs rfl), if_pos hall]
    exact firstValid_eq h.wf isna hpos hall
  · have hc : df.column 0 ∈ df.cols := List.mem_map.2 ⟨0, by simpa using hpos, rfl⟩
    obtain ⟨x, hx, hn⟩ := hv _ hc
    obtain ⟨i, hi⟩ := List.mem_iff_getElem?.1 hx
    have hi' := hi
    rw [h.wf.column_getElem? hpos] at hi'
    cases hr : df.rows[i]? with
    | none => rw [hr] at hi'; cases hi'
    | some r =>
      have hany := (row_any_iff h.wf (fun v => !isna v) hr).2 ⟨_, hc, x, hi, by rw [hn]; rfl⟩
      obtain ⟨hlt, e⟩ := List.getElem?_eq_some_iff.1 hr
      have hlt' : i < df.index.length := by rw [← h.wf.rows_len]; exact hlt
      unfold Frame.firstValidIndex
      rw [Option.isSome_map, List.find?_isSome]
      exact ⟨(df.index[i], r), List.mem_iff_getElem.2 ⟨i, by simp; omega, by simp [e]⟩, hany⟩

/-- **C58.** `df.last_valid_index()` -/
theorem C58_last_valid_index_partial [DecidableEq ι] [DecidableEq κ] (cfg : Cfg) (hp : 1 ≤ cfg.nPartitions) (hmr : 1 ≤ cfg.minRow)
    (hmc : 1 ≤ cfg.minCol) (isna : α → Bool) (m : LFrame ι κ α) (df : Frame ι κ α) (h : m.Shows df) (hpos : 0 < df.ncols)
    (hv : ∀ c ∈ df.cols, ∃ x ∈ c, isna x = false) :
    m.lastValidIndex cfg isna = df.lastValidIndex isna := by
  have hall : (df.cols.map fun c => (lastValidPos isna c).map Int.ofNat).all Option.isSome = true := by
    simp only [List.all_map, List.all_eq_true, Function.comp, Option.isSome_map]
    intro c hc
    obtain ⟨x, hx, hn⟩ := hv c hc
    unfold lastValidPos
    rw [Option.isSome_map, List.findIdx?_isSome]
    exact List.any_eq_true.2 ⟨x, by simpa using hx, by rw [hn]; rfl⟩
  unfold LFrame.lastValidIndex
  rw [validIndex_eq cfg hp hmr hmc h hpos (lastValidPos isna) (maxOp true) (Pandas.max true)
    (fun bs => maxOp_law (Or.inl rfl) (lens := bs.map List.length) bs rfl), if_pos hall]
  exact lastValid_eq h.wf isna hpos hall

/-- **C58 does not hold if a column has no valid cell**: the method raises, although other columns may have one. -/
theorem C58_first_valid_raises [DecidableEq ι] [DecidableEq κ] (cfg : Cfg) (hp : 1 ≤ cfg.nPartitions) (hmr : 1 ≤ cfg.minRow)
    (hmc : 1 ≤ cfg.minCol) (isna : α → Bool) (m : LFrame ι κ α) (df : Frame ι κ α) (h : m.Shows df)
    (hv : ∃ c ∈ df.cols, ∀ x ∈ c, isna x = true) : m.firstValidIndex cfg isna = none := by
  obtain ⟨c, hc, hx⟩ := hv
  have hpos : 0 < df.ncols := by
    obtain ⟨j, hj, _⟩ := List.mem_map.1 hc
    have : j < df.ncols := by simpa using hj
    omega
  unfold LFrame.firstValidIndex
  rw [validIndex_eq cfg hp hmr hmc h hpos (firstValidPos isna) (minOp true) (Pandas.min true)
    (fun bs => minOp_law (Or.inl rfl) (lens := bs.map List.length) bs rfl), if_neg]
  intro hall
  have := List.all_eq_true.1 hall _ (List.mem_map.2 ⟨c, hc, rfl⟩)
  rw [Option.isSome_map] at this
  unfold firstValidPos at this
  rw [List.findIdx?_isSome] at this
  obtain ⟨x, h1, h2⟩ := List.any_eq_true.1 this
  rw [hx x h1] at h2
  cases h2

namespace SortIndexDemo

/-- a frame of 4 rows and 3 columns with a repeated row label; 0 stands for a missing cell -/
def df : Frame Int Int Int := { index := [7, 5, 9, 5], columns := [3, 1, 2], rows := [[0, 0, 0], [11, 0, 31], [12, 22, 32], [0, 23, 0]] }

/-- held in 4 blocks, nothing cached -/
def m : LFrame Int Int Int := ⟨⟨df.cut [2, 2] [2, 1], none, none, none, none⟩, false, false⟩

theorem m_shows : m.Shows df :=
  represents_shows (m := ⟨df.cut [2, 2] [2, 1], none, none, none, none⟩) ⟨by constructor <;> decide, ⟨[2, 2], [2, 1],
    by constructor <;> decide, rfl, Or.inl rfl, Or.inl rfl⟩, Or.inl rfl, Or.inl rfl⟩

/-- held in 2 blocks, one above the other -/
def n : LFrame Int Int Int := ⟨⟨df.cut [2, 2] [3], none, none, none, none⟩, false, false⟩

theorem n_shows : n.Shows df :=
  represents_shows (m := ⟨df.cut [2, 2] [3], none, none, none, none⟩) ⟨by constructor <;> decide, ⟨[2, 2], [3],
    by constructor <;> decide, rfl, Or.inl rfl, Or.inl rfl⟩, Or.inl rfl, Or.inl rfl⟩

def cfg : Cfg := ⟨4, 1, 1⟩
def up (asc : Bool) : List Int → List Nat := stableOrder fun a b => if asc then decide (a ≤ b) else decide (b ≤ a)
def num (i : Nat) : Int := i
def isna (x : Int) : Bool := x == 0

-- rows with the same label keep their order
example : ∃ m', m.sortIndex cfg up num true (some true) false = some m' ∧ m'.toPandas 0 = some
    ⟨[5, 5, 7, 9], [3, 1, 2], [[11, 0, 31], [0, 23, 0], [0, 0, 0], [12, 22, 32]]⟩ := by
  obtain ⟨m', e1, _, e3⟩ := C57_sort_index cfg (by decide) (by decide) 0 up num m df m_shows true false
  exact ⟨m', e1, by rw [e3]; decide +kernel⟩

-- descending, with new labels
example : ∃ m', m.sortIndex cfg up num true (some false) true = some m' ∧ m'.toPandas 0 = some
    ⟨[0, 1, 2, 3], [3, 1, 2], [[12, 22, 32], [0, 0, 0], [11, 0, 31], [0, 23, 0]]⟩ := by
  obtain ⟨m', e1, _, e3⟩ := C57_sort_index cfg (by decide) (by decide) 0 up num m df m_shows false true
  exact ⟨m', e1, by rw [e3]; decide +kernel⟩

example : ∃ m', m.sortIndex cfg up num false (some true) false = some m' ∧ m'.toPandas 0 = some
    ⟨[7, 5, 9, 5], [1, 2, 3], [[0, 0, 0], [0, 31, 11], [22, 32, 12], [23, 0, 0]]⟩ := by
  obtain ⟨m', e1, _, e3⟩ := C57_sort_columns cfg (by decide) (by decide) 0 up num m df m_shows true false
  exact ⟨m', e1, by rw [e3]; decide +kernel⟩

-- the order of the integers meets the hypotheses of `C57_sorted`
example : (∀ a b c : Int, decide (a ≤ b) → decide (b ≤ c) → decide (a ≤ c)) ∧ (∀ a b : Int, decide (a ≤ b) ∨ decide (b ≤ a)) := by
  simp only [decide_eq_true_eq]; exact ⟨fun a b c => by omega, fun a b => by omega⟩

/-- the positions of the two largest cells of the first key column -/
def two (cs : List (List Int)) : List Nat :=
  (stableOrder (fun a b : Int => decide (b ≤ a)) (cs.headD [])).take 2

example : ∃ m', n.nsort cfg two [1] = some m' ∧ m'.toPandas 0 = some ⟨[5, 9], [3, 1, 2], [[0, 23, 0], [12, 22, 32]]⟩ := by
  have := C58_nsort_partial cfg (by decide) (by decide) 0 two [1] n df n_shows (by decide)
  rw [show df.nsort two [1] = some ⟨[5, 9], [3, 1, 2], [[0, 23, 0], [12, 22, 32]]⟩ by decide +kernel] at this
  obtain ⟨m', e1, _, e3⟩ := this
  exact ⟨m', e1, e3⟩

example : n.nsort cfg two [1, 8] = none := by
  have := C58_nsort_partial cfg (by decide) (by decide) 0 two [1, 8] n df n_shows (by decide)
  rw [show df.nsort two [1, 8] = none by decide +kernel] at this
  exact this

/-- **C58, a frame where modin differs from pandas**: the same frame, with its columns divided. -/
theorem C58_wide_frame_raises : m.nsort cfg two [1] = none ∧ (df.nsort two [1]).isSome = true :=
  ⟨C58_nsort_wide_raises cfg two [1] (by decide) m df m_shows ⟨rfl, rfl⟩ (by decide) (by decide), by decide +kernel⟩

/-- a Series without a name -/
def s : Frame Int String Int := ⟨[7, 5, 9], [unnamed], [[1], [3], [2]]⟩
def sm : LFrame Int String Int := ⟨⟨s.cut [2, 1] [1], none, none, none, none⟩, false, false⟩
theorem sm_shows : sm.Shows s :=
  represents_shows (m := ⟨s.cut [2, 1] [1], none, none, none, none⟩) ⟨by constructor <;> decide, ⟨[2, 1], [1],
    by constructor <;> decide, rfl, Or.inl rfl, Or.inl rfl⟩, Or.inl rfl, Or.inl rfl⟩

example : ∃ m', sm.nsortSeries cfg (fun c => two [c]) = some m' ∧ m'.toPandas 0 = some ⟨[5, 9], [unnamed], [[3], [2]]⟩ := by
  obtain ⟨m', e1, _, e3⟩ := C58_nsort_series cfg (by decide) (by decide) 0 (fun c => two [c]) sm s sm_shows (by decide) rfl
  exact ⟨m', e1, by rw [e3]; decide +kernel⟩

-- the first row has only missing cells, and the first column ends with one
example : m.firstValidIndex cfg isna = some 5 ∧ m.lastValidIndex cfg isna = some 5 ∧
    df.firstValidIndex isna = some 5 ∧ df.lastValidIndex isna = some 5 := by
  rw [(C58_first_valid_index_partial cfg (by decide) (by decide) (by decide) isna m df m_shows (by decide) (by decide)).1,
    C58_last_valid_index_partial cfg (by decide) (by decide) (by decide) isna m df m_shows (by decide) (by decide)]
  decide +kernel

/-- a frame with an empty column -/
def e : Frame Int Int Int := { index := [7, 5], columns := [1, 2], rows := [[0, 0], [0, 4]] }
def em : LFrame Int Int Int := ⟨⟨e.cut [2] [1, 1], none, none, none, none⟩, false, false⟩
theorem em_shows : em.Shows e :=
  represents_shows (m := ⟨e.cut [2] [1, 1], none, none, none, none⟩) ⟨by constructor <;> decide, ⟨[2], [1, 1],
    by constructor <;> decide, rfl, Or.inl rfl, Or.inl rfl⟩, Or.inl rfl, Or.inl rfl⟩

/-- **C58, a frame where modin differs from pandas**: `first_valid_index` raises because one column is empty. -/
theorem C58_empty_column_raises : em.firstValidIndex cfg isna = none ∧ e.firstValidIndex isna = some 5 :=
  ⟨C58_first_valid_raises cfg (by decide) (by decide) (by decide) isna em e em_shows ⟨e.column 0, by decide, by decide⟩, by decide +kernel⟩

end SortIndexDemo
