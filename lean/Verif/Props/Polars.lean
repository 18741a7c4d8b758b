import Verif.Model.Polars
import Verif.Props.Mask
import Verif.Props.Duplicated
import Verif.Props.Relabel
import Verif.Props.Equals
import Verif.Props.Reduce
/-
C99: the methods of a `modin.polars` frame give what Polars gives, and the row labels it carries have no part in it.
-/

variable {ι κ κ' α K T D L : Type}

/-- what is seen of a `modin.polars` frame: it is materialised and its row labels are left out -/
def LFrame.toPolars [DecidableEq ι] [DecidableEq κ] (nan : α) (m : LFrame ι κ α) : Option (PlFrame κ α) :=
  (m.toPandas nan).map Frame.toPolars

theorem toPolars_of_shows [DecidableEq ι] [DecidableEq κ] {m : LFrame ι κ α} {df : Frame ι κ α} (h : m.Shows df) (nan : α) :
    m.toPolars nan = some df.toPolars := by
  unfold LFrame.toPolars
  rw [(h.observed nan).1]; rfl

/-- **C99 (filter).** `df.filter(mask)` keeps the rows at the places where the mask says true, for every division of both into blocks.

    Partial: the mask must carry the row labels of the frame, as `df["a"] > 0` does (`C99_filter_foreign_labels`). -/
theorem C99_filter_partial [DecidableEq ι] [DecidableEq κ] [DecidableEq κ'] (le : ι → ι → Bool) (cfg : Cfg)
    (hp : 1 ≤ cfg.nPartitions) (hr : 1 ≤ cfg.minRow) (nan : α) (m : LFrame ι κ α) (mask : LFrame ι κ' (Option Bool))
    (df : Frame ι κ α) (kf : Frame ι κ' (Option Bool)) (vals : List Bool) (h : m.Shows df) (hk : mask.Shows kf)
    (h1 : kf.columns.length = 1) (hv : kf.rows = vals.map fun v => [some v]) (hl : kf.index = df.index) :
    (m.plFilter le cfg false nan mask).bind (·.toPolars nan) = df.toPolars.filter vals := by
  have h0 := C51_mask_partial le cfg hp hr nan m mask df kf vals h hk h1 hv (Or.inl hl)
  have hlen : vals.length = df.rows.length := by
    rw [h.wf.rows_len, ← hl, ← hk.wf.rows_len, hv, List.length_map]
  have e : df.getMask kf.index vals = some (df.pickRows vals) := by
    simp [Frame.getMask, maskFor, hl]
  rw [e] at h0
  obtain ⟨m', a, b, _⟩ := h0
  unfold LFrame.plFilter
  rw [a, Option.bind_some, toPolars_of_shows b]
  unfold PlFrame.filter
  rw [if_pos (by exact hlen)]
  rfl

theorem two_le_tally [DecidableEq K] (l : List K) (i : Nat) (hi : i < l.length) :
    2 ≤ l.countP (fun s => decide (s = l[i])) ↔ ∃ j, ∃ hj : j < l.length, j ≠ i ∧ l[j] = l[i] := by
  induction l generalizing i with
  | nil => simp at hi
  | cons x l ih =>
    cases i with
    | zero =>
      simp only [List.getElem_cons_zero]
      rw [List.countP_cons, if_pos (by simp)]
      have : 2 ≤ l.countP (fun s => decide (s = x)) + 1 ↔ 0 < l.countP (fun s => decide (s = x)) := by omega
      rw [this, List.countP_pos_iff]
      constructor
      · rintro ⟨y, hx, e⟩
        obtain ⟨j, hj, rfl⟩ := List.getElem_of_mem hx
        exact ⟨j + 1, by simp only [List.length_cons]; omega, by omega, by simpa using e⟩
      · rintro ⟨j, hj, hne, e⟩
        cases j with
        | zero => exact absurd rfl hne
        | succ j =>
          rw [List.getElem_cons_succ] at e
          exact ⟨_, List.getElem_mem _, by simpa using e⟩
    | succ i =>
      have hi' : i < l.length := by simpa using hi
      simp only [List.getElem_cons_succ]
      by_cases hx : x = l[i]
      · rw [List.countP_cons, if_pos (by simp [hx])]
        have h1 : 0 < l.countP (fun s => decide (s = l[i])) := List.countP_pos_iff.2 ⟨_, List.getElem_mem hi', by simp⟩
        constructor
        · intro _
          exact ⟨0, by simp, by omega, by simpa using hx⟩
        · intro _; omega
      · rw [List.countP_cons, if_neg (by simp [hx]), Nat.add_zero, ih i hi']
        constructor
        · rintro ⟨j, hj, hne, e⟩
          exact ⟨j + 1, by simp only [List.length_cons]; omega, by omega, by simpa using e⟩
        · rintro ⟨j, hj, hne, e⟩
          cases j with
          | zero => exact absurd (by simpa using e) hx
          | succ j => exact ⟨j, by simpa using hj, by omega, by simpa using e⟩

/-- the marks with `keep=False` say how often a row occurs -/
theorem marks_none [DecidableEq K] (keys : List K) :
    duplicatedMarks .none keys = keys.map fun k => decide (2 ≤ keys.countP fun s => decide (s = k)) := by
  unfold duplicatedMarks
  apply List.ext_getElem
  · simp
  · intro i h1 h2
    have hi : i < keys.length := by simpa using h2
    simp only [List.getElem_map, List.getElem_zipIdx, Nat.zero_add]
    rw [Bool.eq_iff_iff, List.any_eq_true, decide_eq_true_iff, two_le_tally keys i hi]
    constructor
    · rintro ⟨⟨k, j⟩, hm, e⟩
      obtain ⟨n, hn, e1⟩ := List.getElem_of_mem hm
      simp only [List.length_zipIdx] at hn
      simp only [List.getElem_zipIdx, Nat.zero_add, Prod.mk.injEq] at e1
      simp only [DupKeep.because, Bool.and_eq_true, decide_eq_true_eq] at e
      obtain ⟨rfl, rfl⟩ := e1
      exact ⟨n, hn, e.1, e.2⟩
    · rintro ⟨j, hj, hne, e⟩
      refine ⟨(keys[j], j), ?_, by simp [DupKeep.because, hne, e]⟩
      exact List.mem_iff_getElem.2 ⟨j, by simpa using hj, by simp⟩

theorem times_tally [DecidableEq K] (key : α → K) (f : PlFrame κ α) (r : List α) :
    (f.rows.map (·.map key)).countP (fun s => decide (s = r.map key)) = f.times key r := by
  unfold PlFrame.times
  rw [List.countP_map, List.countP_eq_length_filter]
  rfl

theorem times_pos [DecidableEq K] (key : α → K) (f : PlFrame κ α) {r : List α} (hr : r ∈ f.rows) : 0 < f.times key r :=
  List.length_pos_of_mem (List.mem_filter.2 ⟨hr, by simp⟩)

theorem dup_rows [DecidableEq K] (key : α → K) (df : Frame ι κ α) (hcols : 0 < df.ncols) :
    (df.duplicated unnamed key .none).rows = (df.toPolars.isDuplicated key).map ([·]) := by
  unfold Frame.duplicated
  rw [if_neg (by simp only [Frame.ncols] at hcols; omega)]
  simp only [marks_none, PlFrame.isDuplicated, Frame.toPolars, List.map_map]
  apply List.map_congr_left
  intro r _
  have := times_tally key (⟨df.columns, df.rows⟩ : PlFrame κ α) r
  simp only at this
  simp only [Function.comp, this]
  rfl

/-- **C99 (is_duplicated).** Marks the rows that occur more than once, whatever the row labels and the division into blocks.

    Partial: at least one column, one row if there are several block columns, and digests that tell rows apart (see C41). -/
theorem C99_is_duplicated_partial [DecidableEq ι] [DecidableEq κ] [DecidableEq K] [DecidableEq D] (cfg : Cfg) (hp : 1 ≤ cfg.nPartitions)
    (hr : 1 ≤ cfg.minRow) (hc : 1 ≤ cfg.minCol) (key : α → K) (text : α → T) (digest : List T → D)
    (m : LFrame ι κ α) (df : Frame ι κ α) (h : m.Shows df) (hcols : 0 < df.ncols) (hrows : gridWidth m.parts ≤ 1 ∨ 0 < df.nrows)
    (hdig : ∀ r ∈ df.rows, ∀ s ∈ df.rows, r.map key = s.map key ↔ digest (r.map text) = digest (s.map text)) :
    ((m.plIsDuplicated cfg key text digest).bind (·.toPolars false)).map (·.rows) =
      some ((df.toPolars.isDuplicated key).map ([·])) := by
  obtain ⟨m', a, b, _⟩ := C41_duplicated_partial cfg hp hr hc key text digest .none m df h hcols hrows hdig
  unfold LFrame.plIsDuplicated
  rw [a, Option.bind_some, toPolars_of_shows b, Option.map_some]
  simp only [Frame.toPolars, dup_rows key df hcols]

theorem isUnique_not [DecidableEq K] (key : α → K) (f : PlFrame κ α) : f.isUnique key = (f.isDuplicated key).map fun b => !b := by
  unfold PlFrame.isUnique PlFrame.isDuplicated
  rw [List.map_map]
  apply List.map_congr_left
  intro r hr
  have := times_pos key f hr
  simp only [Function.comp]
  rw [Bool.eq_iff_iff]
  simp
  omega

theorem isUnique_shows [DecidableEq ι] [DecidableEq κ] [DecidableEq K] [DecidableEq D] (cfg : Cfg) (hp : 1 ≤ cfg.nPartitions)
    (hr : 1 ≤ cfg.minRow) (hc : 1 ≤ cfg.minCol) (dyn : Bool) (cpu : Nat) (key : α → K) (text : α → T) (digest : List T → D)
    {m : LFrame ι κ α} {df : Frame ι κ α} (h : m.Shows df) (hcols : 0 < df.ncols) (hrows : gridWidth m.parts ≤ 1 ∨ 0 < df.nrows)
    (hdig : ∀ r ∈ df.rows, ∀ s ∈ df.rows, r.map key = s.map key ↔ digest (r.map text) = digest (s.map text)) :
    ∃ u d, m.plIsUnique cfg dyn cpu key text digest = some u ∧ u.Shows d ∧ d.columns = [unnamed] ∧
      d.rows = (df.toPolars.isUnique key).map ([·]) := by
  obtain ⟨m', a, b, _⟩ := C41_duplicated_partial cfg hp hr hc key text digest .none m df h hcols hrows hdig
  obtain ⟨u, c, e⟩ := mapCells_shows cfg dyn cpu (fun x : Bool => !x) b
  refine ⟨u, _, ?_, e, ?_, ?_⟩
  · unfold LFrame.plIsUnique
    rw [a, Option.bind_some, c]
  · exact duplicated_columns ..
  · show ((df.duplicated unnamed key .none).rows).map (·.map fun b => !b) = _
    rw [dup_rows key df hcols, isUnique_not, List.map_map, List.map_map]
    rfl

/-- **C99 (is_unique).** Marks the rows that occur once.  Partial: as `C99_is_duplicated_partial`. -/
theorem C99_is_unique_partial [DecidableEq ι] [DecidableEq κ] [DecidableEq K] [DecidableEq D] (cfg : Cfg) (hp : 1 ≤ cfg.nPartitions)
    (hr : 1 ≤ cfg.minRow) (hc : 1 ≤ cfg.minCol) (dyn : Bool) (cpu : Nat) (key : α → K) (text : α → T) (digest : List T → D)
    (m : LFrame ι κ α) (df : Frame ι κ α) (h : m.Shows df) (hcols : 0 < df.ncols) (hrows : gridWidth m.parts ≤ 1 ∨ 0 < df.nrows)
    (hdig : ∀ r ∈ df.rows, ∀ s ∈ df.rows, r.map key = s.map key ↔ digest (r.map text) = digest (s.map text)) :
    ((m.plIsUnique cfg dyn cpu key text digest).bind (·.toPolars false)).map (·.rows) =
      some ((df.toPolars.isUnique key).map ([·])) := by
  obtain ⟨u, d, a, b, _, e⟩ := isUnique_shows cfg hp hr hc dyn cpu key text digest h hcols hrows hdig
  rw [a, Option.bind_some, toPolars_of_shows b, Option.map_some]
  simp only [Frame.toPolars, e]

/-- `n_unique` counts the rows that occur exactly once -/
theorem C99_n_unique_counts_single_rows [DecidableEq ι] [DecidableEq κ] [DecidableEq K] [DecidableEq D] (cfg : Cfg)
    (hp : 1 ≤ cfg.nPartitions) (hr : 1 ≤ cfg.minRow) (hc : 1 ≤ cfg.minCol) (dyn : Bool) (cpu : Nat) (key : α → K) (text : α → T)
    (digest : List T → D) (m : LFrame ι κ α) (df : Frame ι κ α) (h : m.Shows df) (hcols : 0 < df.ncols)
    (hrows : gridWidth m.parts ≤ 1 ∨ 0 < df.nrows)
    (hdig : ∀ r ∈ df.rows, ∀ s ∈ df.rows, r.map key = s.map key ↔ digest (r.map text) = digest (s.map text)) :
    m.plNUnique cfg dyn cpu key text digest = some ((df.toPolars.isUnique key).count true) := by
  obtain ⟨u, d, a, b, hcol, hrow⟩ := isUnique_shows cfg hp hr hc dyn cpu key text digest h hcols hrows hdig
  obtain ⟨s, e1, e2⟩ := operation_shows b (op := fun u1 => treeReduceOp cfg (fun c : List Bool => c.count true) (fun c : List Nat => c.sum) u1)
    (df' := d.reduceColumns unnamed fun c => c.count true) (fun m1 hm1 =>
      treeReduceOp_spec cfg hp hr hm1 (by simp [Frame.ncols, hcol]) ⟨fun c : List Bool => c.count true, fun c : List Nat => c.sum⟩ _
        (fun bs _ => by simp [List.count_flatten]))
  unfold LFrame.plNUnique
  rw [a, Option.bind_some, e1, Option.bind_some, (e2.observed 0).1, Option.bind_some]
  have hcell : (List.map (fun x : Bool => [x]) (df.toPolars.isUnique key)).filterMap (·[0]?) = df.toPolars.isUnique key := by
    rw [List.filterMap_map]
    induction df.toPolars.isUnique key with
    | nil => rfl
    | cons x l ih => simpa using ih
  have hcol0 : d.column 0 = df.toPolars.isUnique key := by
    unfold Frame.column; rw [hrow, hcell]
  simp [onlyValue, Frame.reduceColumns, Frame.cols, Frame.ncols, hcol, hcol0]

theorem eraseDups_nodup {X : Type} [BEq X] [LawfulBEq X] : ∀ (l : List X), l.Nodup → l.eraseDups = l
  | [], _ => rfl
  | x :: l, h => by
    rw [List.nodup_cons] at h
    rw [List.eraseDups_cons, List.filter_eq_self.mpr, eraseDups_nodup l h.2]
    intro y hy
    simp only [Bool.not_eq_true', beq_eq_false_iff_ne, ne_eq]
    rintro rfl
    exact h.1 hy

theorem nUnique_nodup [DecidableEq K] (key : α → K) (f : PlFrame κ α) (h : (f.rows.map (·.map key)).Nodup) :
    f.nUnique key = f.rows.length := by
  unfold PlFrame.nUnique
  rw [eraseDups_nodup _ h, List.length_map]

/-- **C99 (n_unique).** Partial: no row may occur twice (`C99_n_unique_wrong`). -/
theorem C99_n_unique_partial [DecidableEq ι] [DecidableEq κ] [DecidableEq K] [DecidableEq D] (cfg : Cfg) (hp : 1 ≤ cfg.nPartitions)
    (hr : 1 ≤ cfg.minRow) (hc : 1 ≤ cfg.minCol) (dyn : Bool) (cpu : Nat) (key : α → K) (text : α → T) (digest : List T → D)
    (m : LFrame ι κ α) (df : Frame ι κ α) (h : m.Shows df) (hcols : 0 < df.ncols) (hrows : gridWidth m.parts ≤ 1 ∨ 0 < df.nrows)
    (hdig : ∀ r ∈ df.rows, ∀ s ∈ df.rows, r.map key = s.map key ↔ digest (r.map text) = digest (s.map text))
    (hone : (df.rows.map (·.map key)).Nodup) :
    m.plNUnique cfg dyn cpu key text digest = some (df.toPolars.nUnique key) := by
  rw [C99_n_unique_counts_single_rows cfg hp hr hc dyn cpu key text digest m df h hcols hrows hdig, nUnique_nodup key _ hone]
  have hall : ∀ b ∈ df.toPolars.isUnique key, true = b := by
    intro b hb
    obtain ⟨r, hr, rfl⟩ := List.mem_map.1 hb
    have h1 := times_pos key df.toPolars hr
    rw [eq_comm, decide_eq_true_iff]
    apply Nat.le_antisymm _ h1
    apply Nat.le_of_not_lt
    intro h2
    rw [← times_tally] at h2
    obtain ⟨i, hi, e⟩ := List.getElem_of_mem (List.mem_map_of_mem (f := fun x : List α => x.map key) hr)
    rw [← e] at h2
    obtain ⟨j, hj, hne, e2⟩ := (two_le_tally _ i hi).1 h2
    have hpw := List.pairwise_iff_getElem.1 hone
    rcases Nat.lt_or_gt_of_ne hne with hlt | hlt
    · exact hpw j i hj hi hlt e2
    · exact hpw i j hi hj hlt e2.symm
  rw [List.count_eq_length.2 hall, PlFrame.isUnique, List.length_map]

/-- **C99 (max_horizontal, also `max(axis=1)`).** The largest value of every row, for every division into blocks.

    Partial: at least one row. -/
theorem C99_max_horizontal_partial [DecidableEq ι] [DecidableEq κ] (cfg : Cfg) (hp : 1 ≤ cfg.nPartitions) (hc : 1 ≤ cfg.minCol)
    (m : LFrame ι κ (Option Int)) (df : Frame ι κ (Option Int)) (h : m.Shows df) (hpos : 0 < df.nrows) :
    ((m.plMaxHorizontal cfg).bind (·.toPolars none)).map (·.rows) = some (df.toPolars.maxHorizontal.map ([·])) ∧
    ((m.plMax1 cfg).bind (·.toPolars none)).map (·.rows) = some (df.toPolars.maxHorizontal.map ([·])) := by
  have : ((m.plMaxHorizontal cfg).bind (·.toPolars none)).map (·.rows) = some (df.toPolars.maxHorizontal.map ([·])) := by
    obtain ⟨r, e1, e2⟩ := operation_shows h (op := fun m1 => treeReduceOp1 cfg (maxOp true).map (maxOp true).reduce m1)
      (df' := df.reduceRows "__reduced__" (Pandas.max true)) (fun m1 hm1 => C14_max_rows_partial cfg hp hm1 hc hpos true (Or.inl rfl))
    unfold LFrame.plMaxHorizontal
    rw [e1, Option.bind_some, toPolars_of_shows e2, Option.map_some]
    simp [Frame.toPolars, Frame.reduceRows, PlFrame.maxHorizontal]
  exact ⟨this, this⟩

/-- **C99 (min_horizontal).** Partial: at least one row; `min(axis=1)` is something else (`C99_min_axis1_is_max`). -/
theorem C99_min_horizontal_partial [DecidableEq ι] [DecidableEq κ] (cfg : Cfg) (hp : 1 ≤ cfg.nPartitions) (hc : 1 ≤ cfg.minCol)
    (m : LFrame ι κ (Option Int)) (df : Frame ι κ (Option Int)) (h : m.Shows df) (hpos : 0 < df.nrows) :
    ((m.plMinHorizontal cfg).bind (·.toPolars none)).map (·.rows) = some (df.toPolars.minHorizontal.map ([·])) := by
  obtain ⟨r, e1, e2⟩ := operation_shows h (op := fun m1 => treeReduceOp1 cfg (minOp true).map (minOp true).reduce m1)
    (df' := df.reduceRows "__reduced__" (Pandas.min true)) (fun m1 hm1 => C14_min_rows_partial cfg hp hm1 hc hpos true (Or.inl rfl))
  unfold LFrame.plMinHorizontal
  rw [e1, Option.bind_some, toPolars_of_shows e2, Option.map_some]
  simp [Frame.toPolars, Frame.reduceRows, PlFrame.minHorizontal]

/-- **C99 (with_row_index).** Partial: the row labels the frame carries must be 0, 1, 2, ... (`C99_row_index_after_filter`), there is
    no offset (`C99_row_index_offset_raises`), the name is free (`C99_row_index_taken_name`) and the columns are not called both
    `"index"` and `"level_0"`. -/
theorem C99_with_row_index_partial [DecidableEq ι] [DecidableEq κ] (cfg : Cfg) (hmc : 1 ≤ cfg.minCol) (num : Nat → ι) (cell : ι → α)
    (indexName levelName : κ) (namesKnown : Bool) (name : κ) (nan : α) (m : LFrame ι κ α) (df : Frame ι κ α)
    (h : m.Shows df) (hd : m.defColumns = false ∨ m.index = none) (hidx : df.index = (List.range df.nrows).map num)
    (hname : name ∉ df.columns) (hfree : indexName ∉ df.columns ∨ levelName ∉ df.columns) :
    (m.plWithRowIndex cfg num cell indexName levelName namesKnown name 0).bind (·.toPolars nan) =
      df.toPolars.withRowIndex (fun n => cell (num n)) name 0 := by
  have hnew : resetLabel indexName levelName none df.columns ∉ df.columns := by
    unfold resetLabel
    by_cases hi : indexName ∈ df.columns
    · simp only [hi, ↓reduceIte]
      rcases hfree with f | f
      · exact absurd hi f
      · exact f
    · simp [hi]
  have hdf : df.resetIndex num cell indexName levelName none false = some
      { index := (List.range df.index.length).map num, columns := resetLabel indexName levelName none df.columns :: df.columns,
        rows := List.zipWith (fun i r => cell i :: r) df.index df.rows } := by
    simp [Frame.resetIndex, hnew]
  obtain ⟨m1, a, _, _, _, b⟩ := C32_reset_index_partial cfg hmc num cell indexName levelName none false namesKnown nan m df _ h hdf
    (by simp)
  have b := b (by rcases hd with e | e <;> simp [e])
  have hguard : ¬ (!false && !(m.columns.isNone || m.index.isNone) && [levelName, indexName].all (m.getColumns.contains ·)) = true := by
    rw [reset_guard h]
    rintro ⟨_, _, _, g1, g2⟩
    rcases hfree with f | f
    · exact f g2
    · exact f g1
  unfold LFrame.resetIndex at a
  rw [if_neg hguard] at a
  simp only [Bool.not_false, ↓reduceIte] at a
  unfold LFrame.plWithRowIndex
  rw [if_neg (by simp), a, Option.bind_some, h.getColumns]
  obtain ⟨m2, c, d⟩ := setColumns_shows b (name :: df.columns) (by unfold Frame.setColumns; rw [if_pos (by simp)])
  rw [c, Option.bind_some, toPolars_of_shows d]
  unfold PlFrame.withRowIndex
  rw [if_neg (show ¬ name ∈ df.toPolars.columns from hname)]
  simp only [Frame.toPolars, Option.some.injEq, PlFrame.mk.injEq, true_and]
  apply List.ext_getElem
  · simp [h.wf.rows_len]
  · intro i h1 h2
    simp [hidx]

/-- **C99 (equals).** Two frames that are the same are reported to be.  Partial: the converse fails (`C99_equals_always_true`), and so
    does the case of frames with the same cells and other row labels. -/
theorem C99_equals_partial [DecidableEq L] (P : JoinOps L) (hP : P.Good) (cfg : Cfg) (hp : 1 ≤ cfg.nPartitions) (hr : 1 ≤ cfg.minRow)
    (hc : 1 ≤ cfg.minCol) (nan : α) (same : α → α → Bool) (zero : L) (isna : α → Bool) (m1 m2 : MFrame L L α) (A : Frame L L α)
    (h1 : m1.Represents A) (h2 : m2.Represents A) (hz1 : m1.NoEmptyBlocks) (hz2 : m2.NoEmptyBlocks) :
    m1.plEquals P cfg nan same zero isna true m2 = some true := by
  have h0 := C85_equals_partial P hP cfg hp hr hc nan same zero m1 m2 A A h1 h2 hz1 hz2
  unfold MFrame.equals at h0
  rw [h1.getIndex, h2.getIndex, h1.getColumns, h2.getColumns, if_neg (by simp)] at h0
  obtain ⟨g, e, _⟩ := Option.bind_eq_some_iff.1 h0
  unfold MFrame.plEquals
  rw [e, Option.bind_some, if_pos rfl]

/-! ### a case, and where it goes wrong -/

namespace PolarsDemo

def cfg : Cfg := ⟨4, 1, 1⟩
def known : Nat → Nat → Bool × Bool := fun _ _ => (true, true)
def leN (a b : Nat) : Bool := decide (a ≤ b)
def num (n : Nat) : Nat := n
def cell (n : Nat) : Option Int := some n

/-- three rows, carrying the labels of a frame that has just been made -/
def df : Frame Nat String (Option Int) :=
  { index := [0, 1, 2], columns := ["a", "b"], rows := [[some 1, some 5], [some 7, none], [some 1, some 5]] }
def held : LFrame Nat String (Option Int) := ⟨⟨df.cut [2, 1] [1, 1], none, none, none, none⟩, false, false⟩

theorem held_shows : held.Shows df :=
  ⟨⟨by decide, by decide⟩, ⟨df, [2, 1], [1, 1], ⟨by decide, by decide⟩, rfl, rfl, ⟨by decide, by decide, by decide, by decide⟩,
    rfl, Or.inl rfl, Or.inl rfl, fun _ => rfl, fun _ => rfl⟩, Or.inl ⟨rfl, rfl⟩, Or.inl ⟨rfl, rfl⟩⟩

/-- rows 0 and 2 are wanted -/
def maskF : Frame Nat String (Option Bool) := { index := [0, 1, 2], columns := ["a"], rows := [[some true], [some false], [some true]] }
def maskHeld : LFrame Nat String (Option Bool) := ⟨⟨maskF.cut [3] [1], none, none, none, none⟩, false, false⟩

theorem maskHeld_shows : maskHeld.Shows maskF :=
  ⟨⟨by decide, by decide⟩, ⟨maskF, [3], [1], ⟨by decide, by decide⟩, rfl, rfl, ⟨by decide, by decide, by decide, by decide⟩,
    rfl, Or.inl rfl, Or.inl rfl, fun _ => rfl, fun _ => rfl⟩, Or.inl ⟨rfl, rfl⟩, Or.inl ⟨rfl, rfl⟩⟩

example : (held.plFilter leN cfg false none maskHeld).bind (·.toPolars none) =
    some ⟨["a", "b"], [[some 1, some 5], [some 1, some 5]]⟩ :=
  C99_filter_partial leN cfg (by decide) (by decide) none held maskHeld df maskF [true, false, true] held_shows maskHeld_shows rfl rfl rfl

example : ((held.plIsDuplicated cfg id id id).bind (·.toPolars false)).map (·.rows) = some [[true], [false], [true]] :=
  C99_is_duplicated_partial cfg (by decide) (by decide) (by decide) id id id held df held_shows (by decide) (Or.inr (by decide))
    (fun _ _ _ _ => by simp)

example : ((held.plIsUnique cfg false 4 id id id).bind (·.toPolars false)).map (·.rows) = some [[false], [true], [false]] :=
  C99_is_unique_partial cfg (by decide) (by decide) (by decide) false 4 id id id held df held_shows (by decide) (Or.inr (by decide))
    (fun _ _ _ _ => by simp)

example : held.plNUnique cfg false 4 id id id = some 1 :=
  C99_n_unique_counts_single_rows cfg (by decide) (by decide) (by decide) false 4 id id id held df held_shows (by decide)
    (Or.inr (by decide)) (fun _ _ _ _ => by simp)

example : ((held.plMaxHorizontal cfg).bind (·.toPolars none)).map (·.rows) = some [[some 5], [some 7], [some 5]] :=
  (C99_max_horizontal_partial cfg (by decide) (by decide) held df held_shows (by decide)).1

example : ((held.plMinHorizontal cfg).bind (·.toPolars none)).map (·.rows) = some [[some 1], [some 7], [some 1]] :=
  C99_min_horizontal_partial cfg (by decide) (by decide) held df held_shows (by decide)

example : (held.plWithRowIndex cfg num cell "index" "level_0" true "n" 0).bind (·.toPolars none) =
    some ⟨["n", "a", "b"], [[some 0, some 1, some 5], [some 1, some 7, none], [some 2, some 1, some 5]]⟩ :=
  C99_with_row_index_partial cfg (by decide) num cell "index" "level_0" true "n" none held df held_shows (Or.inl rfl) (by decide)
    (by decide) (Or.inl (by decide))

/-- two different rows -/
def two : Frame Nat String (Option Int) := { index := [0, 1], columns := ["a"], rows := [[some 1], [some 2]] }
def twoHeld : LFrame Nat String (Option Int) := ⟨⟨two.cut [1, 1] [1], none, none, none, none⟩, false, false⟩

theorem twoHeld_shows : twoHeld.Shows two :=
  ⟨⟨by decide, by decide⟩, ⟨two, [1, 1], [1], ⟨by decide, by decide⟩, rfl, rfl, ⟨by decide, by decide, by decide, by decide⟩,
    rfl, Or.inl rfl, Or.inl rfl, fun _ => rfl, fun _ => rfl⟩, Or.inl ⟨rfl, rfl⟩, Or.inl ⟨rfl, rfl⟩⟩

example : twoHeld.plNUnique cfg false 4 id id id = some 2 :=
  C99_n_unique_partial cfg (by decide) (by decide) (by decide) false 4 id id id twoHeld two twoHeld_shows (by decide)
    (Or.inl (by decide)) (fun _ _ _ _ => by simp) (by decide)

/-- **C99, violated.** `df.n_unique()` of a frame with two different rows, one of them twice, is 1: a row that occurs twice is not
    counted at all. -/
theorem C99_n_unique_wrong : df.toPolars.nUnique id = 2 ∧ held.plNUnique cfg false 4 id id id = some 1 := by
  refine ⟨by decide, by decide +kernel⟩

/-- **C99, violated.** `df.min(axis=1)` is the largest value of every row. -/
theorem C99_min_axis1_is_max :
    df.toPolars.minHorizontal = [some 1, some 7, some 1] ∧
    ((held.plMin1 cfg).bind (·.toPolars none)).map (·.rows) = some [[some 5], [some 7], [some 5]] := by
  refine ⟨by decide, by decide +kernel⟩

/-- the rows 1 and 2 of `df`, as `filter` leaves them -/
def later : LFrame Nat String (Option Int) := ⟨⟨(df.ilocRows 1 3).cut [2] [2], none, none, none, none⟩, false, false⟩
def laterMask : LFrame Nat String (Option Bool) :=
  ⟨⟨Frame.cut [3] [1] { index := [0, 1, 2], columns := ["a"], rows := [[some false], [some true], [some true]] }, none, none, none, none⟩,
    false, false⟩

/-- **C99, violated.** The rows of a filtered frame are counted by the places they had before: 1, 2 and not 0, 1. -/
theorem C99_row_index_after_filter :
    ((held.plFilter leN cfg false none laterMask).bind fun r =>
      (r.plWithRowIndex cfg num cell "index" "level_0" true "n" 0).bind (·.toPolars none)) =
      some ⟨["n", "a", "b"], [[some 1, some 7, none], [some 2, some 1, some 5]]⟩ ∧
    ((df.toPolars.filter [false, true, true]).bind fun f => f.withRowIndex (fun n => some (n : Int)) "n" 0) =
      some ⟨["n", "a", "b"], [[some 0, some 7, none], [some 1, some 1, some 5]]⟩ := by
  refine ⟨by decide +kernel, by decide⟩

/-- **C99, violated.** Every `with_row_index` with an offset raises. -/
theorem C99_row_index_offset_raises (m : LFrame Nat String (Option Int)) (namesKnown : Bool) (name : String) (offset : Nat)
    (h : offset ≠ 0) : m.plWithRowIndex cfg num cell "index" "level_0" namesKnown name offset = none := by
  unfold LFrame.plWithRowIndex
  rw [if_pos h]

/-- **C99, violated.** A name that is taken is accepted, and the frame has two columns called `a`. -/
theorem C99_row_index_taken_name :
    df.toPolars.withRowIndex (fun n => some (n : Int)) "a" 0 = none ∧
    ((held.plWithRowIndex cfg num cell "index" "level_0" true "a" 0).bind (·.toPolars none)).map (·.columns) = some ["a", "a", "b"] := by
  refine ⟨by decide, by decide +kernel⟩

/-- a mask of two values, carrying the labels 0 and 1 -/
def freshMask : LFrame Nat String (Option Bool) :=
  ⟨⟨Frame.cut [2] [1] { index := [0, 1], columns := ["m"], rows := [[some true], [some false]] }, none, none, none, none⟩, false, false⟩

/-- **C99, violated.** A mask that was not made of the frame: Polars goes by position, here the labels do not match and it raises. -/
theorem C99_filter_foreign_labels :
    (df.ilocRows 1 3).toPolars.filter [true, false] = some ⟨["a", "b"], [[some 7, none]]⟩ ∧
    later.plFilter leN cfg false none freshMask = none := by
  refine ⟨by decide, by decide +kernel⟩

/-- **C99, violated.** `head`, `limit`, `tail`, `slice`, `gather_every` and `reverse` raise for every frame: a slice is not accepted as a list of positions. -/
theorem C99_slices_raise (m : LFrame Nat String (Option Int)) (n k : Nat) (i j : Int) :
    m.plHead cfg known n = none ∧ m.plTail cfg known n = none ∧ m.plSlice cfg known i j = none ∧ m.plGatherEvery cfg known n k = none ∧
    m.plReverse cfg known = none := ⟨rfl, rfl, rfl, rfl, rfl⟩

example : df.toPolars.head 1 = ⟨["a", "b"], [[some 1, some 5]]⟩ ∧ df.toPolars.tail 1 = ⟨["a", "b"], [[some 1, some 5]]⟩ ∧
    df.toPolars.reverse.rows = [[some 1, some 5], [some 7, none], [some 1, some 5]] := by decide

open C11Example (P a good)
open EqualsDemo (ma ma' mc c ma_ok ma'_ok mc_ok)

/-- the same frame, divided in two ways -/
example : ma.plEquals P ⟨2, 1, 1⟩ 0 (· == ·) 0 (fun _ => false) true ma' = some true :=
  C99_equals_partial P good ⟨2, 1, 1⟩ (by decide) (by decide) (by decide) 0 (· == ·) 0 (fun _ => false) ma ma' a ma_ok ma'_ok
    (by unfold MFrame.NoEmptyBlocks; decide) (by unfold MFrame.NoEmptyBlocks; decide)

/-- **C99, violated.** `equals` says that two frames are equal although a cell differs. -/
theorem C99_equals_always_true :
    ma'.Represents a ∧ mc.Represents c ∧ a.toPolars ≠ c.toPolars ∧
    ma'.plEquals P ⟨2, 1, 1⟩ 0 (· == ·) 0 (fun _ => false) true mc = some true := by
  refine ⟨ma'_ok, mc_ok, by decide, by decide +kernel⟩

end PolarsDemo
