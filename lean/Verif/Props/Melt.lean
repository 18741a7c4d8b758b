import Verif.Lemmas.Melt
/-
C72: `melt`.
-/

variable {ι κ α : Type}

theorem takeList_of_mem {τ : Type} {columns ls : List τ} (h : ∀ l ∈ ls, l ∈ columns) :
    ∃ ps, (∀ p ∈ ps, p < columns.length) ∧ takeList columns ps = ls := by
  induction ls with
  | nil => exact ⟨[], by simp, rfl⟩
  | cons i is ih =>
    obtain ⟨js, a, b⟩ := ih fun x hx => h x (List.mem_cons_of_mem _ hx)
    obtain ⟨j, hj, hji⟩ := List.getElem_of_mem (h i (by simp))
    refine ⟨j :: js, ?_, ?_⟩
    · intro x hx
      rcases List.mem_cons.1 hx with hx | hx
      · subst hx; exact hj
      · exact a x hx
    · rw [takeList_cons hj, hji, b]

theorem filter_not_ids [DecidableEq κ] {columns : List κ} (hn : columns.Nodup) {is : List Nat} (hi : ∀ i ∈ is, i < columns.length) :
    (columns.filter fun c => !((takeList columns is).contains c)) =
      takeList columns ((List.range columns.length).filter fun v => decide (v ∉ is)) := by
  have h1 := takeList_filter_zip columns columns rfl fun c => !((takeList columns is).contains c)
  have h2 : ∀ l : List κ, ((l.zip l).filter fun e => !((takeList columns is).contains e.1)).map (·.2) =
      l.filter fun c => !((takeList columns is).contains c) := by
    intro l
    induction l with
    | nil => rfl
    | cons a l ih =>
      rw [List.zip_cons_cons, List.filter_cons, List.filter_cons]
      simp only
      split
      · rw [List.map_cons, ih]
      · exact ih
  rw [h2] at h1
  rw [← h1]
  congr 1
  apply List.filter_congr
  intro v hv
  rw [List.mem_range] at hv
  rw [List.getElem?_eq_getElem hv, Option.any_some, Bool.eq_iff_iff]
  simp only [Bool.not_eq_true', decide_eq_true_eq]
  rw [← Bool.not_eq_true, List.contains_iff_mem]
  apply not_congr
  unfold takeList
  rw [List.mem_filterMap]
  constructor
  · rintro ⟨q, hq, he⟩
    have := (List.getElem?_inj (List.getElem?_eq_some_iff.1 he).1 hn).1 (he.trans (List.getElem?_eq_getElem hv).symm)
    subst this; exact hq
  · intro hq
    exact ⟨v, hq, List.getElem?_eq_getElem hv⟩

/-- What `melt` is asked for makes sense: the names are those of columns, the id columns are different, and so are the value columns if any
    are named; no column is both. -/
structure MeltArgs [DecidableEq κ] (columns ids : List κ) (vals : Option (List κ)) (var value : κ) : Prop where
  columns_nodup : columns.Nodup
  ids_mem : ∀ c ∈ ids, c ∈ columns
  vals_mem : ∀ vs, vals = some vs → ∀ c ∈ vs, c ∈ columns
  vals_ne : ∀ vs, vals = some vs → vs ≠ []
  different : (ids ++ vals.getD []).Nodup
  names : (ids ++ [var, value]).Nodup
  value_new : value ∉ columns

/-- the positions of the id columns and of the value columns -/
theorem MeltArgs.resolve [DecidableEq κ] (lab : κ → α) {df : Frame ι κ α} {ids : List κ} {vals : Option (List κ)} {var value : κ}
    (h : MeltArgs df.columns ids vals var value) :
    ∃ is vs, takeList df.columns is = ids ∧ (is ++ vs).Nodup ∧ (∀ p ∈ is ++ vs, p < df.ncols) ∧ (is = [] → vs = [] → df.ncols = 0) ∧
      meltValueVars df.columns (takeList df.columns is) vals = some (takeList df.columns vs) ∧
      df.melt lab (takeList df.columns is) vals var value = some (meltedAt lab is vs var value df) ∧
      ((vals.getD []).Sublist df.columns → vs.Pairwise (· ≤ ·)) := by
  obtain ⟨is, hi, rfl⟩ := takeList_of_mem h.ids_mem
  have hisn : is.Nodup := nodup_of_takeList hi (List.nodup_append.1 h.different).1
  cases vals with
  | none =>
    refine ⟨is, (List.range df.ncols).filter (fun v => decide (v ∉ is)), rfl, ?_, ?_, ?_, ?_, ?_, ?_⟩
    · rw [List.nodup_append]
      refine ⟨hisn, List.nodup_range.filter _, ?_⟩
      intro x hx y hy hxy
      subst hxy
      simp only [List.mem_filter, decide_eq_true_eq] at hy
      exact hy.2 hx
    · intro p hp
      rcases List.mem_append.1 hp with hp | hp
      · exact hi p hp
      · exact List.mem_range.1 (List.mem_filter.1 hp).1
    · rintro rfl h2
      rw [List.filter_eq_self.2 (by simp)] at h2
      simpa using h2
    · unfold meltValueVars
      rw [if_neg (by simp), if_pos, filter_not_ids h.columns_nodup hi]
      · rfl
      · rw [List.all_eq_true]
        intro c hc
        rw [List.contains_iff_mem]
        exact h.ids_mem c hc
    · unfold Frame.melt
      rw [if_neg, onlyPositions_at h.columns_nodup hi]
      · rfl
      · rintro (hx | hx)
        · exact h.value_new hx
        · exact hx (List.nodup_append.1 h.different).1
    · intro _
      exact (List.pairwise_lt_range.imp Nat.le_of_lt).filter _
  | some vals =>
    obtain ⟨vs, hv, rfl⟩ := takeList_of_mem (h.vals_mem _ rfl)
    have hd := h.different
    rw [Option.getD_some, ← takeList_append] at hd
    have hall : ∀ p ∈ is ++ vs, p < df.columns.length := by
      intro p hp
      rcases List.mem_append.1 hp with hp | hp
      · exact hi p hp
      · exact hv p hp
    have hne : vs ≠ [] := by
      rintro rfl
      exact h.vals_ne _ rfl rfl
    have hnd := nodup_of_takeList hall hd
    refine ⟨is, vs, rfl, hnd, hall, fun _ h2 => absurd h2 hne, ?_, ?_, ?_⟩
    · unfold meltValueVars
      rw [if_pos]
      · rfl
      · rw [Option.getD_some, takeList_length hv]
        simpa using hne
    · exact melt_at lab h.columns_nodup hnd hall (fun _ h2 => absurd h2 hne) h.value_new
    · intro hsub
      rw [Option.getD_some] at hsub
      exact (sublist_positions h.columns_nodup hv hsub).imp Nat.le_of_lt
where
  sublist_positions {columns : List κ} (hn : columns.Nodup) {vs : List Nat} (hv : ∀ v ∈ vs, v < columns.length)
      (hs : (takeList columns vs).Sublist columns) : vs.Pairwise (· < ·) := by
    obtain ⟨is, h1, h2⟩ := List.sublist_eq_map_getElem hs
    have : vs = is.map (·.val) := by
      have e : takeList columns (is.map (·.val)) = takeList columns vs := by
        rw [h1]
        clear h1 h2 hs
        induction is with
        | nil => rfl
        | cons a l ih => rw [List.map_cons, takeList_cons a.isLt, ih]; rfl
      have hp1 := onlyPositions_at hn hv
      have hp2 := onlyPositions_at hn (ps := is.map (·.val)) (by intro p hp; obtain ⟨a, _, rfl⟩ := List.mem_map.1 hp; exact a.isLt)
      rw [e, hp1] at hp2
      exact Option.some.inj hp2
    rw [this, List.pairwise_map]
    exact h2

variable [DecidableEq ι] [DecidableEq κ]

/-- **C72 (partial).** `melt` returns the same columns, row labels and rows as pandas, whatever the division into blocks; the rows may come
    in another order.
    Missing: a frame with an empty row partition that is recorded as such, when id columns are asked for (`C72_empty_partition`); an empty
    list of value columns (`C72_no_value_columns`), names that are no columns (`C72_missing_name`), repeated names or value columns that are
    also id columns (`C72_overlap`), and `ignore_index=False`, which is not looked at. -/
theorem C72_melt_partial (cfg : Cfg) (hp : 1 ≤ cfg.nPartitions) (hmr : 1 ≤ cfg.minRow) (hmc : 1 ≤ cfg.minCol)
    (known : Nat → Nat → Bool × Bool) (nan : α) (lab : κ → α) {m : LFrame ι κ α} {df : Frame ι κ α} (h : m.Shows df)
    {ids : List κ} {vals : Option (List κ)} {var value : κ} (ha : MeltArgs df.columns ids vals var value)
    (hl : ids = [] ∨ ∀ l, m.rowLens = some l → 0 ∉ l) :
    ∃ m' want got, df.melt lab ids vals var value = some want ∧ m.melt cfg known nan lab ids vals var value = some m' ∧ m'.Shows got ∧
      got.index = want.index ∧ got.columns = want.columns ∧ got.rows.Perm want.rows := by
  obtain ⟨is, vs, rfl, h1, h2, h3, h4, h5, _⟩ := ha.resolve (ι := ι) lab
  obtain ⟨m', rl, cw, hc, _, e1, e2⟩ := melt_shows cfg hp hmr hmc known nan lab h ha.columns_nodup h1 h2 h3 ha.value_new h4
    (hl.imp_left fun hx => by
      rw [← List.length_eq_zero_iff, takeList_length fun p hp => h2 p (List.mem_append_left _ hp)] at hx
      exact List.length_eq_zero_iff.1 hx)
  have hperm : ((meltTags rl cw (blockDict cw (npSort vs))).filterMap (meltTagRow lab is df)).Perm (meltedRows lab is vs df) := by
    have hpm := (meltTags_perm (rl := rl) hc.cw_ne (npSort_pairwise vs) ((npSort_perm vs).nodup_iff.2 (List.nodup_append.1 h1).2.1)
      (npSort_perm vs)).filterMap (meltTagRow lab is df)
    rw [hc.rl_sum, ← meltedRows_tags lab h.wf] at hpm
    exact hpm
  refine ⟨m', _, _, h5, e1, e2, ?_, rfl, hperm⟩
  have := e2.wf.rows_len
  simp only [List.length_range] at this
  show List.range _ = List.range _
  rw [← this, hperm.length_eq]

/-- **C72, the order of the rows (partial).** The rows that come from one column are in the order of the rows of the frame, and those that come
    from one row are in the order of its columns: `origin` says which column and which row each row of the result comes from. -/
theorem C72_melt_order_partial (cfg : Cfg) (hp : 1 ≤ cfg.nPartitions) (hmr : 1 ≤ cfg.minRow) (hmc : 1 ≤ cfg.minCol)
    (known : Nat → Nat → Bool × Bool) (nan : α) (lab : κ → α) {m : LFrame ι κ α} {df : Frame ι κ α} (h : m.Shows df)
    {ids : List κ} {vals : Option (List κ)} {var value : κ} (ha : MeltArgs df.columns ids vals var value)
    (hl : ids = [] ∨ ∀ l, m.rowLens = some l → 0 ∉ l) :
    ∃ m' got is vs, ∃ origin : List (Nat × Nat), m.melt cfg known nan lab ids vals var value = some m' ∧ m'.Shows got ∧
      takeList df.columns is = ids ∧ (∀ c, c ∈ takeList df.columns vs ↔ c ∈ vals.getD (df.columns.filter fun c => !(ids.contains c))) ∧
      got.rows = origin.filterMap (fun t => df.rows[t.2]?.map (meltRow lab df.columns is t.1)) ∧
      (∀ v, origin.filter (fun t => decide (t.1 = v)) = if v ∈ vs then (List.range df.nrows).map fun i => (v, i) else []) ∧
      vs.Pairwise (· ≤ ·) ∧ ∀ i, i < df.nrows → origin.filter (fun t => decide (t.2 = i)) = vs.map fun v => (v, i) := by
  obtain ⟨is, vs, rfl, h1, h2, h3, h4, h5, _⟩ := ha.resolve (ι := ι) lab
  obtain ⟨m', rl, cw, hc, _, e1, e2⟩ := melt_shows cfg hp hmr hmc known nan lab h ha.columns_nodup h1 h2 h3 ha.value_new h4
    (hl.imp_left fun hx => by
      rw [← List.length_eq_zero_iff, takeList_length fun p hp => h2 p (List.mem_append_left _ hp)] at hx
      exact List.length_eq_zero_iff.1 hx)
  have hsn := (npSort_perm vs).nodup_iff.2 (List.nodup_append.1 h1).2.1
  refine ⟨m', _, is, npSort vs, meltTags rl cw (blockDict cw (npSort vs)), e1, e2, rfl, ?_, rfl, ?_, npSort_pairwise vs, ?_⟩
  · intro c
    have hmem : c ∈ takeList df.columns (npSort vs) ↔ c ∈ takeList df.columns vs := by
      unfold takeList
      simp only [List.mem_filterMap, (npSort_perm vs).mem_iff]
    rw [hmem]
    cases vals with
    | none =>
      unfold meltValueVars at h4
      rw [if_neg (by simp)] at h4
      split at h4
      · rw [← Option.some.inj h4]; rfl
      · cases h4
    | some vs0 =>
      unfold meltValueVars at h4
      rw [if_pos (by
        have := ha.vals_ne _ rfl
        rw [Option.getD_some]
        simpa using this)] at h4
      rw [← Option.some.inj h4]; rfl
  · intro v
    rw [meltTags_column hc.cw_ne (npSort_pairwise vs) hsn, hc.rl_sum]
  · intro i hi
    exact meltTags_row hc.cw_ne (npSort_pairwise vs) (by rw [hc.rl_sum]; exact hi)

theorem meltTags_one (cw : List Nat) (hne : cw ≠ []) (n : Nat) {ps : List Nat} (hs : ps.Pairwise (· ≤ ·)) :
    meltTags [n] cw (blockDict cw ps) = ps.flatMap fun v => (List.range n).map fun i => (v, i) := by
  have hG := blockDict_globals hne hs
  unfold meltTags
  simp only [sliceBounds_single, List.flatMap_cons, List.flatMap_nil, List.append_nil, Nat.sub_zero, ← List.range_eq_range']
  conv => rhs; rw [← hG]
  generalize blockDict cw ps = d
  induction d with
  | nil => rfl
  | cons a d ih => rw [List.flatMap_cons, ih, List.map_cons, List.flatten_cons, List.flatMap_append]

/-- **C72, one row partition.** If the frame has one row partition and the value columns are asked for in the order of the frame, the result is
    exactly that of pandas. -/
theorem C72_melt_one_partition (cfg : Cfg) (hp : 1 ≤ cfg.nPartitions) (hmr : 1 ≤ cfg.minRow) (hmc : 1 ≤ cfg.minCol)
    (known : Nat → Nat → Bool × Bool) (nan : α) (lab : κ → α) {m : LFrame ι κ α} {df : Frame ι κ α} (h : m.Shows df)
    {ids : List κ} {vals : Option (List κ)} {var value : κ} (ha : MeltArgs df.columns ids vals var value)
    (hl : ∀ l, m.rowLens = some l → 0 ∉ l) (h1p : m.parts.length = 1) (hord : (vals.getD []).Sublist df.columns) :
    ∃ m' want, df.melt lab ids vals var value = some want ∧ m.melt cfg known nan lab ids vals var value = some m' ∧ m'.Shows want := by
  obtain ⟨is, vs, rfl, h1, h2, h3, h4, h5, h6⟩ := ha.resolve (ι := ι) lab
  obtain ⟨m', rl, cw, hc, hrl, e1, e2⟩ := melt_shows cfg hp hmr hmc known nan lab h ha.columns_nodup h1 h2 h3 ha.value_new h4 (Or.inr hl)
  have hlen := hrl hl
  rw [h1p] at hlen
  obtain ⟨n, rfl⟩ := List.length_eq_one_iff.1 hlen
  have hn : n = df.nrows := by have := hc.rl_sum; simpa using this
  refine ⟨m', _, h5, e1, ?_⟩
  have hw := e2.wf.rows_len
  simp only [List.length_range] at hw
  rw [npSort_of_pairwise (h6 hord), meltTags_one cw hc.cw_ne n (h6 hord), hn, ← meltedRows_tags lab h.wf] at e2 hw
  unfold meltedAt
  rw [hw]
  exact e2

/-! ### examples and what the code does otherwise -/

/-- the cases below: 4 rows, the columns 1, 2, 3; labels as cells are 100 more -/
def meltDf : Frame Nat Nat Nat := Frame.mk [0, 1, 2, 3] [1, 2, 3] [[11, 12, 13], [21, 22, 23], [31, 32, 33], [41, 42, 43]]

def meltCfg : Cfg := Cfg.mk 4 1 1

/-- the frame in blocks, with the lengths of the row partitions recorded or not -/
def meltFrame (rl cw : List Nat) (rec : Bool) : LFrame Nat Nat Nat :=
  LFrame.mk (MFrame.mk (meltDf.cut rl cw) (some meltDf.index) (some meltDf.columns) (if rec then some rl else none) (if rec then some cw else none))
    false false

/-- what `melt` returns, as a pandas frame -/
def meltSeen (r : Option (LFrame Nat Nat Nat)) : Option (Option (Frame Nat Nat Nat)) := r.map fun m => m.toPandas 0

theorem meltFrame_shows : (meltFrame [2, 2] [2, 1] false).Shows meltDf :=
  ⟨by constructor <;> decide, ⟨meltDf, [2, 2], [2, 1], by constructor <;> decide, rfl, rfl, by constructor <;> decide, rfl, Or.inl rfl, Or.inl rfl,
    fun _ => rfl, fun _ => rfl⟩, Or.inr rfl, Or.inr rfl⟩

/-- The hypotheses of the theorems are met: two row partitions, the id column in the second column partition. -/
example : (meltFrame [2, 2] [2, 1] false).Shows meltDf ∧ MeltArgs meltDf.columns [3] none 8 9 ∧ MeltArgs meltDf.columns [3] (some [2, 1]) 8 9 ∧
    (∀ l, (meltFrame [2, 2] [2, 1] false).rowLens = some l → 0 ∉ l) :=
  ⟨meltFrame_shows,
    ⟨by decide, by decide, by simp, by simp, by decide, by decide, by decide⟩,
    ⟨by decide, by decide, by intro vs h; cases h; decide, by intro vs h; cases h; decide, by decide, by decide, by decide⟩,
    by intro l h; cases h⟩

/-- … and those of `C72_melt_one_partition`. -/
example : (meltFrame [4] [2, 1] true).Shows meltDf ∧ (∀ l, (meltFrame [4] [2, 1] true).rowLens = some l → 0 ∉ l) ∧
    (meltFrame [4] [2, 1] true).parts.length = 1 ∧ (([1, 2] : List Nat)).Sublist meltDf.columns :=
  ⟨⟨by constructor <;> decide, ⟨meltDf, [4], [2, 1], by constructor <;> decide, rfl, rfl, by constructor <;> decide, rfl, Or.inr rfl, Or.inr rfl,
    fun _ => rfl, fun _ => rfl⟩, Or.inr rfl, Or.inr rfl⟩, by intro l h; cases h; decide, by decide, by decide⟩

/-- **C72, the order differs.** With two row partitions the rows come in another order than from pandas. -/
theorem C72_row_order :
    ((meltSeen ((meltFrame [2, 2] [2, 1] false).melt meltCfg (fun _ _ => (true, true)) 0 (· + 100) [3] none 8 9)).bind id).map (·.rows) =
      some [[13, 101, 11], [23, 101, 21], [13, 102, 12], [23, 102, 22], [33, 101, 31], [43, 101, 41], [33, 102, 32], [43, 102, 42]] ∧
    (meltDf.melt (· + 100) [3] none 8 9).map (·.rows) =
      some [[13, 101, 11], [23, 101, 21], [33, 101, 31], [43, 101, 41], [13, 102, 12], [23, 102, 22], [33, 102, 32], [43, 102, 42]] := by
  decide +kernel

/-- **C72, an empty partition.** A frame whose second row partition is empty and known to be so (after `df.query(…)` and `len(df)`): the id
    columns lose the empty partition and go with the wrong rows; values are missing and rows are lost. -/
theorem C72_empty_partition :
    (meltFrame [2, 0, 2] [2, 1] true).Shows meltDf ∧ MeltArgs meltDf.columns [3] (some [1]) 8 9 ∧
    ((meltSeen ((meltFrame [2, 0, 2] [2, 1] true).melt meltCfg (fun _ _ => (true, true)) 0 (· + 100) [3] (some [1]) 8 9)).bind id).map (·.rows) =
      some [[13, 101, 11], [23, 101, 21], [33, 101, 0], [43, 101, 0]] ∧
    (meltDf.melt (· + 100) [3] (some [1]) 8 9).map (·.rows) =
      some [[13, 101, 11], [23, 101, 21], [33, 101, 31], [43, 101, 41]] := by
  refine ⟨⟨by constructor <;> decide, ⟨meltDf, [2, 0, 2], [2, 1], by constructor <;> decide, rfl, rfl, by constructor <;> decide, rfl, Or.inr rfl,
    Or.inr rfl, fun _ => rfl, fun _ => rfl⟩, Or.inr rfl, Or.inr rfl⟩,
    ⟨by decide, by decide, by intro vs h; cases h; decide, by intro vs h; cases h; decide, by decide, by decide, by decide⟩, ?_, ?_⟩
  all_goals decide +kernel

/-- **C72, a name that is no column's.** pandas raises; here the last column is unpivoted instead, without a word. -/
theorem C72_missing_name :
    meltDf.melt (· + 100) [] (some [1, 7]) 8 9 = none ∧
    ((meltSeen ((meltFrame [2, 2] [2, 1] false).melt meltCfg (fun _ _ => (true, true)) 0 (· + 100) [] (some [1, 7]) 8 9)).bind id).map (·.rows) =
      some [[101, 11], [101, 21], [101, 31], [101, 41], [103, 13], [103, 23], [103, 33], [103, 43]] := by
  decide +kernel

/-- **C72, a value column that is also an id column.** pandas leaves it out; here the labels do not fit the rows and the frame cannot be read. -/
theorem C72_overlap :
    (meltDf.melt (· + 100) [1] (some [1, 2]) 8 9).map (·.rows) = some [[11, 102, 12], [21, 102, 22], [31, 102, 32], [41, 102, 42]] ∧
    meltSeen ((meltFrame [2, 2] [2, 1] false).melt meltCfg (fun _ _ => (true, true)) 0 (· + 100) [1] (some [1, 2]) 8 9) = some none := by
  decide +kernel

/-- **C72, a value column named twice.** pandas takes it once; here the frame cannot be read. -/
theorem C72_named_twice :
    (meltDf.melt (· + 100) [1] (some [2, 2]) 8 9).map (·.rows) = some [[11, 102, 12], [21, 102, 22], [31, 102, 32], [41, 102, 42]] ∧
    meltSeen ((meltFrame [2, 2] [2, 1] false).melt meltCfg (fun _ _ => (true, true)) 0 (· + 100) [1] (some [2, 2]) 8 9) = some none := by
  decide +kernel

/-- **C72, an empty list of value columns.** pandas returns no rows; here all other columns are unpivoted. -/
theorem C72_no_value_columns :
    (meltDf.melt (· + 100) [1] (some []) 8 9).map (·.rows) = some [] ∧
    ((meltSeen ((meltFrame [2, 2] [2, 1] false).melt meltCfg (fun _ _ => (true, true)) 0 (· + 100) [1] (some []) 8 9)).bind id).map
      (·.rows.length) = some 8 := by
  decide +kernel

/-- **C72, a value name that is a column's.** pandas raises; here only if the column is in a block that is used. -/
theorem C72_value_name :
    meltDf.melt (· + 100) [2] (some [3]) 8 1 = none ∧
    ((meltSeen ((meltFrame [2, 2] [2, 1] false).melt meltCfg (fun _ _ => (true, true)) 0 (· + 100) [2] (some [3]) 8 1)).bind id).map (·.rows) =
      some [[12, 103, 13], [22, 103, 23], [32, 103, 33], [42, 103, 43]] ∧
    (meltFrame [4] [3] false).melt meltCfg (fun _ _ => (true, true)) 0 (· + 100) [2] (some [3]) 8 1 = none := by
  decide +kernel
