import Verif.Lemmas.Chunk
import Verif.Model.Grid

variable {ι κ α : Type}

/-- `bs` are slice bounds that cut every list of length `n` into consecutive pieces. -/
def Covers (bs : List (Nat × Nat)) (n : Nat) : Prop :=
  ∀ {τ : Type} (l : List τ), l.length = n → (bs.map fun p => pySlice l p.1 p.2).flatten = l

/-- The canonical grid with given row and column cuts. -/
def gridOf (rb cb : List (Nat × Nat)) (df : Frame ι κ α) : Grid ι κ α :=
  rb.map fun p => cb.map fun q => (df.ilocRows p.1 p.2).ilocCols q.1 q.2

theorem covers_rangeStep {n c : Nat} (hc : 0 < c) :
    Covers ((pyRangeStep n c).map fun i => (i, i + c)) n := by
  intro τ l hl
  rw [List.map_map]
  subst hl
  exact rangeStep_flatten l c hc

theorem covers_single (n m : Nat) (h : n ≤ m) : Covers [(0, m)] n := by
  intro τ l hl
  simp [pySlice_all l m (by omega)]

theorem covers_lens (lens : List Nat) : Covers (sliceBounds lens) lens.sum := by
  intro τ l hl
  rw [sliceBounds_flatten, ← hl, List.take_length]

theorem zipWith_append_map {β γ : Type} (f g : β → List γ) (l : List β) :
    List.zipWith (· ++ ·) (l.map f) (l.map g) = l.map fun x => f x ++ g x := by
  induction l with
  | nil => rfl
  | cons x xs ih => simp [ih]

theorem hrows_map {β γ : Type} (l : List β) (fs : List (β → List γ)) :
    Frame.hrows l.length (fs.map fun f => l.map f) = l.map fun x => (fs.map fun f => f x).flatten := by
  induction fs with
  | nil => simp [Frame.hrows, List.map_const']
  | cons f fs ih => simp only [List.map_cons, Frame.hrows, ih, zipWith_append_map, List.flatten_cons]

namespace Frame

theorem WF.ilocRows {f : Frame ι κ α} (h : f.WF) (i j : Nat) : (f.ilocRows i j).WF := by
  constructor
  · simp [Frame.ilocRows, h.rows_len]
  · intro r hr
    apply h.row_width
    simp only [Frame.ilocRows, pySlice] at hr
    exact List.mem_of_mem_drop (List.mem_of_mem_take hr)

theorem WF.ilocCols {f : Frame ι κ α} (h : f.WF) (i j : Nat) : (f.ilocCols i j).WF := by
  constructor
  · simp [Frame.ilocCols, h.rows_len]
  · intro r hr
    simp only [Frame.ilocCols, List.mem_map] at hr
    obtain ⟨r', hr', rfl⟩ := hr
    simp [Frame.ilocCols, h.row_width r' hr']

theorem hcat_ilocCols [DecidableEq ι] {f : Frame ι κ α} (h : f.WF) {cb : List (Nat × Nat)}
    (hne : cb ≠ []) (hc : Covers cb f.ncols) :
    hcat (cb.map fun q => f.ilocCols q.1 q.2) = some f := by
  have hrows : hrows f.index.length
      ((cb.map fun q => f.ilocCols q.1 q.2).map (·.rows)) = f.rows := by
    rw [← h.rows_len, List.map_map]
    have := hrows_map f.rows (cb.map fun q => fun r => pySlice r q.1 q.2)
    rw [List.map_map] at this
    refine this.trans ?_
    simp only [List.map_map]
    conv => rhs; rw [← List.map_id f.rows]
    apply List.map_congr_left
    intro r hr
    exact hc r (h.row_width r hr)
  have hcols : ((cb.map fun q => f.ilocCols q.1 q.2).map (·.columns)).flatten = f.columns := by
    rw [List.map_map]; exact hc f.columns rfl
  cases cb with
  | nil => exact absurd rfl hne
  | cons q qs =>
    simp only [List.map_cons, hcat]
    rw [if_pos]
    · simp only [List.map_cons] at hrows hcols
      congr 1
      cases f
      simp only [Frame.mk.injEq]
      exact ⟨rfl, hcols, hrows⟩
    · simp [List.all_eq_true, Frame.ilocCols]

theorem vcat_ilocRows [DecidableEq κ] {f : Frame ι κ α} (h : f.WF) {rb : List (Nat × Nat)}
    (hne : rb ≠ []) (hc : Covers rb f.nrows) :
    vcat (rb.map fun p => f.ilocRows p.1 p.2) = some f := by
  have hrows : ((rb.map fun q => f.ilocRows q.1 q.2).map (·.rows)).flatten = f.rows := by
    rw [List.map_map]; exact hc f.rows h.rows_len
  have hidx : ((rb.map fun q => f.ilocRows q.1 q.2).map (·.index)).flatten = f.index := by
    rw [List.map_map]; exact hc f.index rfl
  cases rb with
  | nil => exact absurd rfl hne
  | cons q qs =>
    simp only [List.map_cons, vcat]
    rw [if_pos]
    · simp only [List.map_cons] at hrows hidx
      congr 1
      cases f
      simp only [Frame.mk.injEq]
      exact ⟨hidx, rfl, hrows⟩
    · simp [List.all_eq_true, Frame.ilocRows]

end Frame

theorem Covers.ne_nil {bs : List (Nat × Nat)} {n : Nat} (h : Covers bs n) (hn : 0 < n) : bs ≠ [] := by
  rintro rfl
  have := h (List.replicate n ()) (by simp)
  have := congrArg List.length this
  simp at this
  omega

theorem Covers.exists_nonempty {bs : List (Nat × Nat)} {τ : Type} {l : List τ}
    (h : Covers bs l.length) (hl : 0 < l.length) :
    ∃ p ∈ bs, 0 < (pySlice l p.1 p.2).length := by
  have hf := h l rfl
  cases hl' : l with
  | nil => simp [hl'] at hl
  | cons x xs =>
    have hx : x ∈ (bs.map fun p => pySlice l p.1 p.2).flatten := by rw [hf, hl']; simp
    simp only [List.mem_flatten, List.mem_map] at hx
    obtain ⟨_, ⟨p, hp, rfl⟩, hxp⟩ := hx
    exact ⟨p, hp, by rw [← hl']; exact List.length_pos_of_mem hxp⟩

theorem mapM_map_some {β γ δ : Type} (f : β → Option γ) (h : δ → β) (g : δ → γ) (l : List δ)
    (hg : ∀ x ∈ l, f (h x) = some (g x)) : (l.map h).mapM f = some (l.map g) := by
  induction l with
  | nil => simp
  | cons x xs ih =>
    simp only [List.map_cons, List.mapM_cons, hg x (by simp)]
    rw [ih (fun y hy => hg y (by simp [hy]))]
    rfl

theorem assemble_gridOf [DecidableEq ι] [DecidableEq κ] {df : Frame ι κ α} (h : df.WF)
    {rb cb : List (Nat × Nat)} (hrb : Covers rb df.nrows) (hcb : Covers cb df.ncols)
    (hne : rb ≠ []) (hc : 0 < df.ncols) : assemble (gridOf rb cb df) = some df := by
  have hfilter : (gridOf rb cb df).filter
      (fun row => !(row.all fun b => b.isEmpty && b.columns.length == 0)) = gridOf rb cb df := by
    rw [List.filter_eq_self]
    intro row hrow
    simp only [gridOf, List.mem_map] at hrow
    obtain ⟨p, _, rfl⟩ := hrow
    obtain ⟨q, hq, hq2⟩ := Covers.exists_nonempty hcb hc
    simp only [Bool.not_eq_true', List.all_eq_false, List.mem_map]
    refine ⟨_, ⟨q, hq, rfl⟩, ?_⟩
    simp only [Frame.ilocCols, Frame.ilocRows, Bool.and_eq_true, beq_iff_eq, not_and]
    omega
  unfold assemble
  rw [hfilter]
  have hm : (gridOf rb cb df).mapM Frame.hcat
      = some (rb.map fun p => df.ilocRows p.1 p.2) := by
    unfold gridOf
    apply mapM_map_some
    intro p _
    exact Frame.hcat_ilocCols (h.ilocRows _ _) (hcb.ne_nil hc) hcb
  rw [hm]
  simp only [Option.bind_eq_bind, Option.bind_some, List.isEmpty_map]
  rw [if_neg (by simpa using hne)]
  exact Frame.vcat_ilocRows h hne hrb


theorem Frame.WF.ilocCols_all {df : Frame ι κ α} (h : df.WF) : df.ilocCols 0 df.ncols = df := by
  cases df with
  | mk index columns rows =>
    simp only [Frame.ilocCols, Frame.ncols, Frame.mk.injEq, true_and]
    refine ⟨pySlice_all _ _ (Nat.le_refl _), ?_⟩
    conv => rhs; rw [← List.map_id rows]
    apply List.map_congr_left
    intro r hr
    exact pySlice_all _ _ (Nat.le_of_eq (h.row_width r hr))

theorem ilocCols_ilocRows_comm (df : Frame ι κ α) (a b c d : Nat) :
    (df.ilocCols a b).ilocRows c d = (df.ilocRows c d).ilocCols a b := by
  simp [Frame.ilocRows, Frame.ilocCols, pySlice_map]

/-- the column cuts made by `split_pandas_df_into_partitions` -/
def colBounds (n c : Nat) : List (Nat × Nat) :=
  if c ≥ n then [(0, n)] else (pyRangeStep n c).map fun i => (i, i + c)

theorem covers_colBounds {n c : Nat} (hc : 0 < c) : Covers (colBounds n c) n := by
  unfold colBounds
  split
  · exact covers_single n n (Nat.le_refl _)
  · exact covers_rangeStep hc

theorem splitPandas_eq {df : Frame ι κ α} (h : df.WF) (rc cc : Nat) :
    splitPandas df rc cc
      = gridOf ((pyRangeStep df.nrows rc).map fun i => (i, i + rc)) (colBounds df.ncols cc) df := by
  unfold splitPandas gridOf colBounds
  rw [List.map_map]
  apply List.map_congr_left
  intro i _
  split
  · simp only [List.map_cons, List.map_nil, Function.comp]
    rw [← ilocCols_ilocRows_comm, h.ilocCols_all]
  · simp only [List.map_map]
    apply List.map_congr_left
    intro j _
    simp only [Function.comp, ilocCols_ilocRows_comm]

theorem keepNonzero_id {τ : Type} (l : List τ) (ls : List Nat) (hlen : l.length ≤ ls.length)
    (h : ∀ x ∈ ls, x ≠ 0) : keepNonzero l ls = l := by
  induction l generalizing ls with
  | nil => cases ls <;> rfl
  | cons x xs ih =>
    cases ls with
    | nil => simp at hlen
    | cons y ys =>
      simp only [keepNonzero]
      rw [if_pos (h y (by simp)), ih ys (by simpa using hlen) (fun z hz => h z (by simp [hz]))]

theorem fromPandasLengths_pos {n c : Nat} (hc : 0 < c) : ∀ x ∈ fromPandasLengths n c, x ≠ 0 := by
  intro x hx
  unfold fromPandasLengths at hx
  simp only [List.mem_map] at hx
  obtain ⟨i, _, rfl⟩ := hx
  split
  · omega
  · split <;> omega

theorem pyRangeStep_zero (c : Nat) (hc : 0 < c) : pyRangeStep 0 c = [] := by
  simp only [pyRangeStep]
  rw [Nat.div_eq_of_lt (by omega)]
  rfl

theorem fromPandasLengths_length (n c : Nat) :
    (fromPandasLengths n c).length = (pyRangeStep n c).length := by simp [fromPandasLengths]

theorem colBounds_length {n c : Nat} (hc : 0 < c) (hn : 0 < n) :
    (colBounds n c).length = (fromPandasLengths n c).length := by
  rw [fromPandasLengths_length]
  unfold colBounds
  split
  · simp only [List.length_cons, List.length_nil, pyRangeStep, List.length_map, List.length_range]
    rename_i h
    have : (n + c - 1) / c = 1 := by
      apply Nat.div_eq_of_lt_le <;> omega
    omega
  · simp

/-- the outcome of `from_pandas`, for every frame and valid configuration -/
theorem fromPandas_eq {df : Frame ι κ α} (h : df.WF) {cfg : Cfg}
    {rc cc : Nat} (hrc : computeChunksize df.nrows cfg.nPartitions cfg.minRow = some rc)
    (hcc : computeChunksize df.ncols cfg.nPartitions cfg.minCol = some cc) :
    fromPandas cfg df = some
      { parts := splitPandas df rc cc, index := some df.index, columns := some df.columns,
        rowLens := some (fromPandasLengths df.nrows rc),
        colWidths := some (fromPandasLengths df.ncols cc) } := by
  have hrc0 : 0 < rc := by have := computeChunksize_spec hrc; omega
  have hcc0 : 0 < cc := by have := computeChunksize_spec hcc; omega
  simp only [fromPandas, pmFromPandas, hrc, hcc, Option.bind_eq_bind, Option.bind_some,
    Option.pure_def, MFrame.mk', validAxis, fromPandasLengths_sum _ _ hrc0,
    fromPandasLengths_sum _ _ hcc0]
  rw [if_pos]
  rotate_left
  · simp only [Frame.nrows, Frame.ncols, beq_self_eq_true, ite_self, Bool.and_self]
  congr 1
  unfold filterEmpties
  simp only [Option.any_some, fromPandasLengths_sum _ _ hrc0, fromPandasLengths_sum _ _ hcc0]
  split
  · rfl
  · rename_i hne
    simp only [Bool.or_eq_true, beq_iff_eq, not_or] at hne
    have hr := keepNonzero_id (splitPandas df rc cc) (fromPandasLengths df.nrows rc)
      (by simp [splitPandas, fromPandasLengths]) (fromPandasLengths_pos hrc0)
    have hc : (splitPandas df rc cc).map
        (fun row => keepNonzero row (fromPandasLengths df.ncols cc)) = splitPandas df rc cc := by
      conv => rhs; rw [← List.map_id (splitPandas df rc cc)]
      apply List.map_congr_left
      intro row hrow
      apply keepNonzero_id _ _ _ (fromPandasLengths_pos hcc0)
      rw [splitPandas_eq h] at hrow
      simp only [gridOf, List.mem_map] at hrow
      obtain ⟨p, _, rfl⟩ := hrow
      rw [List.length_map, colBounds_length hcc0 (by omega)]
      exact Nat.le_refl _
    have hf1 : (fromPandasLengths df.nrows rc).filter (· ≠ 0) = fromPandasLengths df.nrows rc := by
      rw [List.filter_eq_self]; intro x hx; simpa using fromPandasLengths_pos hrc0 x hx
    have hf2 : (fromPandasLengths df.ncols cc).filter (· ≠ 0) = fromPandasLengths df.ncols cc := by
      rw [List.filter_eq_self]; intro x hx; simpa using fromPandasLengths_pos hcc0 x hx
    rw [hr, hc, hf1, hf2]

theorem assemble_no_columns [DecidableEq ι] [DecidableEq κ] {df : Frame ι κ α}
    {rb cb : List (Nat × Nat)} (hc : df.ncols = 0) :
    assemble (gridOf rb cb df) = some { index := [], columns := [], rows := [] } := by
  have hfilter : (gridOf rb cb df).filter
      (fun row => !(row.all fun b => b.isEmpty && b.columns.length == 0)) = [] := by
    rw [List.filter_eq_nil_iff]
    intro row hrow
    simp only [gridOf, List.mem_map] at hrow
    obtain ⟨p, _, rfl⟩ := hrow
    simp only [Frame.ncols] at hc
    simp [List.all_eq_true, Frame.ilocCols, Frame.ilocRows, Frame.isEmpty, Frame.ncols, hc]
  unfold assemble
  rw [hfilter]
  simp

theorem splitResult_rows (k mb : Nat) (hk : k ≠ 1) (r : Frame ι κ α) (ll : Option (List Nat))
    (lens : List Nat) (h : ll = some lens ∨ ll = none ∧ getLengthList r.nrows k mb = some lens) :
    splitResult true k r mb ll = some ((sliceBounds lens).map fun p => r.ilocRows p.1 p.2) := by
  rcases h with h | ⟨h, h2⟩
  · simp [splitResult, hk, h]
  · simp [splitResult, hk, h, h2]

theorem splitResult_cols (k mb : Nat) (hk : k ≠ 1) (r : Frame ι κ α) (ll : Option (List Nat))
    (lens : List Nat) (h : ll = some lens ∨ ll = none ∧ getLengthList r.ncols k mb = some lens) :
    splitResult false k r mb ll = some ((sliceBounds lens).map fun p => r.ilocCols p.1 p.2) := by
  rcases h with h | ⟨h, h2⟩
  · simp [splitResult, hk, h]
  · simp [splitResult, hk, h, h2]

theorem fromPandasLengths_single {n c : Nat} (hn : 0 < n) (hc : n ≤ c) :
    fromPandasLengths n c = [n] := by
  have h1 : pyRangeStep n c = [0] := by
    have : (n + c - 1) / c = 1 := by apply Nat.div_eq_of_lt_le <;> omega
    simp [pyRangeStep, this]
  have h2 := fromPandasLengths_sum n c (by omega)
  unfold fromPandasLengths at h2 ⊢
  rw [h1] at h2 ⊢
  simpa using h2
