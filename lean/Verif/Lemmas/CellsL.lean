import Verif.Lemmas.Fold
import Verif.Lemmas.Mask
import Verif.Pandas.Fillna
import Verif.Props.MapPlans

variable {ι κ α β : Type}

/-! ### functions of a cell and its labels, under every plan of `map_partitions` -/

theorem mapCellsL_ilocRows (f : ι → κ → α → β) (x : Frame ι κ α) (i j : Nat) :
    (x.ilocRows i j).mapCellsL f = (x.mapCellsL f).ilocRows i j := by
  simp [Frame.mapCellsL, Frame.ilocRows, pySlice_zipWith]

theorem mapCellsL_ilocCols (f : ι → κ → α → β) (x : Frame ι κ α) (i j : Nat) :
    (x.ilocCols i j).mapCellsL f = (x.mapCellsL f).ilocCols i j := by
  simp [Frame.mapCellsL, Frame.ilocCols, pySlice_zipWith, List.zipWith_map_right, List.map_zipWith]

theorem Frame.WF.mapCellsL {x : Frame ι κ α} (h : x.WF) (f : ι → κ → α → β) : (x.mapCellsL f).WF := by
  constructor
  · simp [Frame.mapCellsL, h.rows_len]
  · intro r hr
    simp only [Frame.mapCellsL] at hr
    obtain ⟨i, hi, rfl⟩ := List.mem_iff_getElem.1 hr
    simp only [List.getElem_zipWith, List.length_zipWith, Frame.mapCellsL]
    rw [h.row_width _ (List.getElem_mem _)]
    simp

theorem Frame.cut_mapCellsL (f : ι → κ → α → β) (rl cw : List Nat) (df : Frame ι κ α) :
    (df.cut rl cw).map (·.map (·.mapCellsL f)) = (df.mapCellsL f).cut rl cw := by
  simp only [Frame.cut, List.map_map]
  apply List.map_congr_left
  intro p _
  simp only [Function.comp_def, List.map_map]
  apply List.map_congr_left
  intro q _
  rw [mapCellsL_ilocCols, mapCellsL_ilocRows]

theorem deploy_keep_rowsL [DecidableEq ι] [DecidableEq κ] (f : ι → κ → α → β) (parts : List (Frame ι κ α))
    (hne : parts ≠ []) (c : List κ) (hc : ∀ x ∈ parts, x.columns = c) (hwf : ∀ x ∈ parts, x.WF)
    (mb : Nat) :
    deployAxisFunc true (fun df => some (df.mapCellsL f)) parts.length true parts mb none false
      = some (parts.map (·.mapCellsL f)) := by
  have hsplit := vcat_split_self parts c hc hwf
  have hv := Frame.vcat_eq hne hc
  have hsum : (parts.map (·.nrows)).sum = ((parts.map (·.index)).flatten).length := by
    rw [List.length_flatten, List.map_map]; rfl
  generalize hG : (⟨(parts.map (·.index)).flatten, c, (parts.map (·.rows)).flatten⟩ : Frame ι κ α) = G at *
  have hGi : G.nrows = (parts.map (·.nrows)).sum := by rw [hsum, ← hG]; rfl
  unfold deployAxisFunc
  simp only [axisConcat, ↓reduceIte, hv, Option.bind_eq_bind, Option.bind_some]
  by_cases h1 : parts.length = 1
  · obtain ⟨x, rfl⟩ := List.length_eq_one_iff.mp h1
    have := hc x (by simp)
    simp [splitResult, ← hG, ← this]
  · have hn : (G.mapCellsL f).nrows = (parts.map (·.nrows)).sum := hGi
    simp only [h1, ↓reduceIte, ne_eq, not_true_eq_false, decide_false, Bool.not_true, Bool.or_self,
      Bool.false_eq_true, hn]
    rw [splitResult_rows _ _ h1 _ _ _ (Or.inl rfl)]
    congr 1
    conv => rhs; rw [← hsplit, List.map_map]
    apply List.map_congr_left
    intro p _
    simp only [Function.comp, mapCellsL_ilocRows]

theorem deploy_keep_colsL [DecidableEq ι] [DecidableEq κ] (f : ι → κ → α → β) (parts : List (Frame ι κ α))
    (hne : parts ≠ []) (r : List ι) (hr : ∀ x ∈ parts, x.index = r) (hwf : ∀ x ∈ parts, x.WF)
    (mb : Nat) :
    deployAxisFunc false (fun df => some (df.mapCellsL f)) parts.length true parts mb none false
      = some (parts.map (·.mapCellsL f)) := by
  have hsplit := hcat_split_self parts r hr hwf
  have hv := Frame.hcat_eq hne hr
  have hsum : (parts.map (·.ncols)).sum = ((parts.map (·.columns)).flatten).length := by
    rw [List.length_flatten, List.map_map]; rfl
  generalize hG : (⟨r, (parts.map (·.columns)).flatten, Frame.hrows r.length (parts.map (·.rows))⟩ : Frame ι κ α) = G at *
  have hGi : G.ncols = (parts.map (·.ncols)).sum := by rw [hsum, ← hG]; rfl
  unfold deployAxisFunc
  simp only [axisConcat, Bool.false_eq_true, ↓reduceIte, hv, Option.bind_eq_bind, Option.bind_some]
  by_cases h1 : parts.length = 1
  · obtain ⟨x, rfl⟩ := List.length_eq_one_iff.mp h1
    simp only [List.map_cons, List.map_nil] at hsplit
    have hx : G = x := by
      have h2 := hcat_split_self [x] r hr hwf
      have h3 : G.ncols = x.ncols := by rw [hGi]; simp
      have hGwf : G.WF := by
        have hxw := hwf x (by simp)
        have hxr := hr x (by simp)
        rw [← hG]
        constructor
        · rw [hrows_length]
          intro b hb
          simp only [List.map_cons, List.map_nil, List.mem_singleton] at hb
          rw [hb, hxw.rows_len, hxr]
        · intro y hy
          have : Frame.hrows r.length [x.rows] = x.rows := by
            simp only [Frame.hrows]
            rw [← hxr, ← hxw.rows_len]
            have := zipWith_append_map (fun r : List α => r) (fun _ => []) x.rows
            simpa [List.map_const'] using this
          simp only [List.map_cons, List.map_nil, this] at hy
          simpa using hxw.row_width y hy
      have h4 : sliceBounds [x.ncols] = [(0, x.ncols)] := by simp [sliceBounds, cumsumFrom, consecutive]
      rw [h4] at hsplit
      simp only [List.map_cons, List.map_nil, List.cons.injEq, and_true] at hsplit
      rw [← h3, hGwf.ilocCols_all] at hsplit
      exact hsplit
    simp [splitResult, hx]
  · have hn : (G.mapCellsL f).ncols = (parts.map (·.ncols)).sum := hGi
    simp only [h1, ↓reduceIte, ne_eq, not_true_eq_false, decide_false, Bool.not_true, Bool.or_self,
      Bool.false_eq_true, hn]
    rw [splitResult_cols _ _ h1 _ _ _ (Or.inl rfl)]
    congr 1
    conv => rhs; rw [← hsplit, List.map_map]
    apply List.map_congr_left
    intro p _
    simp only [Function.comp, mapCellsL_ilocCols]

theorem mapAxis_keep_cutL [DecidableEq ι] [DecidableEq κ] (cfg : Cfg) (axis0 : Bool) (f : ι → κ → α → β)
    {df : Frame ι κ α} (hwf : df.WF) {rl cw : List Nat} (hcut : df.IsCut rl cw) :
    mapAxisPartitions cfg axis0 (fun b => some (b.mapCellsL f)) (df.cut rl cw) true none none
      = some ((df.mapCellsL f).cut rl cw) := by
  have hrb := sliceBounds_ne_nil hcut.rl_ne
  have hcb := sliceBounds_ne_nil hcut.cw_ne
  unfold mapAxisPartitions truthyLengths axisNumSplits
  simp only [Option.isSome_none, Bool.and_false, Bool.false_eq_true, ↓reduceIte,
    Option.isNone_none, Bool.and_self]
  cases axis0 with
  | true =>
    simp only [↓reduceIte]
    rw [colBlocks_cut hcut.rl_ne]
    have hlen : (df.cut rl cw).length = (sliceBounds rl).length := by simp [Frame.cut]
    rw [hlen, mapM_map_some (g := fun q => (sliceBounds rl).map fun p =>
      (((df.mapCellsL f).ilocRows p.1 p.2).ilocCols q.1 q.2))]
    · simp only [Option.bind_eq_bind, Option.bind_some, Option.pure_def]
      rw [colBlocks_matrix _ _ _ hcb]
      rfl
    · intro q _
      have := deploy_keep_rowsL f ((sliceBounds rl).map fun p => (df.ilocRows p.1 p.2).ilocCols q.1 q.2)
        (by simpa using hrb) (pySlice df.columns q.1 q.2)
        (by intro x hx; simp only [List.mem_map] at hx; obtain ⟨p, _, rfl⟩ := hx; rfl)
        (by intro x hx; simp only [List.mem_map] at hx; obtain ⟨p, _, rfl⟩ := hx
            exact (hwf.ilocRows _ _).ilocCols _ _) cfg.minRow
      rw [List.length_map] at this
      rw [this, List.map_map]
      simp only [Function.comp_def, mapCellsL_ilocCols, mapCellsL_ilocRows]
  | false =>
    simp only [Bool.false_eq_true, ↓reduceIte]
    have hw : gridWidth (df.cut rl cw) = (sliceBounds cw).length := gridWidth_matrix _ _ _ hrb
    rw [hw]
    conv => lhs; unfold Frame.cut
    rw [mapM_map_some (g := fun p => (sliceBounds cw).map fun q =>
      (((df.mapCellsL f).ilocRows p.1 p.2).ilocCols q.1 q.2))]
    · simp only [Option.bind_eq_bind, Option.bind_some, Option.pure_def]
      rfl
    · intro p _
      have := deploy_keep_colsL f ((sliceBounds cw).map fun q => (df.ilocRows p.1 p.2).ilocCols q.1 q.2)
        (by simpa using hcb) (pySlice df.index p.1 p.2)
        (by intro x hx; simp only [List.mem_map] at hx; obtain ⟨q, _, rfl⟩ := hx; rfl)
        (by intro x hx; simp only [List.mem_map] at hx; obtain ⟨q, _, rfl⟩ := hx
            exact (hwf.ilocRows _ _).ilocCols _ _) cfg.minCol
      rw [List.length_map] at this
      rw [this, List.map_map]
      simp only [Function.comp_def, mapCellsL_ilocCols, mapCellsL_ilocRows]

theorem mapJoined_cutL [DecidableEq ι] [DecidableEq κ] (cfg : Cfg) (f : ι → κ → α → β) (k : Nat)
    (hk : 1 ≤ k) {df : Frame ι κ α} (hwf : df.WF) {rl cw : List Nat} (hcut : df.IsCut rl cw) :
    mapJoinedByColumn cfg (fun b => some (b.mapCellsL f)) (df.cut rl cw) k
      = some ((df.mapCellsL f).cut rl cw) := by
  have hcb := sliceBounds_ne_nil hcut.cw_ne
  unfold mapJoinedByColumn
  rw [if_neg (by omega)]
  generalize hstep : max ((df.cut rl cw).length / k) 1 = step
  have hstep1 : 0 < step := by omega
  simp only
  rw [mapM_congr_some (g := fun i => pySlice ((df.mapCellsL f).cut rl cw) i (i + step))]
  · simp only [Option.bind_eq_bind, Option.bind_some, Option.pure_def]
    have hlen : (df.cut rl cw).length = ((df.mapCellsL f).cut rl cw).length := by simp [Frame.cut]
    rw [hlen, rangeStep_flatten _ _ hstep1]
  · intro i hi
    have hi := (mem_pyRangeStep hstep1 hi).1
    have hsub : pySlice (df.cut rl cw) i (i + step)
        = (pySlice (sliceBounds rl) i (i + step)).map fun p => (sliceBounds cw).map fun q =>
            (df.ilocRows p.1 p.2).ilocCols q.1 q.2 := by
      unfold Frame.cut; rw [pySlice_map]
    have hsub' : pySlice ((df.mapCellsL f).cut rl cw) i (i + step)
        = (pySlice (sliceBounds rl) i (i + step)).map fun p => (sliceBounds cw).map fun q =>
            ((df.mapCellsL f).ilocRows p.1 p.2).ilocCols q.1 q.2 := by
      unfold Frame.cut; rw [pySlice_map]
    have hne : pySlice (sliceBounds rl) i (i + step) ≠ [] := by
      intro h0
      have := congrArg List.length h0
      simp only [pySlice_length, List.length_nil] at this
      have hl : (df.cut rl cw).length = (sliceBounds rl).length := by simp [Frame.cut]
      omega
    rw [hsub, colBlocks_matrix _ _ _ hne, List.length_map]
    rw [mapM_map_some (g := fun q => (pySlice (sliceBounds rl) i (i + step)).map fun p =>
      (((df.mapCellsL f).ilocRows p.1 p.2).ilocCols q.1 q.2))]
    · simp only [Option.bind_eq_bind, Option.bind_some, Option.pure_def]
      rw [colBlocks_matrix _ _ _ hcb, hsub']
    · intro q _
      have := deploy_keep_rowsL f
        ((pySlice (sliceBounds rl) i (i + step)).map fun p => (df.ilocRows p.1 p.2).ilocCols q.1 q.2)
        (by simpa using hne) (pySlice df.columns q.1 q.2)
        (by intro x hx; simp only [List.mem_map] at hx; obtain ⟨p, _, rfl⟩ := hx; rfl)
        (by intro x hx; simp only [List.mem_map] at hx; obtain ⟨p, _, rfl⟩ := hx
            exact (hwf.ilocRows _ _).ilocCols _ _) cfg.minRow
      rw [List.length_map] at this
      rw [this, List.map_map]
      simp only [Function.comp_def, mapCellsL_ilocCols, mapCellsL_ilocRows]
