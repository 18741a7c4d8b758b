import Verif.Lemmas.Concat

variable {ι κ α L : Type}

/-! ### cell-by-cell operations on blocks -/

theorem cell_iloc (B : Frame ι κ α) {a b c d x y : Nat} (hx : x < b - a) (hy : y < d - c) :
    ((B.ilocRows a b).ilocCols c d).cell x y = B.cell (a + x) (c + y) := by
  unfold Frame.cell
  simp only [Frame.ilocCols, Frame.ilocRows, List.getElem?_map, pySlice, List.getElem?_take, hx, ↓reduceIte,
    List.getElem?_drop]
  cases B.rows[a + x]? with
  | none => rfl
  | some r =>
    simp only [Option.map_some, Option.bind_some, List.getElem?_take, hy, ↓reduceIte, List.getElem?_drop]

theorem map_mapIdx' {β γ δ : Type} (g : γ → δ) (f : Nat → β → γ) (l : List β) :
    (l.mapIdx f).map g = l.mapIdx fun i x => g (f i x) := by
  apply List.ext_getElem?; intro i; simp [Function.comp_def]

theorem mapIdx_map' {β γ δ : Type} (g : β → γ) (f : Nat → γ → δ) (l : List β) :
    (l.map g).mapIdx f = l.mapIdx fun i x => f i (g x) := by
  apply List.ext_getElem?; intro i; simp [Function.comp_def]

theorem cellwise_iloc {β : Type} (f : α → List α → β) (A : Frame ι κ α) (Bs : List (Frame ι κ α)) (a b c d : Nat) :
    ((A.cellwise f Bs).ilocRows a b).ilocCols c d
      = ((A.ilocRows a b).ilocCols c d).cellwise f (Bs.map fun B => (B.ilocRows a b).ilocCols c d) := by
  simp only [Frame.cellwise]
  simp only [Frame.ilocRows, Frame.ilocCols, Frame.mk.injEq, true_and]
  rw [pySlice_mapIdx, map_mapIdx', mapIdx_map']
  apply mapIdx_congr
  intro x hx
  rw [pySlice_mapIdx]
  apply mapIdx_congr
  intro y hy
  have hx' : x < b - a := by
    unfold pySlice at hx
    simp only [List.length_take] at hx
    omega
  have hy' : y < d - c := by
    unfold pySlice at hy
    simp only [List.length_take] at hy
    omega
  congr 1
  rw [List.filterMap_map]
  refine filterMap_congr' ?_
  intro B _
  exact (cell_iloc B hx' hy').symm

theorem nAryOperation_cut [DecidableEq L] {β : Type} (f : α → List α → β) {A : Frame L L α} {Bs : List (Frame L L α)}
    (hB : ∀ B ∈ Bs, B.index = A.index ∧ B.columns = A.columns) (rl cw : List Nat) :
    nAryOperation (cellwiseBlock f) (A.cut rl cw) (Bs.map (·.cut rl cw)) = some ((A.cellwise f Bs).cut rl cw) := by
  unfold nAryOperation
  have hrow : (A.cellwise f Bs).cut rl cw = (List.range (A.cut rl cw).length).map fun i =>
      (sliceBounds cw).map fun q => (((A.cellwise f Bs).ilocRows (off rl i) (off rl (i + 1))).ilocCols q.1 q.2) := by
    unfold Frame.cut
    rw [List.length_map, sliceBounds_length, sliceBounds_eq rl, List.map_map]
    rfl
  rw [hrow]
  apply zipIdx_mapM_some
  intro i hi
  have hi' : i < rl.length := by simpa [Frame.cut, sliceBounds_length] using hi
  have hAi : (A.cut rl cw)[i] = (sliceBounds cw).map fun q =>
      (A.ilocRows (off rl i) (off rl (i + 1))).ilocCols q.1 q.2 := by
    unfold Frame.cut
    simp [sliceBounds_eq rl]
  simp only [hAi]
  have hcol : (sliceBounds cw).map (fun q =>
      ((A.cellwise f Bs).ilocRows (off rl i) (off rl (i + 1))).ilocCols q.1 q.2)
      = (List.range ((sliceBounds cw).map fun q =>
      (A.ilocRows (off rl i) (off rl (i + 1))).ilocCols q.1 q.2).length).map fun j =>
        ((A.cellwise f Bs).ilocRows (off rl i) (off rl (i + 1))).ilocCols (off cw j) (off cw (j + 1)) := by
    rw [List.length_map, sliceBounds_length, sliceBounds_eq cw, List.map_map]
    rfl
  rw [hcol]
  apply zipIdx_mapM_some
  intro j hj
  have hj' : j < cw.length := by simpa [sliceBounds_length] using hj
  simp only [List.getElem_map]
  rw [mapM_map_some (g := fun B : Frame L L α =>
    (B.ilocRows (off rl i) (off rl (i + 1))).ilocCols (off cw j) (off cw (j + 1)))]
  · rw [Option.bind_some]
    unfold cellwiseBlock
    have hq : (sliceBounds cw)[j]'(by simpa [sliceBounds_length] using hj') = (off cw j, off cw (j + 1)) := by
      have := sliceBounds_getElem? hj'
      rw [List.getElem?_eq_getElem (by simpa [sliceBounds_length] using hj')] at this
      exact Option.some.inj this
    rw [hq, if_pos]
    · rw [cellwise_iloc]
    · rw [List.all_eq_true]
      intro o ho
      obtain ⟨B, hBm, rfl⟩ := List.mem_map.1 ho
      simp only [Frame.ilocCols, Frame.ilocRows, (hB B hBm).1, (hB B hBm).2, beq_self_eq_true, Bool.and_self]
  · intro B _
    unfold Frame.cut
    rw [List.getElem?_map, sliceBounds_getElem? hi', Option.map_some, Option.bind_some, List.getElem?_map,
      sliceBounds_getElem? hj', Option.map_some]

theorem cellwise_wf {β : Type} (f : α → List α → β) {A : Frame ι κ α} (h : A.WF) (Bs : List (Frame ι κ α)) :
    (A.cellwise f Bs).WF := by
  constructor
  · simp [Frame.cellwise, h.rows_len]
  · intro r hr
    simp only [Frame.cellwise] at hr ⊢
    rw [List.mem_mapIdx] at hr
    obtain ⟨i, hi, rfl⟩ := hr
    simp [h.row_width _ (List.getElem_mem hi)]

/-! ### dropping empty bands -/

theorem filter_cons_nonzero (l : List Nat) : (l.filter (· ≠ 0)).filter (· ≠ 0) = l.filter (· ≠ 0) := by
  simp

/-- keeping the bands whose recorded length is non-zero changes nothing once they are gone already,
    as long as empty bands come last -/
theorem keepNonzero_zerosLast {τ : Type} (xs : List τ) (lens : List Nat) (hz : ZerosLast lens)
    (hlen : xs.length = (lens.filter (· ≠ 0)).length) : keepNonzero xs lens = xs := by
  induction lens generalizing xs with
  | nil =>
    have : xs = [] := List.length_eq_zero_iff.1 (by simpa using hlen)
    subst this; rfl
  | cons l ls ih =>
    by_cases h0 : l = 0
    · have hall : ∀ x ∈ ls, x = 0 := fun x hx => (List.pairwise_cons.1 hz).1 x hx h0
      have : (l :: ls).filter (· ≠ 0) = [] := by
        rw [List.filter_eq_nil_iff]
        intro x hx
        rcases List.mem_cons.1 hx with rfl | hx
        · simp [h0]
        · simp [hall x hx]
      rw [this] at hlen
      have : xs = [] := List.length_eq_zero_iff.1 (by simpa using hlen)
      subst this; rfl
    · cases xs with
      | nil => simp [h0] at hlen
      | cons x xs =>
        simp only [keepNonzero, ne_eq, h0, not_false_eq_true, ↓reduceIte, List.cons.injEq, true_and]
        apply ih _ (List.pairwise_cons.1 hz).2
        simpa [h0] using hlen

/-- the constructor gives the same frame whether or not the (last) empty bands are still recorded -/
theorem mk'_stale_lengths (g : Grid ι κ α) (idx : List ι) (cols : List κ) (lens cw : List Nat) (hz : ZerosLast lens)
    (hlen : g.length = (lens.filter (· ≠ 0)).length) (hi : idx ≠ []) (hc : cols ≠ [])
    (hs : lens.sum = idx.length) (hcw : cw.sum = cols.length) :
    (⟨g, some idx, some cols, some lens, some cw⟩ : MFrame ι κ α).mk'
      = (⟨g, some idx, some cols, some (lens.filter (· ≠ 0)), some cw⟩ : MFrame ι κ α).mk' := by
  unfold MFrame.mk' filterEmpties
  have hi' : idx.length ≠ 0 := fun h => hi (List.length_eq_zero_iff.1 h)
  have hc' : cols.length ≠ 0 := fun h => hc (List.length_eq_zero_iff.1 h)
  have hv : validAxis (some (lens.filter (· ≠ 0))) (some idx) = validAxis (some lens) (some idx) := by
    unfold validAxis; simp only [filter_nonzero_sum]
  simp only
  rw [hv, filter_nonzero_sum, keepNonzero_zerosLast g lens hz hlen, filter_cons_nonzero]
  have hk : keepNonzero g (lens.filter (· ≠ 0)) = g := by
    apply keepNonzero_zerosLast
    · exact List.Pairwise.filter _ hz
    · rw [filter_cons_nonzero]; exact hlen
  rw [hk]
  simp [hi', hc', hs, hcw, hi, hc]

/-- what the constructor does to a division: bands stay, or the empty ones go -/
theorem filterEmpties_cut {m : MFrame ι κ α} {df : Frame ι κ α} {rl cw : List Nat} (hcut : df.IsCut rl cw)
    (hp : m.parts = df.cut rl cw) (hrl : m.rowLens = some rl) (hcw : m.colWidths = none ∨ m.colWidths = some cw)
    (hi : m.index = some df.index) (hc : m.columns = none ∨ m.columns = some df.columns) :
    ∃ cw', (filterEmpties m).parts = df.cut (if m.colWidths.isSome ∧ df.index ≠ [] ∧ df.columns ≠ [] then rl.filter (· ≠ 0) else rl) cw' ∧
      df.IsCut (if m.colWidths.isSome ∧ df.index ≠ [] ∧ df.columns ≠ [] then rl.filter (· ≠ 0) else rl) cw' ∧
      ((filterEmpties m).colWidths = none ∨ (filterEmpties m).colWidths = some cw') := by
  have hrs := hcut.rl_sum
  have hcs := hcut.cw_sum
  simp only [Frame.nrows, Frame.ncols] at hrs hcs
  unfold filterEmpties
  rw [hrl]
  rcases hcw with h | h
  · simp only [h, Option.isSome_none, Bool.false_eq_true, false_and, ↓reduceIte]
    exact ⟨cw, hp, hcut, Or.inl trivial⟩
  · simp only [h, Option.isSome_some, true_and]
    by_cases hne : df.index ≠ [] ∧ df.columns ≠ []
    · have hi' : df.index.length ≠ 0 := fun h => hne.1 (List.length_eq_zero_iff.1 h)
      have hc' : df.columns.length ≠ 0 := fun h => hne.2 (List.length_eq_zero_iff.1 h)
      rw [if_pos hne, if_neg]
      · refine ⟨cw.filter (· ≠ 0), ?_, ⟨?_, ?_, ?_, ?_⟩, Or.inr rfl⟩
        · simp only
          rw [hp, keepNonzero_cut]
        · intro h0
          have := filter_nonzero_sum rl
          rw [h0, hrs] at this
          exact hi' this.symm
        · intro h0
          have := filter_nonzero_sum cw
          rw [h0, hcs] at this
          exact hc' this.symm
        · rw [filter_nonzero_sum, hcut.rl_sum]
        · rw [filter_nonzero_sum, hcut.cw_sum]
      · rw [hi, hrs, hcs]
        rcases hc with hc | hc <;> simp [hc, hi', hc', hne.1, hne.2]
    · rw [if_neg hne, if_pos]
      · exact ⟨cw, hp, hcut, Or.inr h⟩
      · rw [hi, hrs, hcs]
        simp only [Option.any_some, Bool.or_eq_true, beq_iff_eq]
        by_cases h1 : df.index = []
        · simp [h1]
        · have h2 : df.columns = [] := by
            by_cases h2 : df.columns = []
            · exact h2
            · exact absurd ⟨h1, h2⟩ hne
          simp [h2]

/-! ### frames side by side -/

theorem consecutive_append (s : Nat) (a b : List Nat) :
    consecutive (cumsumFrom s (a ++ b)) = consecutive (cumsumFrom s a) ++ consecutive (cumsumFrom (s + a.sum) b) := by
  induction a generalizing s with
  | nil => simp [cumsumFrom, consecutive]
  | cons x a ih =>
    rw [List.cons_append, consecutive_cumsumFrom_cons, consecutive_cumsumFrom_cons, ih, List.sum_cons, Nat.add_assoc]
    rfl

theorem consecutive_shift (s t : Nat) (b : List Nat) :
    consecutive (cumsumFrom (s + t) b) = (consecutive (cumsumFrom t b)).map fun p => (s + p.1, s + p.2) := by
  induction b generalizing t with
  | nil => simp [cumsumFrom, consecutive]
  | cons x b ih =>
    rw [consecutive_cumsumFrom_cons, consecutive_cumsumFrom_cons, List.map_cons, Nat.add_assoc, ih]

theorem sliceBounds_append (a b : List Nat) :
    sliceBounds (a ++ b) = sliceBounds a ++ (sliceBounds b).map fun p => (a.sum + p.1, a.sum + p.2) := by
  unfold sliceBounds
  rw [consecutive_append, Nat.zero_add, ← consecutive_shift, Nat.add_zero]

theorem le_sum_of_mem_sliceBounds {a : List Nat} {p : Nat × Nat} (h : p ∈ sliceBounds a) : p.2 ≤ a.sum := by
  rw [sliceBounds_eq] at h
  obtain ⟨i, _, rfl⟩ := List.mem_map.1 h
  exact off_le_sum a _

theorem zipWith_append_left {A : Type} (xs ys : List (List A)) (a b n : Nat) (h : b ≤ n) (hlen : xs.length = ys.length)
    (hx : ∀ r ∈ xs, r.length = n) :
    (List.zipWith (· ++ ·) xs ys).map (pySlice · a b) = xs.map (pySlice · a b) := by
  induction xs generalizing ys with
  | nil => simp
  | cons x xs ih =>
    cases ys with
    | nil => simp at hlen
    | cons y ys =>
      rw [List.zipWith_cons_cons, List.map_cons, List.map_cons, ih ys (by simpa using hlen)
        (fun r hr => hx r (List.mem_cons_of_mem _ hr)), pySlice_append_left _ _ _ _ (by rw [hx x (by simp)]; exact h)]

theorem zipWith_append_right {A : Type} (xs ys : List (List A)) (a b n : Nat) (hlen : xs.length = ys.length)
    (hx : ∀ r ∈ xs, r.length = n) :
    (List.zipWith (· ++ ·) xs ys).map (pySlice · (n + a) (n + b)) = ys.map (pySlice · a b) := by
  induction xs generalizing ys with
  | nil =>
    have : ys = [] := List.length_eq_zero_iff.1 hlen.symm
    subst this; rfl
  | cons x xs ih =>
    cases ys with
    | nil => simp at hlen
    | cons y ys =>
      rw [List.zipWith_cons_cons, List.map_cons, List.map_cons, ih ys (by simpa using hlen)
        (fun r hr => hx r (List.mem_cons_of_mem _ hr))]
      congr 1
      rw [← hx x (by simp), pySlice_append_right]

theorem ilocRows_ilocCols (df : Frame ι κ α) (a b c d : Nat) :
    (df.ilocRows a b).ilocCols c d = (df.ilocCols c d).ilocRows a b := by
  simp only [Frame.ilocRows, Frame.ilocCols, Frame.mk.injEq, true_and]
  rw [pySlice_map]

theorem stackCols_wf (J : List ι) (fs : List (Frame ι κ α)) (h : ∀ f ∈ fs, f.WF ∧ f.index = J) :
    (Frame.stackCols J fs).WF := by
  have hlen : ∀ b ∈ fs.map (·.rows), b.length = J.length := by
    intro b hb
    obtain ⟨f, hf, rfl⟩ := List.mem_map.1 hb
    rw [(h f hf).1.rows_len, (h f hf).2]
  constructor
  · exact hrows_length _ _ hlen
  · intro r hr
    simp only [Frame.stackCols] at hr ⊢
    obtain ⟨i, hi, rfl⟩ := List.getElem_of_mem hr
    have hi' : i < J.length := by rwa [hrows_length _ _ hlen] at hi
    have := hrows_getElem? J.length (fs.map (·.rows)) hlen i hi'
    rw [List.getElem?_eq_getElem hi] at this
    rw [Option.some.inj this]
    simp only [List.length_flatten, List.map_map]
    congr 1
    apply List.map_congr_left
    intro f hf
    simp only [Function.comp]
    have hfl : i < f.rows.length := by rw [(h f hf).1.rows_len, (h f hf).2]; exact hi'
    rw [List.getElem?_eq_getElem hfl, Option.getD_some]
    exact (h f hf).1.row_width _ (List.getElem_mem hfl)

theorem stackCols_cut (J : List ι) (rl : List Nat) (fs : List (Frame ι κ α × List Nat))
    (h : ∀ e ∈ fs, e.1.WF ∧ e.1.index = J ∧ e.2.sum = e.1.ncols) :
    Frame.hrows rl.length (fs.map fun e => e.1.cut rl e.2)
      = (Frame.stackCols J (fs.map (·.1))).cut rl (fs.map (·.2)).flatten := by
  induction fs with
  | nil =>
    simp [Frame.hrows, Frame.cut, sliceBounds, cumsumFrom, consecutive, List.map_const']
    exact (sliceBounds_length rl).symm
  | cons e fs ih =>
    obtain ⟨hwf, hi, hs⟩ := h e (by simp)
    have hrest := fun x hx => h x (List.mem_cons_of_mem _ hx)
    have hwf2 : (Frame.stackCols J (fs.map (·.1))).WF := by
      apply stackCols_wf
      intro f hf
      obtain ⟨x, hx, rfl⟩ := List.mem_map.1 hf
      exact ⟨(hrest x hx).1, (hrest x hx).2.1⟩
    rw [List.map_cons, Frame.hrows, ih hrest, List.map_cons, List.map_cons, List.flatten_cons]
    unfold Frame.cut
    rw [zipWith_append_map]
    apply List.map_congr_left
    intro p _
    rw [sliceBounds_append, List.map_append, List.map_map]
    have hlen : e.1.rows.length = (Frame.stackCols J (fs.map (·.1))).rows.length := by
      rw [hwf.rows_len, hi, hwf2.rows_len]; rfl
    have hn : e.2.sum = e.1.columns.length := hs
    congr 1
    · apply List.map_congr_left
      intro q hq
      have hq := le_sum_of_mem_sliceBounds hq
      rw [ilocRows_ilocCols, ilocRows_ilocCols]
      congr 1
      simp only [Frame.ilocCols, Frame.stackCols, List.map_cons, Frame.hrows, List.flatten_cons, Frame.mk.injEq]
      refine ⟨hi, ?_, ?_⟩
      · rw [pySlice_append_left _ _ _ _ (by omega)]
      · exact (zipWith_append_left _ _ _ _ e.1.columns.length (by omega) hlen (fun r hr => hwf.row_width r hr)).symm
    · apply List.map_congr_left
      intro q _
      simp only [Function.comp]
      rw [ilocRows_ilocCols, ilocRows_ilocCols]
      congr 1
      simp only [Frame.ilocCols, Frame.stackCols, List.map_cons, Frame.hrows, List.flatten_cons, Frame.mk.injEq, true_and]
      rw [hn]
      refine ⟨(pySlice_append_right _ _ _ _).symm, ?_⟩
      exact (zipWith_append_right _ _ _ _ e.1.columns.length hlen (fun r hr => hwf.row_width r hr)).symm

theorem concatCols_spec [DecidableEq L] (P : JoinOps L) (cfg : Cfg) (hp : 1 ≤ cfg.nPartitions) (hr : 1 ≤ cfg.minRow)
    (hc : 1 ≤ cfg.minCol) (nan : α) (known : Grid L L α → Bool) (p0 : Piece L α) (ps : List (Piece L α))
    (hok : ∀ p ∈ p0 :: ps, p.Ok true ∧ p.has = true ∧ p.m.Represents p.df ∧
      (p.m.colWidths = none ∨ p.m.colWidths = some p.across) ∧ (p.m.rowLens = none ∨ p.m.rowLens = some p.along))
    (hal : Alignable P true p0 ps) :
    ∃ m, concatCols P cfg nan known p0.m (ps.map (·.m)) = some m ∧
      m.Represents (Frame.stackCols (jLabels P true p0 ps) (alignedDfs P true nan p0 ps)) := by
  obtain ⟨lens, oJ, oL, hco, hoJ, hrest, _⟩ :=
    copartition_spec P cfg hp hr hc true nan p0 ps (fun p hp => (hok p hp).1) hal
  obtain ⟨hlne, hls, hoL, _⟩ := hrest ⟨p0, by simp, (hok p0 (by simp)).2.1⟩
  unfold concatCols
  rw [hco, Option.bind_some]
  simp only
  generalize hS : Frame.stackCols (jLabels P true p0 ps) (alignedDfs P true nan p0 ps) = S
  have hcutm : ∀ p ∈ p0 :: ps, p.df.IsCut p.along p.across := fun p hp => (hok p hp).1.cut (hok p hp).2.1
  have hfacts : ∀ e ∈ (p0 :: ps).zipIdx, (reindexFn true nan (jLabels P true p0 ps)
      ((jIndexer P true p0 ps e).getD []) e.1.df).WF ∧ (reindexFn true nan (jLabels P true p0 ps)
      ((jIndexer P true p0 ps e).getD []) e.1.df).index = jLabels P true p0 ps := by
    intro e he
    obtain ⟨⟨I, hI, hI2⟩, _⟩ := hal e he
    rw [hI, Option.getD_some]
    exact ⟨reindexFn_wf hI2.length (hok e.1 (fst_mem_of_mem_zipIdx' he)).1.wf, rfl⟩
  have hSwf : S.WF := by
    rw [← hS]
    apply stackCols_wf
    intro f hf
    unfold alignedDfs at hf
    obtain ⟨e, he, rfl⟩ := List.mem_map.1 hf
    exact hfacts e he
  have hScols : S.columns = ((p0 :: ps).map (·.df.columns)).flatten := by
    rw [← hS]
    unfold alignedDfs
    simp only [Frame.stackCols, List.map_map]
    rw [show ((·.columns) ∘ fun e : Piece L α × Nat => reindexFn true nan (jLabels P true p0 ps)
        ((jIndexer P true p0 ps e).getD []) e.1.df) = (fun p : Piece L α => p.df.columns) ∘ Prod.fst from rfl,
      ← List.map_map, List.zipIdx_map_fst]
  have hScw : (((p0 :: ps).map (·.across)).flatten).sum = S.ncols := by
    show _ = S.columns.length
    rw [hScols, sum_flatten', List.length_flatten, List.map_map, List.map_map]
    congr 1
    apply List.map_congr_left
    intro p hpm
    exact (hcutm p hpm).cw_sum
  have hgrid : pmConcatCols (alignedBlocks P true nan p0 ps lens)
      = some (S.cut lens ((p0 :: ps).map (·.across)).flatten) := by
    have hne : ∀ g ∈ alignedBlocks P true nan p0 ps lens, g.length = lens.length := by
      intro g hg
      unfold alignedBlocks at hg
      obtain ⟨e, he, rfl⟩ := List.mem_map.1 hg
      unfold Piece.target
      rw [(hok e.1 (fst_mem_of_mem_zipIdx' he)).2.1]
      simp [Frame.cutA, Frame.cut, sliceBounds_length]
    have hfil : (alignedBlocks P true nan p0 ps lens).filter (!·.isEmpty) = alignedBlocks P true nan p0 ps lens := by
      rw [List.filter_eq_self]
      intro g hg
      have := hne g hg
      cases g with
      | nil => exact absurd (List.length_eq_zero_iff.1 this.symm) hlne
      | cons _ _ => rfl
    have hcons : ∃ g gs, alignedBlocks P true nan p0 ps lens = g :: gs := by
      unfold alignedBlocks
      rw [List.zipIdx_cons, List.map_cons]
      exact ⟨_, _, rfl⟩
    obtain ⟨g, gs, hgs⟩ := hcons
    unfold pmConcatCols
    rw [hfil, hgs]
    simp only
    rw [if_pos]
    · rw [hne g (by rw [hgs]; simp), ← hgs]
      have := stackCols_cut (jLabels P true p0 ps) lens ((p0 :: ps).zipIdx.map fun e =>
        (reindexFn true nan (jLabels P true p0 ps) ((jIndexer P true p0 ps e).getD []) e.1.df, e.1.across)) (by
          intro x hx
          obtain ⟨e, he, rfl⟩ := List.mem_map.1 hx
          exact ⟨(hfacts e he).1, (hfacts e he).2, (hcutm e.1 (fst_mem_of_mem_zipIdx' he)).cw_sum⟩)
      rw [List.map_map, List.map_map, List.map_map] at this
      have e1 : (p0 :: ps).map (·.across) = (p0 :: ps).zipIdx.map ((·.2) ∘ fun e : Piece L α × Nat =>
          (reindexFn true nan (jLabels P true p0 ps) ((jIndexer P true p0 ps e).getD []) e.1.df, e.1.across)) := by
        rw [show ((·.2) ∘ fun e : Piece L α × Nat =>
          (reindexFn true nan (jLabels P true p0 ps) ((jIndexer P true p0 ps e).getD []) e.1.df, e.1.across))
          = (fun p : Piece L α => p.across) ∘ Prod.fst from rfl, ← List.map_map, List.zipIdx_map_fst]
      rw [e1, ← hS]
      refine Eq.trans ?_ (congrArg some this)
      congr 2
      unfold alignedBlocks
      apply List.map_congr_left
      intro e he
      unfold Piece.target
      rw [(hok e.1 (fst_mem_of_mem_zipIdx' he)).2.1]
      rfl
    · rw [List.all_eq_true]
      intro g' hg'
      rw [hne g (by rw [hgs]; simp), hne g' (by rw [hgs]; simp [hg'])]
      simp
  rw [hgrid, Option.bind_some]
  have hcut : S.IsCut lens (((p0 :: ps).map (·.across)).flatten) := by
    refine ⟨hlne, ?_, by rw [hls, ← hS]; rfl, hScw⟩
    intro h0
    have := (hcutm p0 (by simp)).cw_ne
    exact this (List.flatten_eq_nil_iff.1 h0 p0.across (by simp))
  have hget : ∀ {A : Type} (f : MFrame L L α → Option (List A)) (t : Piece L α → List A),
      (∀ p ∈ p0 :: ps, f p.m = none ∨ f p.m = some (t p)) →
      appendLabels ((p0.m :: ps.map (·.m)).map f) = none ∨
      appendLabels ((p0.m :: ps.map (·.m)).map f) = some ((p0 :: ps).map t).flatten := by
    intro A f t hft
    apply appendLabels_spec (by simp)
    intro i a t' ha ht
    rw [show p0.m :: ps.map (·.m) = (p0 :: ps).map (·.m) from rfl, List.map_map, List.getElem?_map] at ha
    rw [List.getElem?_map] at ht
    cases hi : (p0 :: ps)[i]? with
    | none => rw [hi] at ha; cases ha
    | some p =>
      rw [hi] at ha ht
      cases ha; cases ht
      exact hft p (List.mem_of_getElem? hi)
  apply represents_mk'
  refine ⟨hSwf, ⟨lens, _, hcut, rfl, ?_, ?_⟩, ?_, ?_⟩
  · rcases hoL with h | ⟨hps, hla, h⟩
    · right; exact h
    · subst hps
      have := (hok p0 (by simp)).2.2.2.2
      rw [← hla] at this
      simp only [MFrame.axisCache, ↓reduceIte] at h
      rw [h]; exact this
  · have hw := hget (·.colWidths) (·.across) (fun p hp => (hok p hp).2.2.2.1)
    have hgl : gridAxisLens false (S.cut lens (((p0 :: ps).map (·.across)).flatten)) = ((p0 :: ps).map (·.across)).flatten :=
      gridAxisLens_cut false (df := S) (across := lens) (show S.IsCutA false _ lens from hcut)
    have hemp : (S.cut lens (((p0 :: ps).map (·.across)).flatten)).isEmpty = false := by
      have := sliceBounds_ne_nil hcut.rl_ne
      simp [Frame.cut, this]
    have hfall : ∀ x, (if (S.cut lens (((p0 :: ps).map (·.across)).flatten)).isEmpty then some [] else if x = true then
        some (gridAxisLens false (S.cut lens (((p0 :: ps).map (·.across)).flatten))) else none) = none ∨
        (if (S.cut lens (((p0 :: ps).map (·.across)).flatten)).isEmpty then some [] else if x = true then
        some (gridAxisLens false (S.cut lens (((p0 :: ps).map (·.across)).flatten))) else none)
          = some ((p0 :: ps).map (·.across)).flatten := by
      intro x
      rw [hemp, hgl]
      cases x <;> simp
    simp only
    rcases hw with h | h
    · rw [show appendWidths ((p0.m :: ps.map (·.m)).map (·.colWidths)) = none from h]
      exact hfall _
    · rw [show appendWidths ((p0.m :: ps.map (·.m)).map (·.colWidths)) = some _ from h]
      generalize hF : ((p0 :: ps).map (·.across)).flatten = F at *
      cases F with
      | nil => exact hfall _
      | cons x xs => right; rfl
  · rcases hoJ with h | ⟨hps, h⟩
    · right; rw [← hS]; exact h
    · subst hps
      have h1 := (hok p0 (by simp)).2.2.1.index
      have h2 : jLabels P true p0 [] = p0.df.index := by
        simp [jLabels, joinedLabels, allSame, Frame.axisLabels]
      have h3 : S.index = p0.df.index := by rw [← hS, ← h2]; rfl
      rw [h3]
      simp only [MFrame.axisCache, ↓reduceIte] at h
      rw [h]; exact h1
  · rw [hScols]
    exact hget (·.columns) (·.df.columns) (fun p hp => (hok p hp).2.2.1.columns)

/-! ### operations on several frames -/

theorem mk'_eq_filterEmpties {m m' : MFrame ι κ α} (h : m.mk' = some m') : m' = filterEmpties m := by
  unfold MFrame.mk' at h
  split at h
  · exact (Option.some.inj h).symm
  · cases h

/-- when the row bands of all operands are treated alike: no recorded column widths at all, or no
    empty row bands and either all widths recorded (and columns there) or equal row labels -/
def BandsAgree (Jc : List L) (ps : List (Piece L α)) : Prop :=
  (∀ p ∈ ps, p.m.colWidths = none) ∨
  ((∀ p ∈ ps, 0 ∉ p.along) ∧
    ((Jc ≠ [] ∧ ∀ p ∈ ps, p.m.colWidths.isSome ∧ p.df.columns ≠ []) ∨ ∀ p ∈ ps, ∀ q ∈ ps, p.df.index = q.df.index))

/-- what an operation on the blocks of frames aligned by label comes to: the operation on the blocks of a common cut of the aligned frames -/
theorem nAryOp_general [DecidableEq L] (P : JoinOps L) (hP : P.Good) (cfg : Cfg) (hp : 1 ≤ cfg.nPartitions) (hr : 1 ≤ cfg.minRow)
    (hc : 1 ≤ cfg.minCol) (nan : α) (p0 : Piece L α) (ps : List (Piece L α)) (hps : ps ≠ [])
    (hok : ∀ p ∈ p0 :: ps, p.Ok true ∧ p.has = true ∧ p.m.Represents p.df ∧
      (p.m.colWidths = none ∨ p.m.colWidths = some p.across) ∧ (p.m.rowLens = none ∨ p.m.rowLens = some p.along))
    (hal : Alignable P true p0 ps)
    (hjc : Joinable P false p0.df.columns (ps.map (·.df.columns)))
    (hb : BandsAgree (joinedLabels P false p0.df.columns (ps.map (·.df.columns))) (p0 :: ps)) :
    ∃ B0 Bs R lens2,
      ((alignedDfs P true nan p0 ps).zipIdx.map fun e =>
        reindexFn false nan (joinedLabels P false p0.df.columns (ps.map (·.df.columns)))
          ((reindexer P false p0.df.columns (ps.map (·.df.columns)) e.2 e.1.columns).getD []) e.1) = B0 :: Bs ∧
      (∀ b ∈ B0 :: Bs, b.WF ∧ b.index = B0.index ∧ b.columns = B0.columns) ∧ B0.IsCut R lens2 ∧
      (∀ {β : Type} (op : Frame L L α → List (Frame L L α) → Option (Frame L L β)),
        nAryOperation op (B0.cut R lens2) (Bs.map (·.cut R lens2)) = none → nAryOp P cfg nan op p0.m (ps.map (·.m)) = none) ∧
      (∀ {β : Type} (op : Frame L L α → List (Frame L L α) → Option (Frame L L β)) (C : Frame L L β), C.WF → C.index = B0.index →
        C.columns = B0.columns → nAryOperation op (B0.cut R lens2) (Bs.map (·.cut R lens2)) = some (C.cut R lens2) →
        ∃ m, nAryOp P cfg nan op p0.m (ps.map (·.m)) = some m ∧ m.Represents C) := by
  obtain ⟨lens, oJ, oL, hco, hoJ, hrest, _⟩ :=
    copartition_spec P cfg hp hr hc true nan p0 ps (fun p hp => (hok p hp).1) hal
  obtain ⟨hlne, hls, hoL, hshape⟩ := hrest ⟨p0, by simp, (hok p0 (by simp)).2.1⟩
  have hoJ : oJ = some (jLabels P true p0 ps) := hoJ.resolve_right (fun h => hps h.1)
  have hoL : oL = some lens := hoL.resolve_right (fun h => hps h.1)
  subst hoJ; subst hoL
  generalize hJ : jLabels P true p0 ps = J at *
  generalize hJc : joinedLabels P false p0.df.columns (ps.map (·.df.columns)) = Jc at *
  have hcutm : ∀ p ∈ p0 :: ps, p.df.IsCut p.along p.across := fun p hp => (hok p hp).1.cut (hok p hp).2.1
  -- how the constructor treats the row bands
  obtain ⟨R, hR, hRl⟩ : ∃ R, (∀ p ∈ p0 :: ps,
      (if p.m.colWidths.isSome = true ∧ J ≠ [] ∧ p.df.columns ≠ [] then lens.filter (· ≠ 0) else lens) = R) ∧
      (R = lens ∨ (R = lens.filter (· ≠ 0) ∧ ZerosLast lens ∧ J ≠ [] ∧ Jc ≠ [])) := by
    rcases hb with h | ⟨hnz, h⟩
    · exact ⟨lens, fun p hp => by rw [h p hp]; simp, Or.inl rfl⟩
    · rcases hshape with ⟨p, hpm, _, hl⟩ | ⟨hz, p, hpm, hne⟩
      · have : lens.filter (· ≠ 0) = lens := by
          rw [List.filter_eq_self]
          intro x hx
          have : x ≠ 0 := fun h0 => hnz p hpm (by rw [← hl, ← h0]; exact hx)
          simpa using this
        rw [this]
        exact ⟨lens, fun p hp => by simp, Or.inl rfl⟩
      · rcases h with ⟨hjc', h⟩ | h
        · by_cases hJ0 : J = []
          · exact ⟨lens, fun p hp => by simp [hJ0], Or.inl rfl⟩
          · exact ⟨lens.filter (· ≠ 0), fun p hp => by rw [if_pos ⟨(h p hp).1, hJ0, (h p hp).2⟩],
              Or.inr ⟨rfl, hz, hJ0, hjc'⟩⟩
        · exfalso
          apply hne
          have : allSame (p0.df.axisLabels true) (ps.map (·.df.axisLabels true)) = true := by
            unfold allSame
            rw [List.all_eq_true]
            intro l hl
            obtain ⟨q, hq, rfl⟩ := List.mem_map.1 hl
            simpa [Frame.axisLabels] using h q (List.mem_cons_of_mem _ hq) p0 (by simp)
          rw [← hJ]
          unfold jLabels joinedLabels
          rw [this]
          simp only [Bool.or_true, ↓reduceIte]
          exact h p hpm p0 (by simp)
  -- the frames after the rows have been aligned
  let A : Piece L α × Nat → Frame L L α := fun e => reindexFn true nan J ((jIndexer P true p0 ps e).getD []) e.1.df
  let mid : Piece L α × Nat → MFrame L L α := fun e =>
    ⟨(A e).cut lens e.1.across, some J, e.1.m.columns, some lens, e.1.m.colWidths⟩
  have hA : ∀ e ∈ (p0 :: ps).zipIdx, (A e).WF ∧ (A e).index = J ∧ (A e).columns = e.1.df.columns ∧
      (A e).IsCut lens e.1.across := by
    intro e he
    obtain ⟨⟨I, hI, hI2⟩, _⟩ := hal e he
    rw [hJ] at hI2
    have hcm := hcutm e.1 (fst_mem_of_mem_zipIdx' he)
    refine ⟨?_, rfl, rfl, hlne, hcm.cw_ne, hls, hcm.cw_sum⟩
    show (reindexFn true nan J ((jIndexer P true p0 ps e).getD []) e.1.df).WF
    rw [hI, Option.getD_some]
    exact reindexFn_wf hI2.length (hok e.1 (fst_mem_of_mem_zipIdx' he)).1.wf
  have hrepm : ∀ e ∈ (p0 :: ps).zipIdx, (mid e).Represents (A e) := by
    intro e he
    obtain ⟨h1, h2, h3, h4⟩ := hA e he
    have ho := hok e.1 (fst_mem_of_mem_zipIdx' he)
    refine ⟨h1, ⟨lens, e.1.across, h4, rfl, Or.inr rfl, ho.2.2.2.1⟩, Or.inr (by rw [h2]), ?_⟩
    rw [h3]; exact ho.2.2.1.columns
  have hmid : ∀ e ∈ (p0 :: ps).zipIdx, (mid e).mk' = some (filterEmpties (mid e)) ∧
      (filterEmpties (mid e)).Represents (A e) ∧
      ∃ cw', (filterEmpties (mid e)).parts = (A e).cut R cw' ∧ (A e).IsCut R cw' ∧
        ((filterEmpties (mid e)).colWidths = none ∨ (filterEmpties (mid e)).colWidths = some cw') := by
    intro e he
    obtain ⟨m', hm1, hm2⟩ := represents_mk' (hrepm e he)
    have := mk'_eq_filterEmpties hm1
    subst this
    refine ⟨hm1, hm2, ?_⟩
    obtain ⟨h1, h2, h3, h4⟩ := hA e he
    have ho := hok e.1 (fst_mem_of_mem_zipIdx' he)
    have := filterEmpties_cut (m := mid e) h4 rfl rfl ho.2.2.2.1 (by rw [h2])
      (by rw [h3]; exact ho.2.2.1.columns)
    rw [h2, h3] at this
    rw [show (mid e).colWidths = e.1.m.colWidths from rfl, hR e.1 (fst_mem_of_mem_zipIdx' he)] at this
    exact this
  -- ... as pieces
  obtain ⟨ql, hql, hq⟩ := list_choose_map (fun q : Piece L α => (q.m, q.df))
    ((p0 :: ps).zipIdx.map fun e => (filterEmpties (mid e), A e))
    (fun q => q.m.Represents q.df ∧ q.Ok false ∧ q.has = true ∧ q.across = R ∧ q.df.index = J ∧
      (q.m.colWidths = none ∨ q.m.colWidths = some q.along)) (by
      intro x hx
      obtain ⟨e, he, rfl⟩ := List.mem_map.1 hx
      obtain ⟨_, h2, cw', h3, h4, h5⟩ := hmid e he
      refine ⟨⟨filterEmpties (mid e), A e, true, cw', R⟩, rfl, h2, ⟨(hA e he).1, fun _ => h4, h3,
        fun _ => getColWidths_cut h4 h3 h5, h2.getColumns⟩, rfl, rfl, (hA e he).2.1, h5⟩)
  cases ql with
  | nil => simp [List.zipIdx_cons] at hql
  | cons q0 qs =>
    have hqm : (q0 :: qs).map (·.m) = (p0 :: ps).zipIdx.map fun e => filterEmpties (mid e) := by
      have := congrArg (List.map Prod.fst) hql
      rw [List.map_map, List.map_map] at this
      exact this
    have hqd : (q0 :: qs).map (·.df) = alignedDfs P true nan p0 ps := by
      have := congrArg (List.map Prod.snd) hql
      rw [List.map_map, List.map_map] at this
      rw [show alignedDfs P true nan p0 ps = (p0 :: ps).zipIdx.map A from by
        unfold alignedDfs; rw [hJ]]
      exact this
    have hqc : (q0 :: qs).map (·.df.columns) = (p0 :: ps).map (·.df.columns) := by
      rw [show (fun x : Piece L α => x.df.columns) = (fun d : Frame L L α => d.columns) ∘ (fun x : Piece L α => x.df) from rfl, ← List.map_map, hqd]
      unfold alignedDfs
      rw [List.map_map]
      rw [show ((fun d : Frame L L α => d.columns) ∘ fun e : Piece L α × Nat => reindexFn true nan (jLabels P true p0 ps)
        ((jIndexer P true p0 ps e).getD []) e.1.df) = (fun p : Piece L α => p.df.columns) ∘ Prod.fst from rfl,
        ← List.map_map, List.zipIdx_map_fst]
      rfl
    have hqs : qs ≠ [] := by
      intro h
      have := congrArg List.length hqm
      rw [h, List.length_map, List.length_map, List.length_zipIdx, List.length_cons, List.length_cons] at this
      exact hps (List.length_eq_zero_iff.1 (by simpa using this.symm))
    have hq0c : q0.df.columns = p0.df.columns := (List.cons.inj hqc).1
    have hqsc : qs.map (·.df.columns) = ps.map (·.df.columns) := (List.cons.inj hqc).2
    have hal2 : Alignable P false q0 qs := by
      refine alignable_of hP ?_ (fun h => nomatch h)
      show Joinable P false q0.df.columns (qs.map (·.df.columns))
      rw [hq0c, hqsc]; exact hjc
    have hjl : jLabels P false q0 qs = Jc := by
      show joinedLabels P false q0.df.columns (qs.map (·.df.columns)) = Jc
      rw [hq0c, hqsc]; exact hJc
    obtain ⟨lens2, oJ2, oL2, hco2, hoJ2, hrest2, _⟩ :=
      copartition_spec P cfg hp hr hc false nan q0 qs (fun q hq' => (hq q hq').2.1) hal2
    obtain ⟨hl2ne, hl2s, hoL2, _⟩ := hrest2 ⟨q0, by simp, (hq q0 (by simp)).2.2.1⟩
    have hoJ2 : oJ2 = some (jLabels P false q0 qs) := hoJ2.resolve_right (fun h => hqs h.1)
    have hoL2 : oL2 = some lens2 := hoL2.resolve_right (fun h => hqs h.1)
    subst hoJ2; subst hoL2
    -- the blocks after both alignments
    let B : Piece L α × Nat → Frame L L α := fun e => reindexFn false nan Jc ((jIndexer P false q0 qs e).getD []) e.1.df
    have hB : ∀ e ∈ (q0 :: qs).zipIdx, (B e).WF ∧ (B e).index = J ∧ (B e).columns = Jc := by
      intro e he
      obtain ⟨⟨I, hI, hI2⟩, _⟩ := hal2 e he
      rw [hjl] at hI2
      have hqe := hq e.1 (fst_mem_of_mem_zipIdx' he)
      refine ⟨?_, hqe.2.2.2.2.1, rfl⟩
      show (reindexFn false nan Jc ((jIndexer P false q0 qs e).getD []) e.1.df).WF
      rw [hI, Option.getD_some]
      exact reindexFn_wf hI2.length hqe.2.1.wf
    have hblk : alignedBlocks P false nan q0 qs lens2 = ((q0 :: qs).zipIdx.map B).map (·.cut R lens2) := by
      unfold alignedBlocks
      rw [List.map_map]
      apply List.map_congr_left
      intro e he
      have hqe := hq e.1 (fst_mem_of_mem_zipIdx' he)
      unfold Piece.target
      rw [hqe.2.2.1, hjl, hqe.2.2.2.1]
      rfl
    have hBs : ∃ B0 Bs, (q0 :: qs).zipIdx.map B = B0 :: Bs := by
      rw [List.zipIdx_cons, List.map_cons]; exact ⟨_, _, rfl⟩
    obtain ⟨B0, Bs, hBs⟩ := hBs
    have hBall : ∀ b ∈ B0 :: Bs, b.WF ∧ b.index = J ∧ b.columns = Jc := by
      intro b hb'
      rw [← hBs] at hb'
      obtain ⟨e, he, rfl⟩ := List.mem_map.1 hb'
      exact hB e he
    have hRne : R ≠ [] := by
      have h2 := (hq q0 (by simp)).2.1.cut (hq q0 (by simp)).2.2.1
      have := (h2 : q0.df.IsCut _ _).rl_ne
      rwa [(hq q0 (by simp)).2.2.2.1] at this
    have hRs : R.sum = J.length := by
      have h2 := (hq q0 (by simp)).2.1.cut (hq q0 (by simp)).2.2.1
      have := (h2 : q0.df.IsCut _ _).rl_sum
      rw [(hq q0 (by simp)).2.2.2.1] at this
      rw [this, ← (hq q0 (by simp)).2.2.2.2.1]
      rfl
    have hB0 := hBall B0 (by simp)
    have hcutB : B0.IsCut R lens2 := by
      refine ⟨hRne, hl2ne, ?_, ?_⟩
      · show R.sum = B0.index.length
        rw [hB0.2.1]; exact hRs
      · show lens2.sum = B0.columns.length
        rw [hB0.2.2, hl2s, hjl]
    have hnb : ∀ {β : Type} (op : Frame L L α → List (Frame L L α) → Option (Frame L L β)),
        nAryBlocks op (alignedBlocks P false nan q0 qs lens2) = nAryOperation op (B0.cut R lens2) (Bs.map (·.cut R lens2)) := by
      intro β op
      rw [hblk, hBs, List.map_cons]
      unfold nAryBlocks
      simp only
      have hemp : ∀ b : Frame L L α, (b.cut R lens2).isEmpty = false := by
        intro b
        have := sliceBounds_ne_nil hRne
        simp [Frame.cut, this]
      rw [if_neg]
      simp only [hemp, Bool.false_or, List.any_map, Function.comp_def, List.any_eq_true, not_exists]
      simp
    have hop : ∀ {β : Type} (op : Frame L L α → List (Frame L L α) → Option (Frame L L β)),
        nAryOp P cfg nan op p0.m (ps.map (·.m)) = (nAryOperation op (B0.cut R lens2) (Bs.map (·.cut R lens2))).bind fun g =>
          MFrame.mk' { parts := g, index := some J, columns := some Jc, rowLens := some lens, colWidths := some lens2 } := by
      intro β op
      unfold nAryOp
      rw [hco, Option.bind_some]
      have hzip : (alignedBlocks P true nan p0 ps lens).zip (p0.m :: ps.map (·.m))
          = (p0 :: ps).zipIdx.map fun e => ((A e).cut lens e.1.across, e.1.m) := by
        have h1 : p0.m :: ps.map (·.m) = (p0 :: ps).zipIdx.map fun e => e.1.m := by
          rw [show (fun e : Piece L α × Nat => e.1.m) = (fun p : Piece L α => p.m) ∘ Prod.fst from rfl,
            ← List.map_map, List.zipIdx_map_fst]
          rfl
        rw [h1]
        unfold alignedBlocks
        rw [List.zip_map']
        apply List.map_congr_left
        intro e he
        unfold Piece.target
        rw [(hok e.1 (fst_mem_of_mem_zipIdx' he)).2.1, hJ]
        rfl
      have hmm : ((alignedBlocks P true nan p0 ps lens).zip (p0.m :: ps.map (·.m))).mapM (realigned (some J) (some lens))
          = some ((q0 :: qs).map (·.m)) := by
        rw [hzip, hqm]
        apply mapM_map_some
        intro e he
        exact (hmid e he).1
      simp only
      rw [hmm, Option.bind_some]
      simp only [List.map_cons]
      rw [hco2, Option.bind_some]
      simp only
      rw [hnb, hjl]
    refine ⟨B0, Bs, R, lens2, ?_, fun b hb' => ?_, hcutB, ?_, ?_⟩
    · rw [← hBs, ← hqd, List.zipIdx_map, List.map_map]
      apply List.map_congr_left
      intro e _
      show reindexFn false nan Jc ((reindexer P false p0.df.columns (ps.map (·.df.columns)) e.2 e.1.df.columns).getD []) e.1.df
        = reindexFn false nan Jc ((jIndexer P false q0 qs e).getD []) e.1.df
      have : jIndexer P false q0 qs e = reindexer P false p0.df.columns (ps.map (·.df.columns)) e.2 e.1.df.columns := by
        show reindexer P false q0.df.columns (qs.map (·.df.columns)) e.2 e.1.df.columns = _
        rw [hq0c, hqsc]
      rw [this]
    · rw [(hBall b hb').2.1, (hBall b hb').2.2, hB0.2.1, hB0.2.2]
      exact ⟨(hBall b hb').1, rfl, rfl⟩
    · intro β op h
      rw [hop, h]
      rfl
    · intro β op C hC hCi hCc h
      have hcutC : C.IsCut R lens2 := by
        refine ⟨hRne, hl2ne, ?_, ?_⟩
        · rw [hcutB.rl_sum]; unfold Frame.nrows; rw [hCi]
        · rw [hcutB.cw_sum]; unfold Frame.ncols; rw [hCc]
      have hrepC : (⟨C.cut R lens2, some J, some Jc, some R, some lens2⟩ : MFrame L L β).Represents C := by
        refine ⟨hC, ⟨R, lens2, hcutC, rfl, Or.inr rfl, Or.inr rfl⟩, Or.inr ?_, Or.inr ?_⟩
        · show _ = some C.index
          rw [hCi, hB0.2.1]
        · show _ = some C.columns
          rw [hCc, hB0.2.2]
      obtain ⟨m, hm1, hm2⟩ := represents_mk' hrepC
      refine ⟨m, ?_, hm2⟩
      rw [hop, h, Option.bind_some]
      rcases hRl with h | ⟨h, hz, hJ0, hJc0⟩
      · subst h; exact hm1
      · rw [mk'_stale_lengths _ J Jc lens lens2 hz ?_ hJ0 hJc0 hls (by rw [hl2s, hjl]), ← h]
        · exact hm1
        · rw [← h]
          simp [Frame.cut, sliceBounds_length]

theorem nAryOp_spec [DecidableEq L] (P : JoinOps L) (hP : P.Good) (cfg : Cfg) (hp : 1 ≤ cfg.nPartitions) (hr : 1 ≤ cfg.minRow)
    (hc : 1 ≤ cfg.minCol) (nan : α) {β : Type} (f : α → List α → β) (p0 : Piece L α) (ps : List (Piece L α)) (hps : ps ≠ [])
    (hok : ∀ p ∈ p0 :: ps, p.Ok true ∧ p.has = true ∧ p.m.Represents p.df ∧
      (p.m.colWidths = none ∨ p.m.colWidths = some p.across) ∧ (p.m.rowLens = none ∨ p.m.rowLens = some p.along))
    (hal : Alignable P true p0 ps)
    (hjc : Joinable P false p0.df.columns (ps.map (·.df.columns)))
    (hb : BandsAgree (joinedLabels P false p0.df.columns (ps.map (·.df.columns))) (p0 :: ps)) :
    ∃ m B0 Bs,
      ((alignedDfs P true nan p0 ps).zipIdx.map fun e =>
        reindexFn false nan (joinedLabels P false p0.df.columns (ps.map (·.df.columns)))
          ((reindexer P false p0.df.columns (ps.map (·.df.columns)) e.2 e.1.columns).getD []) e.1) = B0 :: Bs ∧
      nAryOp P cfg nan (cellwiseBlock f) p0.m (ps.map (·.m)) = some m ∧ m.Represents (B0.cellwise f Bs) := by
  obtain ⟨B0, Bs, R, lens2, h1, h2, _, _, h5⟩ := nAryOp_general P hP cfg hp hr hc nan p0 ps hps hok hal hjc hb
  obtain ⟨m, e1, e2⟩ := h5 (cellwiseBlock f) (B0.cellwise f Bs) (cellwise_wf f (h2 B0 (by simp)).1 Bs) rfl rfl
    (nAryOperation_cut f (fun b hb' => (h2 b (List.mem_cons_of_mem _ hb')).2) R lens2)
  exact ⟨m, B0, Bs, h1, e1, e2⟩

