import Verif.Lemmas.Mask
import Verif.Model.SeriesOp
/-
Lemmas for binary operations of a frame with a Series.
-/

variable {ι ι' κ κ' α β γ : Type}

/-! ### aligning columns -/

theorem reindexCols_id {nan : α} {f : Frame ι κ α} (h : f.WF) :
    f.reindexCols nan f.columns ((List.range f.columns.length).map some) = f := by
  obtain ⟨i, c, r⟩ := f
  unfold Frame.reindexCols Frame.mapRows
  congr 1
  conv => rhs; rw [← List.map_id r]
  apply List.map_congr_left
  intro row hrow
  have := h.row_width row hrow
  simp only at this
  rw [← this]
  exact pick_range nan row

theorem reindexCols_wf {nan : α} {J : List κ} {I : List (Option Nat)} (hl : I.length = J.length) {f : Frame ι κ α} (h : f.WF) :
    (f.reindexCols nan J I).WF := by
  refine ⟨by simp [Frame.reindexCols, Frame.mapRows, h.rows_len], ?_⟩
  intro r hr
  simp only [Frame.reindexCols, Frame.mapRows, List.mem_map] at hr ⊢
  obtain ⟨r0, _, e⟩ := hr
  rw [← e, pick_length, hl]

/-- relabelling the columns and dividing them as asked -/
theorem reindexCols_cut [DecidableEq ι] [DecidableEq κ] (cfg : Cfg) (hp : 1 ≤ cfg.nPartitions) (hc : 1 ≤ cfg.minCol)
    {nan : α} {J : List κ} {I : List (Option Nat)} (hl : I.length = J.length) {df : Frame ι κ α} (hwf : df.WF) {rl cw : List Nat}
    (hcut : df.IsCut rl cw) (ll : Option (List Nat)) (hll : ∀ l, ll = some l → l ≠ [] ∧ l.sum = J.length) :
    ∃ lens, lens ≠ [] ∧ lens.sum = J.length ∧ (∀ l, ll = some l → lens = l) ∧
      mapAxisPartitions cfg false (fun b => some (b.reindexCols nan J I)) (df.cut rl cw) false none ll
        = some ((df.reindexCols nan J I).cut rl lens) := by
  have hF := rowLocal_mapRows (ι := ι) (fun _ : List κ => J) (pick nan I)
      (fun _ c _ => by rw [pick_length, hl])
  have hn : ((fun f : Frame ι κ α => f.mapRows (fun _ => J) (pick nan I)) df).ncols = J.length := rfl
  obtain ⟨lens, ⟨h1, h2, _, h4, h5⟩, h6⟩ := mapAxis_cols_cut' cfg hp hc hF hwf hcut false none
      (by simp) ll (by simp) (by intro l h1 _; rw [hn]; exact (hll l h1).2)
  refine ⟨lens, h1, by rw [h2, hn], fun l h => h4 l h (hll l h).1, ?_⟩
  refine Eq.trans h6 ?_
  congr 1
  unfold Frame.cut
  apply List.map_congr_left
  intro p _
  apply List.map_congr_left
  intro q _
  rw [Frame.mapRows_ilocRows]
  rfl

theorem reindexer_self_cols [DecidableEq κ] (P : JoinOps κ) (first : List κ) (rest : List (List κ)) (i : Nat) :
    reindexer P false first rest i (joinedLabels P false first rest)
      = some ((List.range (joinedLabels P false first rest).length).map some) := by
  simp [reindexer]

theorem joinedLabels_same_cols [DecidableEq κ] (P : JoinOps κ) (first : List κ) :
    joinedLabels P false first [first] = first := by
  simp [joinedLabels, allSame]

/-- the blocks of both frames after alignment -/
theorem copartitionCols_spec [DecidableEq ι] [DecidableEq ι'] [DecidableEq κ] (P : JoinOps κ) (cfg : Cfg)
    (hp : 1 ≤ cfg.nPartitions) (hr : 1 ≤ cfg.minCol) (nanL : α) (nanR : β) {m : MFrame ι κ α} {df : Frame ι κ α}
    (h : m.Represents df) {k : MFrame ι' κ β} {kf : Frame ι' κ β} (hk : k.Represents kf) {J : List κ} {I0 I1 : List (Option Nat)}
    (hJ : joinedLabels P false df.columns [kf.columns] = J)
    (h0 : reindexer P false df.columns [kf.columns] 0 df.columns = some I0) (l0 : I0.length = J.length)
    (h1 : reindexer P false df.columns [kf.columns] 1 kf.columns = some I1) (l1 : I1.length = J.length) :
    ∃ rl lens rlk, (df.reindexCols nanL J I0).IsCut rl lens ∧ (kf.reindexCols nanR J I1).IsCut rlk lens ∧
      (m.rowLens = none ∨ m.rowLens = some rl) ∧
      copartitionCols P cfg nanL nanR m k =
        some ((df.reindexCols nanL J I0).cut rl lens, (kf.reindexCols nanR J I1).cut rlk lens, some J, some lens) := by
  obtain ⟨rl, cw, hc, hmp, hrl, hcw⟩ := h.blocks
  obtain ⟨rlk, cwk, hck, hkp, hrlk, hcwk⟩ := hk.blocks
  have gl := getColWidths_cut hc hmp hcw
  have gk := getColWidths_cut hck hkp hcwk
  have idL : df.columns = J → df.reindexCols nanL J I0 = df := by
    intro e
    subst e
    have := reindexer_self_cols P df.columns [kf.columns] 0
    rw [hJ, h0, Option.some.injEq] at this
    rw [this]
    exact reindexCols_id h.wf
  have idR : kf.columns = J → kf.reindexCols nanR J I1 = kf := by
    intro e
    subst e
    have := reindexer_self_cols P df.columns [kf.columns] 1
    rw [hJ, h1, Option.some.injEq] at this
    rw [this]
    exact reindexCols_id hk.wf
  unfold copartitionCols
  rw [h.getColumns, hk.getColumns, gl, gk]
  by_cases hid : kf.columns = df.columns ∧ cwk = cw
  · obtain ⟨e1, e2⟩ := hid
    subst e2
    have eJ : df.columns = J := by rw [← hJ, e1, joinedLabels_same_cols]
    rw [if_pos ⟨e1, rfl⟩, idL eJ, idR (e1.trans eJ), hmp, hkp, eJ]
    exact ⟨rl, cwk, rlk, hc, hck, hrl, rfl⟩
  · rw [if_neg hid]
    have rows_eq : (df.reindexCols nanL J I0).nrows = df.nrows := rfl
    have rows_eq' : (kf.reindexCols nanR J I1).nrows = kf.nrows := rfl
    have hb : ∃ lens, lens ≠ [] ∧ lens.sum = J.length ∧
        colsBase P cfg nanL m kf.columns = some ((df.reindexCols nanL J I0).cut rl lens, lens) := by
      unfold colsBase
      rw [h.getColumns, gl]
      simp only [hJ]
      by_cases e : df.columns = J
      · rw [if_neg (by simp [e]), hmp, idL e]
        exact ⟨cw, hc.cw_ne, by rw [hc.cw_sum, ← e]; rfl, rfl⟩
      · rw [if_pos e, h0, Option.bind_some, hmp]
        obtain ⟨lens, a1, a2, _, a4⟩ := reindexCols_cut cfg hp hr (nan := nanL) l0 h.wf hc none (by simp)
        rw [a4]
        refine ⟨lens, a1, a2, ?_⟩
        rw [Option.map_some]
        congr 2
        have hcut : (df.reindexCols nanL J I0).IsCut rl lens := ⟨hc.rl_ne, a1, hc.rl_sum, a2⟩
        have := getColWidths_cut (m := (⟨(df.reindexCols nanL J I0).cut rl lens, none, none, none, none⟩ : MFrame ι κ α)) hcut rfl (Or.inl rfl)
        simpa [MFrame.getColWidths] using this
    obtain ⟨lens, a1, a2, a4⟩ := hb
    rw [a4, Option.bind_some]
    have ho : colsOther P cfg nanR df.columns lens k = some ((kf.reindexCols nanR J I1).cut rlk lens) := by
      unfold colsOther
      rw [hk.getColumns, gk]
      simp only [hJ]
      by_cases e : kf.columns ≠ J ∨ cwk ≠ lens
      · rw [if_pos e, h1, Option.bind_some, hkp]
        obtain ⟨lens', b1, b2, b3, b4⟩ := reindexCols_cut cfg hp hr (nan := nanR) l1 hk.wf hck (some lens)
          (by intro l e; cases e; exact ⟨a1, a2⟩)
        rw [b4, b3 lens rfl]
      · have e' : kf.columns = J ∧ cwk = lens := by
          constructor
          · exact Classical.byContradiction fun hh => e (Or.inl hh)
          · exact Classical.byContradiction fun hh => e (Or.inr hh)
        rw [if_neg e, hkp, idR e'.1, e'.2]
    simp only
    rw [ho, Option.map_some, hJ]
    exact ⟨rl, lens, rlk, ⟨hc.rl_ne, a1, hc.rl_sum, a2⟩, ⟨hck.rl_ne, a1, hck.rl_sum, a2⟩, hrl, rfl⟩

theorem broadcastColsApply_cut [DecidableEq κ] (F : Frame ι κ α → Frame ι' κ β → Option (Frame ι κ γ)) (df : Frame ι κ α)
    {kf : Frame ι' κ β} (hk : kf.WF) {rl lens rlk : List Nat} (hck : kf.IsCut rlk lens) :
    broadcastColsApply F (df.cut rl lens) (kf.cut rlk lens) =
      (sliceBounds rl).mapM fun p => (sliceBounds lens).mapM fun q => F ((df.ilocRows p.1 p.2).ilocCols q.1 q.2) (kf.ilocCols q.1 q.2) := by
  unfold broadcastColsApply
  rw [colBlocks_cut hck.rl_ne]
  unfold Frame.cut
  rw [List.mapM_map]
  congr 1
  funext p
  show (((sliceBounds lens).map fun q => (df.ilocRows p.1 p.2).ilocCols q.1 q.2).zipIdx.mapM _) = _
  rw [zipIdx_pair_mapM (fun q : Nat × Nat => (df.ilocRows p.1 p.2).ilocCols q.1 q.2)
    (fun q : Nat × Nat => (sliceBounds rlk).map fun p => (kf.ilocRows p.1 p.2).ilocCols q.1 q.2)
    (fun b others => (Frame.vcat others).bind fun other => F b other)]
  congr 1
  funext q
  have hv := Frame.vcat_ilocCols (vcat_rows_cut hk hck) q.1 q.2
  rw [List.map_map] at hv
  have : ((fun b : Frame ι' κ β => b.ilocCols q.1 q.2) ∘ fun p : Nat × Nat => kf.ilocRows p.1 p.2) =
      fun p : Nat × Nat => (kf.ilocRows p.1 p.2).ilocCols q.1 q.2 := rfl
  rw [this] at hv
  rw [hv, Option.bind_some]

/-! ### the operation in blocks -/

theorem Frame.opRows_wf {f : α → β → γ} {df : Frame ι κ α} (h : df.WF) {vs : List β} (hl : vs.length = df.index.length) :
    (df.opRows f vs).WF := by
  refine ⟨by simp [Frame.opRows, h.rows_len, hl], ?_⟩
  intro r hr
  simp only [Frame.opRows] at hr ⊢
  obtain ⟨i, hi, e⟩ := List.mem_iff_getElem.1 hr
  rw [List.getElem_zipWith] at e
  rw [← e, List.length_map]
  exact h.row_width _ (List.getElem_mem _)

theorem Frame.opCols_wf {f : α → β → γ} {df : Frame ι κ α} (h : df.WF) {vs : List β} (hl : vs.length = df.columns.length) :
    (df.opCols f vs).WF := by
  refine ⟨by simp [Frame.opCols, h.rows_len], ?_⟩
  intro r hr
  simp only [Frame.opCols, List.mem_map] at hr ⊢
  obtain ⟨r0, h0, e⟩ := hr
  rw [← e, List.length_zipWith, h.row_width r0 h0, hl, Nat.min_self]

theorem mapM_oneCell (vs : List β) : (vs.map fun v => [v]).mapM oneCell = some vs := by
  rw [mapM_map_some oneCell (fun v => [v]) id vs (fun _ _ => rfl), List.map_id]

theorem opRows_blocks [DecidableEq ι] {f : α → β → γ} {df : Frame ι κ α} {kf : Frame ι κ' β} (hwk : kf.WF)
    (hi : kf.index = df.index) {vs : List β} (hv : kf.rows = vs.map fun v => [v]) {lens cw cwk : List Nat}
    (hck : kf.IsCut lens cwk) :
    broadcastRowsApply (opRowsBlock f) (df.cut lens cw) (kf.cut lens cwk) = some ((df.opRows f vs).cut lens cw) := by
  rw [broadcastRowsApply_cut _ df hwk hck]
  unfold Frame.cut
  apply mapM_congr_some
  intro p _
  apply mapM_congr_some
  intro q _
  unfold opRowsBlock
  have e1 : (kf.ilocRows p.1 p.2).index = ((df.ilocRows p.1 p.2).ilocCols q.1 q.2).index := by
    simp only [Frame.ilocRows, Frame.ilocCols, hi]
  have e2 : (kf.ilocRows p.1 p.2).rows = (pySlice vs p.1 p.2).map fun v => [v] := by
    simp only [Frame.ilocRows, hv, pySlice_map]
  rw [if_pos e1, e2, mapM_oneCell, Option.map_some]
  simp only [Frame.opRows, Frame.ilocRows, Frame.ilocCols, pySlice_zipWith, List.map_zipWith, List.zipWith_map_left, pySlice_map]

theorem opCols_blocks [DecidableEq κ] {f : α → β → γ} {df : Frame ι κ α} {kf : Frame ι' κ β} (hwk : kf.WF)
    (hi : kf.columns = df.columns) {vs : List β} (hv : kf.rows = [vs]) {rl lens rlk : List Nat}
    (hck : kf.IsCut rlk lens) :
    broadcastColsApply (opColsBlock f) (df.cut rl lens) (kf.cut rlk lens) = some ((df.opCols f vs).cut rl lens) := by
  rw [broadcastColsApply_cut _ df hwk hck]
  unfold Frame.cut
  apply mapM_congr_some
  intro p _
  apply mapM_congr_some
  intro q _
  unfold opColsBlock
  have e1 : (kf.ilocCols q.1 q.2).columns = ((df.ilocRows p.1 p.2).ilocCols q.1 q.2).columns := by
    simp only [Frame.ilocRows, Frame.ilocCols, hi]
  have e2 : oneRow (kf.ilocCols q.1 q.2).rows = some (pySlice vs q.1 q.2) := by
    simp only [Frame.ilocCols, hv, List.map_cons, List.map_nil, oneRow]
  rw [if_pos e1, e2, Option.map_some]
  simp only [Frame.opCols, Frame.ilocRows, Frame.ilocCols, pySlice_map, List.map_map]
  congr 2
  apply List.map_congr_left
  intro row _
  exact (pySlice_zipWith _ _ _ _ _).symm

theorem one_row_rows {nan : β} {kf : Frame ι' κ β} {vs : List β} (hv : kf.rows = [vs]) (J : List κ) (I : List (Option Nat)) :
    (kf.reindexCols nan J I).rows = [pick nan I vs] := by
  simp [Frame.reindexCols, Frame.mapRows, hv]

/-! ### frames with labels -/

theorem opSeriesRows_frame [DecidableEq ι] [DecidableEq κ] [DecidableEq κ'] {P : JoinOps ι} (hP : P.Good) (cfg : Cfg)
    (hp : 1 ≤ cfg.nPartitions) (hr : 1 ≤ cfg.minRow) (nanL : α) (nanR : β) (f : α → β → γ) {m : MFrame ι κ α} {df : Frame ι κ α}
    (h : m.Represents df) {k : MFrame ι κ' β} {kf : Frame ι κ' β} (hk : k.Represents kf) (h1 : kf.columns.length = 1)
    {vs : List β} (hv : kf.rows = vs.map fun v => [v]) (hj : Joinable P true df.index [kf.index]) :
    ∃ I0 I1, IsIndexer df.index (joinedLabels P true df.index [kf.index]) I0 ∧
      IsIndexer kf.index (joinedLabels P true df.index [kf.index]) I1 ∧
      ∃ m', m.broadcastApplyRows P cfg false nanL nanR (opRowsBlock f) .replace k = some m' ∧
        m'.Represents ((df.reindexRows nanL (joinedLabels P true df.index [kf.index]) I0).opRows f (pick nanR I1 vs)) := by
  obtain ⟨I0, r0, i0⟩ := reindexer_ok hP hj (i := 0) (labels := df.index) rfl
  obtain ⟨I1, r1, i1⟩ := reindexer_ok hP hj (i := 1) (labels := kf.index) rfl
  refine ⟨I0, I1, i0, i1, ?_⟩
  generalize hJ : joinedLabels P true df.index [kf.index] = J at *
  obtain ⟨lens, cw, cwk, c1, c2, c3, _, c5⟩ := copartitionRows_spec P cfg hp hr nanL nanR h hk hJ r0 i0.length r1 i1.length
  have hwk := reindexRows_wf (nan := nanR) i1.length hk.wf
  have hrows := one_column_rows (nan := nanR) hk.wf h1 hv i1.length
  have hw := reindexRows_wf (nan := nanL) i0.length h.wf
  unfold MFrame.broadcastApplyRows
  rw [c5, Option.bind_some]
  simp only [Bool.false_eq_true, ↓reduceIte]
  rw [opRows_blocks (df := df.reindexRows nanL J I0) hwk rfl hrows c2, Option.bind_some]
  refine represents_mk' ⟨Frame.opRows_wf hw (by rw [pick_length, i1.length]; rfl),
    ⟨lens, cw, ⟨c1.rl_ne, c1.cw_ne, c1.rl_sum, c1.cw_sum⟩, rfl, Or.inr rfl, c3⟩, Or.inr rfl, h.columns⟩

theorem opSeriesCols_frame [DecidableEq ι] [DecidableEq ι'] [DecidableEq κ] {P : JoinOps κ} (hP : P.Good) (cfg : Cfg)
    (hp : 1 ≤ cfg.nPartitions) (hc : 1 ≤ cfg.minCol) (nanL : α) (nanR : β) (f : α → β → γ) {m : MFrame ι κ α} {df : Frame ι κ α}
    (h : m.Represents df) {k : MFrame ι' κ β} {kf : Frame ι' κ β} (hk : k.Represents kf)
    {vs : List β} (hv : kf.rows = [vs]) (hj : Joinable P false df.columns [kf.columns]) :
    ∃ I0 I1, IsIndexer df.columns (joinedLabels P false df.columns [kf.columns]) I0 ∧
      IsIndexer kf.columns (joinedLabels P false df.columns [kf.columns]) I1 ∧
      ∃ m', m.broadcastApplyCols P cfg nanL nanR (opColsBlock f) .replace k = some m' ∧
        m'.Represents ((df.reindexCols nanL (joinedLabels P false df.columns [kf.columns]) I0).opCols f (pick nanR I1 vs)) := by
  obtain ⟨I0, r0, i0⟩ := reindexer_ok hP hj (i := 0) (labels := df.columns) rfl
  obtain ⟨I1, r1, i1⟩ := reindexer_ok hP hj (i := 1) (labels := kf.columns) rfl
  refine ⟨I0, I1, i0, i1, ?_⟩
  generalize hJ : joinedLabels P false df.columns [kf.columns] = J at *
  obtain ⟨rl, lens, rlk, c1, c2, c3, c5⟩ := copartitionCols_spec P cfg hp hc nanL nanR h hk hJ r0 i0.length r1 i1.length
  have hwk := reindexCols_wf (nan := nanR) i1.length hk.wf
  have hw := reindexCols_wf (nan := nanL) i0.length h.wf
  unfold MFrame.broadcastApplyCols
  rw [c5, Option.bind_some]
  rw [opCols_blocks (df := df.reindexCols nanL J I0) hwk rfl (one_row_rows hv J I1) c2, Option.bind_some]
  refine represents_mk' ⟨Frame.opCols_wf hw (by rw [pick_length, i1.length]; rfl),
    ⟨rl, lens, ⟨c1.rl_ne, c1.cw_ne, c1.rl_sum, c1.cw_sum⟩, rfl, c3, Or.inr rfl⟩, h.index, Or.inr rfl⟩
