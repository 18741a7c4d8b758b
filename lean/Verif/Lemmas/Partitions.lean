import Verif.Pandas.Partitions
import Verif.Lemmas.SetMask
/-
Lemmas about `unwrap_partitions` and `from_partitions`.
-/

variable {ι κ α : Type}

theorem vcat_parts [DecidableEq κ] {l : List (Frame ι κ α)} {df : Frame ι κ α} (h : Frame.vcat l = some df) :
    l ≠ [] ∧ (∀ f ∈ l, f.columns = df.columns) ∧ df = Frame.stackRows df.columns l := by
  cases l with
  | nil => cases h
  | cons f fs =>
    by_cases hall : fs.all (fun g => g.columns == f.columns) = true
    · rw [Frame.vcat, if_pos hall] at h
      cases h
      refine ⟨by simp, ?_, rfl⟩
      intro g hg
      rcases List.mem_cons.1 hg with rfl | hg
      · rfl
      · simpa using List.all_eq_true.1 hall g hg
    · rw [Frame.vcat, if_neg hall] at h
      cases h

theorem hcat_parts [DecidableEq ι] {l : List (Frame ι κ α)} {df : Frame ι κ α} (h : Frame.hcat l = some df) :
    l ≠ [] ∧ (∀ f ∈ l, f.index = df.index) ∧ df = Frame.stackCols df.index l := by
  cases l with
  | nil => cases h
  | cons f fs =>
    by_cases hall : fs.all (fun g => g.index == f.index) = true
    · rw [Frame.hcat, if_pos hall] at h
      cases h
      refine ⟨by simp, ?_, rfl⟩
      intro g hg
      rcases List.mem_cons.1 hg with rfl | hg
      · rfl
      · simpa using List.all_eq_true.1 hall g hg
    · rw [Frame.hcat, if_neg hall] at h
      cases h

theorem wf_cut_cols_one {f : Frame ι κ α} (h : f.WF) : (sliceBounds [f.ncols]).map (fun q => f.ilocCols q.1 q.2) = [f] := by
  rw [sliceBounds_single]
  simp only [List.map_cons, List.map_nil]
  rw [h.ilocCols_all]

/-- Partitions that make up a frame stand in the array as a division of it. -/
theorem makeUp_cut [DecidableEq ι] [DecidableEq κ] {p : Parts ι κ α} {df : Frame ι κ α} (h : p.MakeUp df) :
    df.WF ∧ df.IsCut p.heights p.widths ∧ p.grid = df.cut p.heights p.widths := by
  cases p with
  | blocks g =>
    obtain ⟨hwf, rl, cw, hc, rfl⟩ := h
    have e1 := getRowLens_cut (m := ⟨df.cut rl cw, none, none, none, none⟩) hc rfl (Or.inl rfl)
    have e2 := getColWidths_cut (m := ⟨df.cut rl cw, none, none, none, none⟩) hc rfl (Or.inl rfl)
    have e1 : (Parts.blocks (df.cut rl cw)).heights = rl := e1
    have e2 : (Parts.blocks (df.cut rl cw)).widths = cw := e2
    rw [e1, e2]
    exact ⟨hwf, hc, rfl⟩
  | rows l =>
    obtain ⟨hwfs, hv⟩ := h
    obtain ⟨hne, hcol, hdf⟩ := vcat_parts hv
    have hw : (Parts.rows l).widths = [df.ncols] := by
      cases l with
      | nil => exact absurd rfl hne
      | cons f fs => simp [Parts.widths, Frame.ncols, hcol f (by simp)]
    have hall : ∀ f ∈ l, f.WF ∧ f.columns = df.columns := fun f hf => ⟨hwfs f hf, hcol f hf⟩
    have hwf : df.WF := by
      rw [hdf]
      constructor
      · simp only [Frame.stackRows, List.length_flatten, List.map_map]
        congr 1
        apply List.map_congr_left
        intro f hf
        exact (hwfs f hf).rows_len
      · intro r hr
        simp only [Frame.stackRows, List.mem_flatten, List.mem_map] at hr
        obtain ⟨_, ⟨f, hf, rfl⟩, hr⟩ := hr
        rw [(hwfs f hf).row_width r hr, hcol f hf]
        rfl
    rw [hw]
    refine ⟨hwf, ?_, ?_⟩
    · have := stackRows_isCut df.columns (lens := [df.ncols]) hne (by simp) (by simp [Frame.ncols])
      rw [← hdf] at this
      exact this
    · have := stack_cut df.columns [df.ncols] l hall
      rw [← hdf] at this
      show l.map ([·]) = df.cut (l.map (·.nrows)) [df.ncols]
      rw [← this]
      apply List.map_congr_left
      intro f hf
      rw [show df.ncols = f.ncols by simp [Frame.ncols, hcol f hf], wf_cut_cols_one (hwfs f hf)]
  | cols l =>
    obtain ⟨hwfs, hv⟩ := h
    obtain ⟨hne, hidx, hdf⟩ := hcat_parts hv
    have hh : (Parts.cols l).heights = [df.nrows] := by
      cases l with
      | nil => exact absurd rfl hne
      | cons f fs => simp [Parts.heights, Frame.nrows, hidx f (by simp)]
    have hsplit := hcat_split_self l df.index hidx hwfs
    have hsplit : (sliceBounds (l.map (·.ncols))).map (fun p => df.ilocCols p.1 p.2) = l := by
      rw [hdf]; exact hsplit
    have hwf : df.WF := by
      have hb := colBlocks_bands df.index [df.nrows] (by simp) l hne (fun R hR => ⟨hwfs R hR, hidx R hR⟩)
      rw [hdf]
      exact stackCols_wf df.index l (fun R hR => ⟨hwfs R hR, hidx R hR⟩)
    rw [hh]
    refine ⟨hwf, ⟨by simp, by simpa [Parts.widths] using hne, by simp, ?_⟩, ?_⟩
    · rw [hdf]
      simp [Parts.widths, Frame.ncols, Frame.stackCols, List.length_flatten, List.map_map, Function.comp_def]
    · rw [cut_one df hwf]
      show [l] = _
      rw [show (Parts.cols l).widths = l.map (·.ncols) from rfl, hsplit]

/-- the labels are written into the blocks whatever the flags say -/
theorem propagate_represents {m : LFrame ι κ α} {df : Frame ι κ α} (h : m.Shows df) :
    ∃ m', m.propagate true true = some m' ∧ m'.toMFrame.Represents df := by
  obtain ⟨m', e1, e2, e3, e4, _⟩ := propagate_shows h true true (Or.inl h.getIndex) (Or.inl h.getColumns)
  exact ⟨m', e1, shows_represents e2 (by rw [e3]; simp) (by rw [e4]; simp)⟩

/-- what is handed out makes up the frame -/
theorem unwrap_spec [DecidableEq ι] [DecidableEq κ] {m : LFrame ι κ α} {df : Frame ι κ α} (h : m.Shows df) (axis : PartAxis) :
    ∃ p, m.unwrapPartitions axis = some p ∧ p.IsFor axis ∧ p.MakeUp df := by
  obtain ⟨m1, e1, hm1⟩ := propagate_represents h
  obtain ⟨rl, cw, hc, hp, _, _⟩ := hm1.blocks
  unfold LFrame.unwrapPartitions
  rw [e1]
  cases axis with
  | none => exact ⟨.blocks m1.parts, rfl, trivial, h.wf, rl, cw, hc, hp⟩
  | rows =>
    refine ⟨.rows (bandsOf rl df), ?_, trivial, fun f hf => (bandsOf_wf h.wf rl f hf).1, vcat_rows_cut h.wf hc⟩
    simp only [Option.bind_some]
    rw [hp, show (df.cut rl cw).mapM (axisConcat false) = some (bandsOf rl df) from hcat_rows_cut h.wf hc]
    rfl
  | cols =>
    refine ⟨.cols ((sliceBounds cw).map fun q => df.ilocCols q.1 q.2), ?_, trivial, ?_, hcat_cols_cut h.wf hc⟩
    · simp only [Option.bind_some]
      rw [hp, colBlocks_cut hc.rl_ne, mapM_map_some (axisConcat true) _ (fun q => df.ilocCols q.1 q.2)]
      · rfl
      · intro q _
        have := Frame.vcat_ilocRows (h.wf.ilocCols q.1 q.2) (sliceBounds_ne_nil hc.rl_ne)
          (by show Covers _ df.nrows; rw [← hc.rl_sum]; exact covers_lens rl)
        simp only [Frame.ilocCols_ilocRows] at this
        exact this
    · intro f hf
      obtain ⟨q, _, rfl⟩ := List.mem_map.1 hf
      exact h.wf.ilocCols _ _

/-- what is built shows the frame the partitions make up, under the labels given -/
theorem from_spec [DecidableEq ι] [DecidableEq κ] {p : Parts ι κ α} {df : Frame ι κ α} (h : p.MakeUp df)
    (index : Option (List ι)) (columns : Option (List κ)) (rowLens colWidths : Option (List Nat))
    (hi : ∀ i ∈ index, i.length = df.nrows) (hc : ∀ c ∈ columns, c.length = df.ncols)
    (hr : ∀ l ∈ rowLens, l = p.heights) (hw : ∀ w ∈ colWidths, w = p.widths) :
    ∃ m, fromPartitions p index columns rowLens colWidths = some m ∧
      m.Shows ⟨index.getD df.index, columns.getD df.columns, df.rows⟩ := by
  obtain ⟨hwf, hcut, hg⟩ := makeUp_cut h
  have e1 : gridIndex p.grid = df.index := by rw [hg, gridIndex_cut hcut]
  have e2 : gridColumns p.grid = df.columns := by rw [hg, gridColumns_cut hcut]
  have e3 : (p.grid.filterMap fun row => row.head?.map (·.nrows)) = p.heights :=
    getRowLens_cut (m := ⟨p.grid, none, none, none, none⟩) hcut hg (Or.inl rfl)
  have e4 : (p.grid.head?.getD []).map (·.ncols) = p.widths :=
    getColWidths_cut (m := ⟨p.grid, none, none, none, none⟩) hcut hg (Or.inl rfl)
  have li : (index.getD df.index).length = df.index.length := by
    cases index with
    | none => rfl
    | some i => exact hi i rfl
  have lc : (columns.getD df.columns).length = df.columns.length := by
    cases columns with
    | none => rfl
    | some i => exact hc i rfl
  unfold fromPartitions
  rw [e1, e2, e3, e4]
  have hs : LFrame.Shows (LFrame.mk (MFrame.mk p.grid (some (index.getD df.index)) (some (columns.getD df.columns))
      (if index.isNone && rowLens.isNone then some p.heights else rowLens)
      (if columns.isNone && colWidths.isNone then some p.widths else colWidths)) index.isSome columns.isSome)
      ⟨index.getD df.index, columns.getD df.columns, df.rows⟩ := by
    refine ⟨⟨by rw [li]; exact hwf.rows_len, fun r hr => by rw [lc]; exact hwf.row_width r hr⟩,
      ⟨df, p.heights, p.widths, hwf, rfl, lc.symm, hcut, hg, ?_, ?_, ?_, ?_⟩, Or.inr rfl, Or.inr rfl⟩
    · cases rowLens with
      | none => cases index <;> simp
      | some l => simp [hr l rfl]
    · cases colWidths with
      | none => cases columns <;> simp
      | some l => simp [hw l rfl]
    · cases index <;> simp
    · cases columns <;> simp
  obtain ⟨r, h1, h2⟩ := mk'_shows hs
  exact ⟨_, by rw [h1]; rfl, h2⟩
