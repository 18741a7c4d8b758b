import Verif.Lemmas.Grid
/-
Properties C01, C02, C03: dividing a frame into partitions and putting it together again.
-/

variable {ι κ α : Type} [DecidableEq ι] [DecidableEq κ]

/-- **C01.** pandas → modin → pandas is the identity: for every well-formed frame (any shape,
    zero rows or columns included) and every configuration with positive values. -/
theorem C01_pandas_round_trip (nan : α) (cfg : Cfg) (hN : 1 ≤ cfg.nPartitions)
    (hR : 1 ≤ cfg.minRow) (hC : 1 ≤ cfg.minCol) (df : Frame ι κ α) (hwf : df.WF) :
    (fromPandas cfg df).bind (MFrame.toPandas nan) = some df := by
  obtain ⟨rc, hrc⟩ : ∃ rc, computeChunksize df.nrows cfg.nPartitions cfg.minRow = some rc := by
    unfold computeChunksize; simp; omega
  obtain ⟨cc, hcc⟩ : ∃ cc, computeChunksize df.ncols cfg.nPartitions cfg.minCol = some cc := by
    unfold computeChunksize; simp; omega
  have hrc0 : 0 < rc := by have := computeChunksize_spec hrc; omega
  have hcc0 : 0 < cc := by have := computeChunksize_spec hcc; omega
  rw [fromPandas_eq hwf hrc hcc, Option.bind_some]
  have hcells : ∀ (r : List (List α)), r.length = df.index.length →
      (∀ x ∈ r, x.length = df.columns.length) →
      df.nrows = 0 ∨ df.ncols = 0 →
      List.replicate df.index.length (List.replicate df.columns.length nan) = r := by
    intro r h1 h2 h3
    rcases h3 with h3 | h3
    · simp only [Frame.nrows] at h3
      rw [h3] at h1 ⊢
      simp [List.eq_nil_of_length_eq_zero h1]
    · simp only [Frame.ncols] at h3
      rw [h3]
      symm
      rw [List.eq_replicate_iff]
      refine ⟨h1, fun x hx => ?_⟩
      have := h2 x hx
      rw [h3] at this
      simpa using this
  unfold MFrame.toPandas
  simp only [MFrame.getIndex, MFrame.getColumns, splitPandas_eq hwf]
  by_cases hz : df.nrows = 0 ∨ df.ncols = 0
  · have ha : assemble (gridOf ((pyRangeStep df.nrows rc).map fun i => (i, i + rc))
        (colBounds df.ncols cc) df) = some { index := [], columns := [], rows := [] } := by
      by_cases hc : df.ncols = 0
      · exact assemble_no_columns hc
      · have hr : df.nrows = 0 := by omega
        rw [hr, pyRangeStep_zero rc hrc0]
        simp [gridOf, assemble]
    rw [ha]
    simp only [Option.bind_eq_bind, Option.bind_some, Frame.isEmpty, Frame.nrows, Frame.ncols,
      List.length_nil, beq_self_eq_true, Bool.or_self, ↓reduceIte]
    rw [hcells df.rows hwf.rows_len hwf.row_width hz]
    rfl
  · rw [assemble_gridOf hwf (covers_rangeStep hrc0) (covers_colBounds hcc0)
      (Covers.ne_nil (n := df.nrows) (covers_rangeStep hrc0) (by omega)) (by omega)]
    have hne : df.isEmpty = false := by
      simp only [Frame.isEmpty, Bool.or_eq_false_iff, beq_eq_false_iff_ne]; omega
    simp [hne]

/-- Non-vacuity for C01: a 5×3 frame under NPartitions = 2 is really cut (3 + 2 rows,
    2 + 1 columns) and comes back. -/
example :
    let df : Frame Nat String Int :=
      { index := [10, 11, 12, 13, 14], columns := ["a", "b", "c"],
        rows := [[1, 2, 3], [4, 5, 6], [7, 8, 9], [10, 11, 12], [13, 14, 15]] }
    df.WF ∧ (fromPandas ⟨2, 1, 1⟩ df).map (fun m => (m.rowLens, m.colWidths, m.parts.length))
        = some (some [3, 2], some [2, 1], 2)
      ∧ (fromPandas ⟨2, 1, 1⟩ df).bind (MFrame.toPandas 0) = some df := by
  refine ⟨⟨rfl, by decide⟩, by decide, by decide⟩

/-- **C02.** What `from_pandas` records about the blocks is true.  With
    `chunk = max (ceil (n / NPartitions)) min`, along each axis: lengths are positive, at most
    `chunk`, all but the last equal `chunk`, they add up to the frame's size, and there are at
    most `NPartitions` of them; the grid has one block row per recorded row length and every
    block in it has that many rows; when the frame has columns, every row of the grid has one
    block per recorded width, with exactly that many columns (a frame without columns records
    no widths and all its blocks have no columns). -/
theorem C02_recorded_block_sizes (cfg : Cfg) (hN : 1 ≤ cfg.nPartitions)
    (hR : 1 ≤ cfg.minRow) (hC : 1 ≤ cfg.minCol) (df : Frame ι κ α) (hwf : df.WF) :
    ∃ (m : MFrame ι κ α) (rl cw : List Nat),
      fromPandas cfg df = some m ∧ m.rowLens = some rl ∧ m.colWidths = some cw ∧
      (let chunk := fun n minB => max ((n + cfg.nPartitions - 1) / cfg.nPartitions) minB
       (∀ x ∈ rl, 0 < x ∧ x ≤ chunk df.nrows cfg.minRow) ∧
       (∀ x ∈ rl.dropLast, x = chunk df.nrows cfg.minRow) ∧
       rl.sum = df.nrows ∧ rl.length ≤ cfg.nPartitions ∧
       (∀ x ∈ cw, 0 < x ∧ x ≤ chunk df.ncols cfg.minCol) ∧
       (∀ x ∈ cw.dropLast, x = chunk df.ncols cfg.minCol) ∧
       cw.sum = df.ncols ∧ cw.length ≤ cfg.nPartitions) ∧
      m.parts.map (·.map fun b => b.index.length)
        = rl.map (fun h => List.replicate (max 1 cw.length) h) ∧
      (∀ row ∈ m.parts, row.map (fun b => b.columns.length) = if df.ncols = 0 then [0] else cw) ∧
      (∀ row ∈ m.parts, ∀ b ∈ row, b.WF) := by
  have hrc := computeChunksize_eq (n := df.nrows) (k := cfg.nPartitions) (m := cfg.minRow) hN hR
  have hcc := computeChunksize_eq (n := df.ncols) (k := cfg.nPartitions) (m := cfg.minCol) hN hC
  have hsr := computeChunksize_spec hrc
  have hsc := computeChunksize_spec hcc
  have heq := fromPandas_eq hwf hrc hcc
  simp only
  generalize max ((df.nrows + cfg.nPartitions - 1) / cfg.nPartitions) cfg.minRow = rc at *
  generalize max ((df.ncols + cfg.nPartitions - 1) / cfg.nPartitions) cfg.minCol = cc at *
  have hrc0 : 0 < rc := by omega
  have hcc0 : 0 < cc := by omega
  refine ⟨_, _, _, heq, rfl, rfl, ⟨?_, ?_, ?_, ?_, ?_, ?_, ?_, ?_⟩, ?_, ?_, ?_⟩
  · intro x hx
    exact ⟨Nat.pos_of_ne_zero (fromPandasLengths_pos hrc0 x hx), fromPandasLengths_le hrc0 x hx⟩
  · exact fromPandasLengths_dropLast hrc0
  · exact fromPandasLengths_sum _ _ hrc0
  · exact fromPandasLengths_length_le hrc0 hsr.2.2.2
  · intro x hx
    exact ⟨Nat.pos_of_ne_zero (fromPandasLengths_pos hcc0 x hx), fromPandasLengths_le hcc0 x hx⟩
  · exact fromPandasLengths_dropLast hcc0
  · exact fromPandasLengths_sum _ _ hcc0
  · exact fromPandasLengths_length_le hcc0 hsc.2.2.2
  · simp only [splitPandas_eq hwf, gridOf]
    have := fromPandasLengths_eq df.index rc hrc0
    simp only [Frame.nrows] at *
    rw [this]
    simp only [List.map_map]
    apply List.map_congr_left
    intro i _
    have hlen : (colBounds df.ncols cc).length = max 1 (fromPandasLengths df.ncols cc).length := by
      by_cases hz : df.ncols = 0
      · simp [hz, colBounds, fromPandasLengths, pyRangeStep_zero cc hcc0]
      · rw [colBounds_length hcc0 (by omega)]
        have h1 := fromPandasLengths_sum df.ncols cc hcc0
        have : (fromPandasLengths df.ncols cc).length ≠ 0 := by
          intro h0
          rw [List.eq_nil_of_length_eq_zero h0] at h1
          simp at h1; omega
        omega
    simp only [Function.comp, List.map_map]
    rw [← hlen]
    simp [Frame.ilocCols, Frame.ilocRows, Function.comp_def, List.map_const']
  · intro row hrow
    simp only [splitPandas_eq hwf, gridOf, List.mem_map] at hrow
    obtain ⟨p, _, rfl⟩ := hrow
    simp only [List.map_map, Function.comp_def, Frame.ilocCols, Frame.ilocRows]
    split
    · rename_i hz
      simp only [hz, colBounds, ge_iff_le, Nat.zero_le, ↓reduceIte, List.map_cons, List.map_nil]
      simp only [Frame.ncols] at hz
      simp [hz]
    · rename_i hz
      unfold colBounds
      split
      · rw [fromPandasLengths_single (by omega) (by assumption)]
        simp [Frame.ncols]
      · have := fromPandasLengths_eq df.columns cc hcc0
        simp only [Frame.ncols] at *
        rw [this]
        simp [List.map_map, Function.comp_def]
  · intro row hrow b hb
    simp only [splitPandas_eq hwf, gridOf, List.mem_map] at hrow
    obtain ⟨p, _, rfl⟩ := hrow
    simp only [List.mem_map] at hb
    obtain ⟨q, _, rfl⟩ := hb
    exact (hwf.ilocRows _ _).ilocCols _ _

/-- Non-vacuity for C02: 7 rows under NPartitions = 3, MinRowPartitionSize = 2. -/
example :
    let df : Frame Nat Nat Unit :=
      { index := List.range 7, columns := [0], rows := List.replicate 7 [()] }
    df.WF ∧ (fromPandas ⟨3, 2, 1⟩ df).map (·.rowLens) = some (some [3, 3, 1]) := by
  refine ⟨⟨rfl, by decide⟩, by decide⟩

/-- **C03.** Cutting the result of a whole-axis function into partitions loses nothing: for
    every result, every requested number of pieces ≥ 1 and every minimum block size ≥ 1 the
    pieces exist, and the pieces put one after the other (along the split axis) give exactly
    the labels and the cells of the result; there are as many pieces as requested. -/
theorem C03_split_keeps_everything (numSplits minBlock : Nat) (hs : 1 ≤ numSplits)
    (hb : 1 ≤ minBlock) (result : Frame ι κ α) (hwf : result.WF) :
    (∃ pieces, splitResult true numSplits result minBlock none = some pieces ∧
      pieces.length = numSplits ∧ Frame.vcat pieces = some result) ∧
    (∃ pieces, splitResult false numSplits result minBlock none = some pieces ∧
      pieces.length = numSplits ∧ Frame.hcat pieces = some result) := by
  have main : ∀ n, ∃ lens, getLengthList n numSplits minBlock = some lens := by
    intro n
    unfold getLengthList
    rw [computeChunksize_eq hs hb, Option.map_some]
    exact ⟨_, rfl⟩
  by_cases h1 : numSplits = 1
  · refine ⟨⟨[result], by simp [splitResult, h1], by simp [h1], ?_⟩,
      ⟨[result], by simp [splitResult, h1], by simp [h1], ?_⟩⟩
    · simp [Frame.vcat]
    · have : Frame.hrows result.index.length [result.rows] = result.rows := by
        simp only [Frame.hrows]
        rw [← hwf.rows_len]
        have := zipWith_append_map (fun r : List α => r) (fun _ => []) result.rows
        simpa [List.map_const'] using this
      simp [Frame.hcat, this]
  · constructor
    · obtain ⟨lens, hl⟩ := main result.nrows
      have hsum := getLengthList_sum hl
      refine ⟨_, splitResult_rows _ _ h1 _ _ lens (Or.inr ⟨rfl, hl⟩), ?_, ?_⟩
      · simp [sliceBounds_length, hsum.2]
      · apply Frame.vcat_ilocRows hwf
        · intro h0
          have := sliceBounds_length lens
          rw [h0] at this; simp at this; omega
        · rw [← hsum.1]; exact covers_lens lens
    · obtain ⟨lens, hl⟩ := main result.ncols
      have hsum := getLengthList_sum hl
      refine ⟨_, splitResult_cols _ _ h1 _ _ lens (Or.inr ⟨rfl, hl⟩), ?_, ?_⟩
      · simp [sliceBounds_length, hsum.2]
      · apply Frame.hcat_ilocCols hwf
        · intro h0
          have := sliceBounds_length lens
          rw [h0] at this; simp at this; omega
        · rw [← hsum.1]; exact covers_lens lens

/-- **C03**, explicit lengths (used to return a result to its former partitioning): if the
    lengths add up to the size of the result and there is not just one split, the pieces have
    exactly those lengths and give back the result. -/
theorem C03_split_with_lengths (numSplits minBlock : Nat) (hs : numSplits ≠ 1)
    (result : Frame ι κ α) (hwf : result.WF) (lens : List Nat) (hne : lens ≠ []) :
    (lens.sum = result.nrows →
      ∃ pieces, splitResult true numSplits result minBlock (some lens) = some pieces ∧
        pieces.map (·.index.length) = lens ∧ Frame.vcat pieces = some result) ∧
    (lens.sum = result.ncols →
      ∃ pieces, splitResult false numSplits result minBlock (some lens) = some pieces ∧
        pieces.map (·.columns.length) = lens ∧ Frame.hcat pieces = some result) := by
  have hb : sliceBounds lens ≠ [] := by
    intro h0
    have := sliceBounds_length lens
    rw [h0] at this
    exact hne (List.eq_nil_of_length_eq_zero this.symm)
  constructor
  · intro hsum
    refine ⟨_, splitResult_rows _ _ hs _ _ lens (Or.inl rfl), ?_, ?_⟩
    · simp only [List.map_map, Function.comp_def, Frame.ilocRows]
      exact sliceBounds_lengths result.index lens (Nat.le_of_eq hsum)
    · apply Frame.vcat_ilocRows hwf hb
      rw [← hsum]; exact covers_lens lens
  · intro hsum
    refine ⟨_, splitResult_cols _ _ hs _ _ lens (Or.inl rfl), ?_, ?_⟩
    · simp only [List.map_map, Function.comp_def, Frame.ilocCols]
      exact sliceBounds_lengths result.columns lens (Nat.le_of_eq hsum)
    · apply Frame.hcat_ilocCols hwf hb
      rw [← hsum]; exact covers_lens lens

/-- Non-vacuity for C03: 10 columns into 4 pieces with minimum block size 4: 4, 4, 2, 0. -/
example :
    let f : Frame Nat Nat Nat :=
      { index := [0], columns := List.range 10, rows := [List.range 10] }
    f.WF ∧ (splitResult false 4 f 4 none).map (·.map (·.columns.length)) = some [4, 4, 2, 0] ∧
    (splitResult false 3 f 4 (some [5, 0, 5])).map (·.map (·.columns)) =
      some [[0, 1, 2, 3, 4], [], [5, 6, 7, 8, 9]] := by
  refine ⟨⟨rfl, by decide⟩, by decide, by decide⟩
