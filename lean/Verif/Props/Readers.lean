import Verif.Lemmas.Writers
/-
C39: `read_parquet` and `read_feather` read everything once.  C40: `read_sql` covers the query once.
C48: what `to_parquet` writes is what `read_parquet` reads.  C49: `to_sql` writes every row once.
-/

variable {ι κ α : Type}

/-- a frame that is shown converts to the pandas frame and has its labels -/
theorem LFrame.Shows.observed [DecidableEq ι] [DecidableEq κ] {m : LFrame ι κ α} {df : Frame ι κ α} (h : m.Shows df)
    (nan : α) : m.toPandas nan = some df ∧ m.getIndex = df.index ∧ m.getColumns = df.columns := by
  refine ⟨?_, h.getIndex, h.getColumns⟩
  obtain ⟨m1, e1, e2⟩ := synced_spec h
  unfold LFrame.toPandas
  rw [e1]
  exact e2.toPandas nan

/-! ### C39 -/

/-- **C39, row groups.**  For every list of files and every number of partitions: the search for row groups ends, the
    partitions together read every row group of every file once and in order, there are as many partitions as asked for
    (or as there are row groups) and their shares differ by at most one row group. -/
theorem C39_row_groups_once {τ : Type} (np : Nat) (hp : 1 ≤ np) (files : List (List τ)) :
    ∃ parts, pqPartitioning np (files.map List.length) = some parts ∧
      (parts.map fun rs => (rs.map fun r => pySlice (files[r.file]?.getD []) r.start r.stop).flatten).flatten
        = files.flatten ∧
      parts.length = min np files.flatten.length ∧
      ∀ rs ∈ parts, let got := ((rs.map fun r => pySlice (files[r.file]?.getD []) r.start r.stop).flatten).length
        got = files.flatten.length / min np files.flatten.length ∨
        got = files.flatten.length / min np files.flatten.length + 1 := by
  obtain ⟨parts, e1, e2, e3, _, e5⟩ := pqPartitioning_spec hp files
  have hr : (fun r : PqRange => pySlice (files[r.file]?.getD []) r.start r.stop) = readRange files := by
    funext r
    unfold readRange
    cases files[r.file]? with
    | none => simp [pySlice]
    | some g => rfl
  refine ⟨parts, e1, ?_, e3, ?_⟩
  · rw [hr]; exact e2
  · rw [hr]; exact e5

-- three files, one of them without row groups, five row groups, two partitions: the second starts inside the first
-- file, steps over the empty file and ends in the third
example : pqPartitioning 2 [3, 0, 2] =
    some [[⟨0, 0, 2⟩], [⟨0, 2, 3⟩, ⟨1, 0, 0⟩, ⟨2, 0, 2⟩]] := by decide

/-- **C39, `read_parquet`** (partial).  With at least one row group and one column to read, the frame that is read is
    the one pandas reads, whatever the configuration.  Missing (see the witnesses): an empty list of columns,
    a dataset without row groups, a filter on a dataset whose range of labels does not end on a step. -/
theorem C39_read_parquet_partial [DecidableEq ι] [DecidableEq κ] (cfg : Cfg) (hp : 1 ≤ cfg.nPartitions)
    (hmr : 1 ≤ cfg.minRow) (hmc : 1 ≤ cfg.minCol) (num : Int → ι) (nan : α) (ds : PqDataset ι κ α)
    (requested : Option (List κ)) (filter : Option (StoredRow ι κ α → Bool)) (hreq : requested ≠ some [])
    (hg : ds.files.flatten ≠ []) (hcols : (pandasReadParquet num ds requested filter).columns ≠ [])
    (hrange : filter ≠ none → ∀ start stop step, ds.info = .range start stop step → step ≠ 0 ∧ step ∣ (stop - start)) :
    ∃ m, readParquet cfg num ds requested filter = some m ∧
      m.toPandas nan = some (pandasReadParquet num ds requested filter) ∧
      m.getIndex = (pandasReadParquet num ds requested filter).index ∧
      m.getColumns = (pandasReadParquet num ds requested filter).columns := by
  have hc : pqColumns ds requested = (pandasReadParquet num ds requested filter).columns := by
    unfold pqColumns pandasReadParquet
    cases requested with
    | none => rfl
    | some l =>
      cases l with
      | nil => exact absurd rfl hreq
      | cons _ _ => rfl
  obtain ⟨m, e1, e2⟩ := readParquet_shows cfg hp hmr hmc num ds requested filter hg (by rw [hc]; exact hcols)
  have hl : pqReadLabels num ds filter = pqLabels num ds.info (keptRows filter ds.rows) := by
    unfold pqReadLabels
    split
    · rfl
    · rename_i h
      simp only [Bool.or_eq_true, Option.isNone_iff_eq_none, beq_iff_eq, not_or] at h
      exact pqFilteredRange_eq num ds.info (hrange h.1) h.2 _
  have : ({ index := pqReadLabels num ds filter, columns := pqColumns ds requested,
            rows := (keptRows filter ds.rows).map fun r => (pqColumns ds requested).map r.cells } : Frame ι κ α) =
      pandasReadParquet num ds requested filter := by
    rw [hl, hc]; rfl
  rw [this] at e2
  exact ⟨m, e1, (e2.observed nan)⟩

/-- columns "a", "b" and the row number times ten, in three files -/
def pqDemo (info : IndexInfo) : PqDataset Int String Int :=
  { names := ["a", "b"], isIndex := fun _ => false, info := info
    files := [[[⟨7, fun k => if k = "a" then 0 else 1⟩], [⟨8, fun k => if k = "a" then 10 else 11⟩]], [],
              [[⟨9, fun k => if k = "a" then 20 else 21⟩]]] }

example : ((readParquet ⟨2, 1, 1⟩ id (pqDemo .unknown) none none).bind (·.toPandas 0)) =
    some { index := [0, 1, 2], columns := ["a", "b"], rows := [[0, 1], [10, 11], [20, 21]] } := by decide +kernel

example : (pqDemo .unknown).files.flatten ≠ [] ∧ (pandasReadParquet id (pqDemo .unknown) none none).columns ≠ [] := by
  constructor
  · simp [pqDemo]
  · decide

example : ((readParquet ⟨2, 1, 1⟩ id (pqDemo (.range 5 11 2)) (some ["b"]) (some fun r => r.cells "a" != 10)).bind
    (·.toPandas 0)) = some { index := [0, 1], columns := ["b"], rows := [[1], [21]] } := by decide +kernel

/-- **C39 is false for a dataset without row groups**: dividing by the number of row partitions raises. -/
theorem C39_no_row_groups_wrong : ∃ (cfg : Cfg) (ds : PqDataset Int String Int), 1 ≤ cfg.nPartitions ∧ 1 ≤ cfg.minRow ∧
    1 ≤ cfg.minCol ∧ readParquet cfg id ds none none = none ∧
    pandasReadParquet id ds none none = { index := [], columns := ["a"], rows := [] } :=
  ⟨⟨4, 32, 32⟩, { names := ["a"], isIndex := fun _ => false, info := .unknown, files := [[]] }, by decide, by decide,
    by decide, rfl, by decide⟩

/-- **C39 is false for `columns=[]`**: every column is read, pandas reads none. -/
theorem C39_empty_columns_wrong : ∃ (cfg : Cfg) (ds : PqDataset Int String Int), 1 ≤ cfg.nPartitions ∧ 1 ≤ cfg.minRow ∧
    1 ≤ cfg.minCol ∧ ((readParquet cfg id ds (some []) none).map (·.getColumns)) = some ["a", "b"] ∧
    (pandasReadParquet id ds (some []) none).columns = [] :=
  ⟨⟨2, 1, 1⟩, pqDemo .unknown, by decide, by decide, by decide, by decide +kernel, by decide⟩

/-- **C39 is false for a filter and a range of labels that does not end on a step**: `RangeIndex(0, 5, 2)` has the
    labels 0, 2, 4; with a filter that keeps every row modin gives 0, 1, 2. -/
theorem C39_filtered_range_wrong : ∃ (cfg : Cfg) (ds : PqDataset Int String Int), 1 ≤ cfg.nPartitions ∧
    1 ≤ cfg.minRow ∧ 1 ≤ cfg.minCol ∧
    ((readParquet cfg id ds none (some fun _ => true)).map (·.getIndex)) = some [0, 1, 2] ∧
    (pandasReadParquet id ds none (some fun _ => true)).index = [0, 2, 4] ∧
    ((readParquet cfg id ds none none).map (·.getIndex)) = some [0, 2, 4] :=
  ⟨⟨2, 1, 1⟩, pqDemo (.range 0 5 2), by decide, by decide, by decide, by decide +kernel, by decide +kernel,
    by decide +kernel⟩

/-- **C39 is false for a filter when no column is left to read** (only the stored index is asked for): the labels are
    not filtered. -/
theorem C39_filtered_index_only_wrong : ∃ (cfg : Cfg) (ds : PqDataset Int String Int), 1 ≤ cfg.nPartitions ∧
    1 ≤ cfg.minRow ∧ 1 ≤ cfg.minCol ∧
    ((readParquet cfg id ds (some ["i"]) (some fun r => r.label == 8)).map (·.getIndex)) = some [7, 8, 9] ∧
    (pandasReadParquet id ds (some ["i"]) (some fun r => r.label == 8)).index = [8] :=
  ⟨⟨2, 1, 1⟩, { pqDemo .stored with names := ["i", "a", "b"], isIndex := fun k => k == "i" }, by decide, by decide,
    by decide, by decide +kernel, by decide +kernel⟩

/-- **C39, `read_feather`.**  For every file with at least one column and every configuration, the frame that is read
    is the frame stored, and the sizes recorded for the blocks are their sizes. -/
theorem C39_read_feather [DecidableEq ι] [DecidableEq κ] (cfg : Cfg) (hp : 1 ≤ cfg.nPartitions) (hmr : 1 ≤ cfg.minRow)
    (num : Int → ι) (nan : α) (cols : List κ) (hcols : cols ≠ []) (rows : List (StoredRow ι κ α)) :
    ∃ m, readFeather cfg num cols rows = some m ∧
      m.toPandas nan = some { index := rangeLabels num 0 1 rows.length, columns := cols,
                              rows := rows.map fun r => cols.map r.cells } ∧
      m.Represents (pqFrame num .unknown cols rows) := by
  obtain ⟨m, e1, e2⟩ := readFeather_represents cfg hp hmr num cols hcols rows
  exact ⟨m, e1, e2.toPandas nan, e2⟩

example : ((readFeather ⟨2, 1, 1⟩ id ["a", "b"] (pqDemo .unknown).rows).map (fun m => (m.parts.map List.length, m.rowLens))) =
    some ([2, 2], some [2, 1]) := by decide +kernel

/-! ### C40 -/

/-- **C40.**  For every query result, every number of partitions and with or without an index column, the frame put
    together from the `LIMIT`/`OFFSET` queries is the one pandas reads with one query. -/
theorem C40_read_sql [DecidableEq ι] [DecidableEq κ] (cfg : Cfg) (hp : 1 ≤ cfg.nPartitions) (hmc : 1 ≤ cfg.minCol)
    (num : Int → ι) (nan : α) (indexCol : Bool) (cols : List κ) (rows : List (StoredRow ι κ α)) :
    ∃ m, readSql cfg num indexCol cols rows = some m ∧
      m.toPandas nan = some { index := if indexCol then rows.map (·.label) else rangeLabels num 0 1 rows.length
                              columns := cols, rows := rows.map fun r => cols.map r.cells } ∧
      m.getIndex = if indexCol then rows.map (·.label) else rangeLabels num 0 1 rows.length := by
  obtain ⟨m, e1, e2⟩ := readSql_shows cfg hp hmc num indexCol cols rows
  obtain ⟨h1, h2, _⟩ := e2.observed nan
  cases indexCol
  · exact ⟨m, e1, h1, h2⟩
  · exact ⟨m, e1, h1, h2⟩

/-- **C40, the queries.**  The `LIMIT`/`OFFSET` windows are disjoint, in order and cover the result. -/
theorem C40_windows_cover {τ : Type} (rows : List τ) (k : Nat) (hk : 1 ≤ k) :
    ((List.range k).map fun part => limitOffset rows (sqlLimit rows.length k) (part * sqlLimit rows.length k)).flatten =
      rows := sql_parts rows k hk

-- five rows in four partitions: windows of two rows, the last one empty
example : (List.range 4).map (fun part => limitOffset [1, 2, 3, 4, 5] (sqlLimit 5 4) (part * sqlLimit 5 4)) =
    [[1, 2], [3, 4], [5], []] := by decide

example : ((readSql ⟨2, 1, 1⟩ id true ["a", "b"] (pqDemo .unknown).rows).bind (·.toPandas 0)) =
    some { index := [7, 8, 9], columns := ["a", "b"], rows := [[0, 1], [10, 11], [20, 21]] } := by decide +kernel

/-! ### C48 -/

/-- **C48, round trip** (partial).  A frame with row partitions `rl` (at most 10000) is written into a new directory,
    the files being written in any order, and read back with any configuration.  The rows, the columns and the labels
    are the same, if the labels are not a range, or are the range 0, 1, 2, ..., or there is one row partition.
    Missing (see the witnesses): other ranges, a directory that already holds files, more row partitions. -/
theorem C48_parquet_round_trip_partial [DecidableEq ι] [DecidableEq κ] (cfg : Cfg) (hp : 1 ≤ cfg.nPartitions)
    (hmr : 1 ≤ cfg.minRow) (hmc : 1 ≤ cfg.minCol) (num : Int → ι) (nan : α)
    (rg : List (StoredRow ι κ α) → List (List (StoredRow ι κ α))) (hrg : ∀ l, (rg l).flatten = l ∧ rg l ≠ [])
    (ix : Option (Int × Int)) (df : Frame ι κ α) (hwf : df.WF) (hcols : df.columns ≠ []) (hnd : df.columns.Nodup)
    (hix : ∀ start step, ix = some (start, step) → step ≠ 0 ∧ df.index = rangeLabels num start step df.index.length)
    (rl cw : List Nat) (hc : df.IsCut rl cw) (hsmall : rl.length ≤ 10000)
    (hok : ix = none ∨ ix = some (0, 1) ∨ rl.length = 1) :
    ∃ ws, pqWrites nan rg ix (df.cut rl cw) = some ws ∧
      ∀ order, order.Perm ws → ∃ ds m, openDataset (runWrites [] order) = some ds ∧
        readParquet cfg num ds none none = some m ∧ m.toPandas nan = some df := by
  obtain ⟨ws, e1, e2⟩ := openDataset_written nan rg (fun l => (hrg l).1) ix hwf hc hsmall
  refine ⟨ws, e1, ?_⟩
  intro order hperm
  obtain ⟨ds, d1, d2, d3, d4, d5, d6⟩ := e2 order hperm
  have hbne := bandsOf_ne hc.rl_ne df
  have hfl : ds.files.flatten ≠ [] := by
    rw [d5]
    cases h : bandsOf rl df with
    | nil => exact absurd h hbne
    | cons b bs =>
      rw [List.map_cons, List.flatten_cons]
      intro h0
      exact (hrg _).2 (List.append_eq_nil_iff.mp h0).1
  have hst := stored_rows nan df.columns hnd df.index df.rows hwf.rows_len hwf.row_width
  have hpc : (pandasReadParquet num ds none none).columns = df.columns := by
    simp [pandasReadParquet, pqFrame, d2, d3]
  obtain ⟨m, m1, m2, _⟩ := C39_read_parquet_partial cfg hp hmr hmc num nan ds none none (by simp) hfl
    (by rw [hpc]; exact hcols) (by simp)
  refine ⟨ds, m, d1, m1, ?_⟩
  rw [m2]
  congr 1
  have hlen : ds.rows.length = df.index.length := by
    rw [d4, List.length_zipWith, hwf.rows_len, Nat.min_self]
  have hlab : pqLabels num ds.info ds.rows = df.index := by
    rw [d6]
    cases ix with
    | none => simp only [pqLabels]; rw [d4]; exact hst.2
    | some p =>
      obtain ⟨start, step⟩ := p
      obtain ⟨h0, hi⟩ := hix start step rfl
      have hpl := pyRangeLen_of_mul h0 (n := rl.headD 0) (start := start) (stop := start + (rl.headD 0 : Nat) * step)
        (by omega)
      simp only [pqLabels]
      rw [hpl, hlen]
      by_cases hh : rl.headD 0 = df.index.length
      · rw [if_pos hh]; exact hi.symm
      · rw [if_neg hh]
        rcases hok with h | h | h
        · exact absurd h (by simp)
        · simp only [Option.some.injEq, Prod.mk.injEq] at h
          obtain ⟨rfl, rfl⟩ := h
          exact hi.symm
        · exfalso
          apply hh
          match rl, h with
          | [n], _ =>
            have := hc.rl_sum
            simpa [Frame.nrows] using this
  have hcl : ((none : Option (List κ)).getD ds.names).filter (fun c => !ds.isIndex c) = df.columns := hpc
  unfold pandasReadParquet pqFrame
  simp only [keptRows]
  rw [hcl, hlab, d4, hst.1]

/-- two rows in two row partitions, with the labels of `ix` -/
def pqOut (labels : List Int) : Frame Int String Int := { index := labels, columns := ["a"], rows := [[1], [2]] }

example : (pqOut [4, 2]).WF ∧ (pqOut [4, 2]).IsCut [1, 1] [1] ∧
    ((pqWrites 0 (fun l => [l]) none ((pqOut [4, 2]).cut [1, 1] [1])).bind fun ws =>
      (openDataset (runWrites [] ws.reverse)).bind fun ds =>
      (readParquet ⟨3, 1, 1⟩ id ds none none).bind (·.toPandas 0)) = some (pqOut [4, 2]) := by
  refine ⟨⟨rfl, by decide⟩, ⟨by decide, by decide, rfl, rfl⟩, by decide +kernel⟩

/-- **C48 is false for a range of labels other than 0, 1, 2, ...**: written from two row partitions,
    `RangeIndex(10, 12)` comes back as `RangeIndex(2)`; written from one it comes back as it was. -/
theorem C48_range_labels_wrong : ∃ (cfg : Cfg), 1 ≤ cfg.nPartitions ∧ 1 ≤ cfg.minRow ∧ 1 ≤ cfg.minCol ∧
    ((pqWrites 0 (fun l => [l]) (some (10, 1)) ((pqOut [10, 11]).cut [1, 1] [1])).bind fun ws =>
      (openDataset (runWrites [] ws)).bind fun ds =>
      (readParquet cfg id ds none none).bind (·.toPandas 0)) = some (pqOut [0, 1]) ∧
    ((pqWrites 0 (fun l => [l]) (some (10, 1)) ((pqOut [10, 11]).cut [2] [1])).bind fun ws =>
      (openDataset (runWrites [] ws)).bind fun ds =>
      (readParquet cfg id ds none none).bind (·.toPandas 0)) = some (pqOut [10, 11]) :=
  ⟨⟨2, 1, 1⟩, by decide, by decide, by decide, by decide +kernel, by decide +kernel⟩

/-- **C48 is false for a directory that was written before**: a frame of two row partitions is written, then a frame of
    one row partition to the same path; the second partition of the first is still read. -/
theorem C48_overwrite_wrong : ∃ (cfg : Cfg), 1 ≤ cfg.nPartitions ∧ 1 ≤ cfg.minRow ∧ 1 ≤ cfg.minCol ∧
    ((pqWrites 0 (fun l => [l]) none ((pqOut [4, 2]).cut [1, 1] [1])).bind fun ws =>
      (pqWrites 0 (fun l => [l]) none
        (({ index := [9], columns := ["a"], rows := [[5]] } : Frame Int String Int).cut [1] [1])).bind fun ws2 =>
      (openDataset (runWrites (runWrites [] ws) ws2)).bind fun ds =>
      (readParquet cfg id ds none none).bind (·.toPandas 0)) =
    some { index := [9, 2], columns := ["a"], rows := [[5], [2]] } :=
  ⟨⟨2, 1, 1⟩, by decide, by decide, by decide, by decide +kernel⟩

/-- **C48 is false for more than 10000 row partitions**: partition 10000 is read before partition 1001. -/
theorem C48_file_order_wrong : partName 10000 < partName 1001 := by decide +kernel

/-! ### C49 -/

/-- **C49.**  Whatever the order in which the workers append their partitions: if the table may be written, it holds
    what `if_exists` keeps, followed by every row of the frame once (in an order given by the workers); if it may not,
    nothing is written. -/
theorem C49_to_sql_every_row_once {τ : Type} (ie : IfExists) (table : Option (List τ)) (parts : List (List τ)) :
    ∀ order, order.Perm parts →
      match toSql ie table order with
      | none => ie = .fail ∧ table ≠ none
      | some t => (ie = .fail → table = none) ∧ ∃ rows, rows.Perm parts.flatten ∧
          t = (if ie = .append then table.getD [] else []) ++ rows := by
  intro order hperm
  unfold toSql
  have hf : order.flatten.Perm parts.flatten := hperm.flatten
  cases ie <;> cases table <;> simp [sqlCreate, foldl_append_flatten] <;> exact hf

/-- **C49: the order of the rows is not that of the frame.** -/
theorem C49_row_order_wrong : ∃ (order : List (List Nat)), order.Perm [[1], [2]] ∧
    toSql .fail none order = some [2, 1] :=
  ⟨[[2], [1]], List.Perm.swap _ _ _, rfl⟩

/-- **C49: the write is not atomic.**  If the second of two workers fails, the rows of the first stay in the table and
    the rows that `if_exists="replace"` removed are gone (pandas writes in one transaction). -/
theorem C49_failure_leaves_part_wrong : toSql .replace (some [7, 8]) [[1]] = some [1] := rfl

example : toSql .append (some [7]) [[2], [1]] = some [7, 2, 1] := rfl
