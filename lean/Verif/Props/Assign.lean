import Verif.Lemmas.Assign
import Verif.Props.Select
/-
Property C10: positional assignment.
-/

variable {ι κ α : Type} [DecidableEq ι] [DecidableEq κ]

/-- **C10.** `df.iloc[rows, cols] = item` changes exactly the addressed cells.  For every
    partitioned frame that stands for `df`, every request inside bounds (ranges, or arrays of
    positions in any order and with repeats) and every scalar or two-dimensional array of the
    shape of the request, the assignment succeeds and the result stands for `df` with cell
    `(rows[i], cols[j])` set to `item[i][j]` (the last such `i`, `j` if a position repeats), all
    other cells, the index and the columns unchanged.

    Partial.  Ranges need one of: no cached block lengths; the range starts in the first block;
    all blocks equally long but for a shorter last one (see
    `C10_range_with_uneven_blocks_wrong`).  One-dimensional items are excluded
    (see `C10_one_dimensional_wrong`). -/
theorem C10_assign_partial (m : MFrame ι κ α) (df : Frame ι κ α) (h : m.Represents df)
    (rows cols : Positions)
    (hrows : match rows with
      | .range a b => a ≤ b ∧ b ≤ df.nrows ∧
          (m.rowLens = none ∨ a < m.getRowLens.headD 0 ∨ a = 0 ∨ ∃ c, EvenlyCut m.getRowLens c)
      | .array ps => ∀ x ∈ ps, x < df.nrows)
    (hcols : match cols with
      | .range a b => a ≤ b ∧ b ≤ df.ncols ∧
          (m.colWidths = none ∨ a < m.getColWidths.headD 0 ∨ a = 0 ∨ ∃ c, EvenlyCut m.getColWidths c)
      | .array ps => ∀ x ∈ ps, x < df.ncols)
    (item : Item α) (nan : α)
    (hitem : item.Fits rows.toList.length cols.toList.length) :
    ∃ m', writeItems m rows cols item = some m' ∧
      let result := df.assign rows.toList cols.toList item.value
      m'.Represents result ∧ m'.toPandas nan = some result := by
  obtain ⟨m', h1, h2⟩ := writeItems_spec h (rows := rows) (cols := cols) (it := item)
    (by cases rows with
        | range a b => exact ⟨hrows.1, hrows.2.1⟩
        | array ps => exact hrows)
    (by cases cols with
        | range a b => exact ⟨hcols.1, hcols.2.1⟩
        | array ps => exact hcols)
    (by cases rows with
        | range a b => exact hrows.2.2
        | array ps => trivial)
    (by cases cols with
        | range a b => exact hcols.2.2
        | array ps => trivial)
    hitem
  exact ⟨m', h1, h2, h2.toPandas nan⟩

omit [DecidableEq ι] [DecidableEq κ] in
/-- what `assign` does to the cells: the specification spelled out -/
theorem C10_assign_cells (df : Frame ι κ α) (rows cols : List Nat) (value : Nat → Nat → Option α) :
    (df.assign rows cols value).index = df.index ∧
    (df.assign rows cols value).columns = df.columns ∧
    (∀ x y : Nat, x ∉ rows ∨ y ∉ cols →
      entry (df.assign rows cols value).rows x y = entry df.rows x y) ∧
    (∀ i j x y : Nat, ∀ v, rows[i]? = some x → (∀ i' > i, rows[i']? ≠ some x) →
      cols[j]? = some y → (∀ j' > j, cols[j']? ≠ some y) → value i j = some v →
      x < df.rows.length → (∀ r ∈ df.rows, y < r.length) →
      entry (df.assign rows cols value).rows x y = some v) := by
  refine ⟨rfl, rfl, ?_, ?_⟩
  · intro x y hxy
    unfold entry Frame.assign
    simp only [List.getElem?_mapIdx]
    cases df.rows[x]? with
    | none => rfl
    | some row =>
      simp only [Option.map_some, Option.bind_some, List.getElem?_mapIdx]
      cases row[y]? with
      | none => rfl
      | some w =>
        rcases hxy with hx | hy
        · rw [lastPos_none.mpr hx]; rfl
        · rw [lastPos_none.mpr hy]; cases lastPos rows x <;> rfl
  · intro i j x y v hx hx' hy hy' hv hxl hyl
    unfold entry Frame.assign
    simp only [List.getElem?_mapIdx]
    rw [List.getElem?_eq_getElem hxl]
    have := hyl _ (List.getElem_mem hxl)
    simp only [Option.map_some, Option.bind_some, List.getElem?_mapIdx]
    rw [List.getElem?_eq_getElem this, lastPos_some.mpr ⟨hx, fun i' h' => hx' i' h'⟩,
      lastPos_some.mpr ⟨hy, fun i' h' => hy' i' h'⟩]
    simp [hv]

/-- Non-vacuity: unsorted rows with a repeat, unsorted columns, blocks of 2+2 rows and 2+1
    columns. -/
example :
    ((writeItems selDemoM (.array [3, 0, 3]) (.array [2, 0]) (.arr2 [[-1, -2], [-3, -4], [-5, -6]])).bind
      (·.toPandas 0))
    = some { index := [10, 11, 12, 13], columns := ["a", "b", "c"],
             rows := [[-4, 2, -3], [4, 5, 6], [7, 8, 9], [-6, 11, -5]] } := by
  decide

/-- Non-vacuity for ranges: `EvenlyCut` holds of the blocks of `selDemoM`. -/
example : EvenlyCut selDemoM.getRowLens 2 ∧
    ((writeItems selDemoM (.range 1 3) (.range 1 3) (.arr2 [[-1, -2], [-3, -4]])).bind (·.toPandas 0))
    = some { index := [10, 11, 12, 13], columns := ["a", "b", "c"],
             rows := [[1, 2, 3], [4, -1, -2], [7, -3, -4], [10, 11, 12]] } := by
  refine ⟨⟨?_, ?_⟩, by decide⟩
  · intro i hi
    have hi : i + 1 < 2 := hi
    have : i = 0 := by omega
    subst this; rfl
  · intro i
    match i with
    | 0 => decide
    | 1 => decide
    | n + 2 => simp [selDemoM, MFrame.getRowLens]

/-- the frame of the examples in blocks of 1+3 rows -/
def unevenM : MFrame Nat String Int :=
  { parts := selDemo.cut [1, 3] [2, 1], index := some selDemo.index,
    columns := some selDemo.columns, rowLens := some [1, 3], colWidths := some [2, 1] }

/-- **C10 fails for ranges over uneven blocks.**  Rows stored as 1+3.  In
    `df.iloc[1:4, [0]] = [[-1], [-2], [-3]]` the size of the second block is read from the
    place of the first, so a single row of the item is sent there and broadcast over three. -/
theorem C10_range_with_uneven_blocks_wrong :
    unevenM.Represents selDemo ∧
    ((writeItems unevenM (.range 1 4) (.array [0]) (.arr2 [[-1], [-2], [-3]])).bind (·.toPandas 0))
      = some { selDemo with rows := [[1, 2, 3], [-1, 5, 6], [-1, 8, 9], [-1, 11, 12]] } ∧
    selDemo.assign [1, 2, 3] [0] (entry [[-1], [-2], [-3]])
      = { selDemo with rows := [[1, 2, 3], [-1, 5, 6], [-2, 8, 9], [-3, 11, 12]] } :=
  ⟨⟨⟨rfl, by decide⟩, ⟨[1, 3], [2, 1], ⟨by decide, by decide, by decide, by decide⟩, rfl,
    Or.inr rfl, Or.inr rfl⟩, Or.inr rfl, Or.inr rfl⟩, by decide, by decide⟩

/-- **C10 fails for one-dimensional items.**  `df.iloc[0:2, [2, 0]] = [-1, -2]`: pandas puts -1
    in column 2 and -2 in column 0; here the positions are sorted when they are looked up but the
    item is not. -/
theorem C10_one_dimensional_wrong :
    ((writeItems selDemoM (.range 0 2) (.array [2, 0]) (.arr1 [-1, -2])).bind (·.toPandas 0))
      = some { selDemo with rows := [[-1, 2, -2], [-1, 5, -2], [7, 8, 9], [10, 11, 12]] } ∧
    selDemo.assign [0, 1] [2, 0] (fun _ j => [-1, -2][j]?)
      = { selDemo with rows := [[-2, 2, -1], [-2, 5, -1], [7, 8, 9], [10, 11, 12]] } := by
  decide

/-- **C10 fails for one-dimensional items**, second way: the order of the rows is applied to an
    item that lists values for columns, `df.iloc[[2, 0, 1], [0, 1, 2]] = [-1, -2, -3]`. -/
theorem C10_one_dimensional_row_order_wrong :
    ((writeItems selDemoM (.array [2, 0, 1]) (.array [0, 1, 2]) (.arr1 [-1, -2, -3])).bind (·.toPandas 0))
      = some { selDemo with rows := [[-2, -3, -1], [-2, -3, -1], [-2, -3, -1], [10, 11, 12]] } ∧
    selDemo.assign [2, 0, 1] [0, 1, 2] (fun _ j => [-1, -2, -3][j]?)
      = { selDemo with rows := [[-1, -2, -3], [-1, -2, -3], [-1, -2, -3], [10, 11, 12]] } := by
  decide
