import Verif.Lemmas.Select
/-
Properties C08, C09: positional selection.
-/

variable {ι κ α : Type} [DecidableEq ι] [DecidableEq κ]

/-- **C09.** Positions are found in the right blocks.  An axis is stored as consecutive blocks
    (`blocks`, some possibly empty).  For every sorted list of positions inside the axis, the
    dictionary computed from the block lengths alone names existing blocks in strictly increasing
    order, only positions inside each block, and reading those positions from those blocks gives
    exactly the requested elements: each once, none else, in order. -/
theorem C09_positions_located {τ : Type} (blocks : List (List τ)) (hne : blocks ≠ [])
    (ps : List Nat) (hs : ps.Pairwise (· ≤ ·)) (hin : ∀ x ∈ ps, x < blocks.flatten.length) :
    let d := blockDict (blocks.map List.length) ps
    (∀ e ∈ d, ∃ b, blocks[e.1]? = some b ∧ ∀ x ∈ e.2.positions b.length, x < b.length) ∧
    d.Pairwise (fun a b => a.1 < b.1) ∧
    (d.map fun e => takeList (blocks[e.1]?.getD []) (e.2.positions (blocks[e.1]?.getD []).length)).flatten
      = takeList blocks.flatten ps := by
  have hne' : blocks.map List.length ≠ [] := by simpa using hne
  have hin' : ∀ x ∈ ps, x < (blocks.map List.length).sum := by
    intro x hx; rw [← List.length_flatten]; exact hin x hx
  have good := blockDict_good hne' hs hin' false (by simp)
  have glob := blockDict_globals hne' hs
  intro d
  have key : ∀ e ∈ d, takeList (blocks[e.1]?.getD []) (e.2.positions (blocks[e.1]?.getD []).length)
      = takeList blocks.flatten (selGlobal (blocks.map List.length) e) := by
    intro e he
    obtain ⟨hlt, hins, _⟩ := good e he
    have hlt' : e.1 < blocks.length := by simpa using hlt
    simp only [List.getElem_map] at hins
    rw [List.getElem?_eq_getElem hlt']
    simp only [Option.getD_some]
    have hsl := sliceBounds_flatten_self_get blocks (blocks.map List.length) rfl e.1
      (by rw [sliceBounds_length]; exact hlt) hlt'
    have hb : (sliceBounds (blocks.map List.length))[e.1]'(by rw [sliceBounds_length]; exact hlt)
        = (off (blocks.map List.length) e.1, off (blocks.map List.length) (e.1 + 1)) := by
      have := sliceBounds_getElem? hlt
      rw [List.getElem?_eq_some_iff] at this
      exact this.2
    rw [hb] at hsl
    simp only at hsl
    conv => lhs; arg 1; rw [← hsl]
    rw [takeList_pySlice]
    · simp only [selGlobal, List.getD_eq_getElem?_getD, List.getElem?_eq_getElem hlt,
        Option.getD_some, List.getElem_map]
    · intro i hi
      have := hins i hi
      have := off_succ hlt
      simp only [List.getElem_map] at this
      omega
  refine ⟨?_, blockDict_ordered _ _, ?_⟩
  · intro e he
    obtain ⟨hlt, hins, _⟩ := good e he
    have hlt' : e.1 < blocks.length := by simpa using hlt
    refine ⟨blocks[e.1], List.getElem?_eq_getElem hlt', ?_⟩
    simpa using hins
  · rw [List.map_congr_left key]
    conv => rhs; rw [← glob]
    rw [takeList_flatten, List.map_map]
    rfl

/-- **C09**, contiguous ranges: the fast path for slices (all five of its branches) reads exactly
    the positions `start, …, stop - 1`. -/
theorem C09_slices_located {τ : Type} (blocks : List (List τ)) (hne : blocks ≠ [])
    (start stop : Nat) (h1 : start < stop) (h2 : stop ≤ blocks.flatten.length) :
    ∃ d, blockSlices (blocks.map List.length) blocks.flatten.length blocks.length start stop = some d ∧
    (∀ e ∈ d, ∃ b, blocks[e.1]? = some b) ∧
    d.Pairwise (fun a b => a.1 < b.1) ∧
    (d.map fun e => takeList (blocks[e.1]?.getD []) (e.2.positions (blocks[e.1]?.getD []).length)).flatten
      = pySlice blocks.flatten start stop := by
  have hne' : blocks.map List.length ≠ [] := by simpa using hne
  have hsum : (blocks.map List.length).sum = blocks.flatten.length := by rw [List.length_flatten]
  obtain ⟨d, g1, g2, g3, g4, g5⟩ := blockSlices_spec hne' h1 (by rw [hsum]; exact h2) false
  rw [hsum, List.length_map] at g1
  have key : ∀ e ∈ d, takeList (blocks[e.1]?.getD []) (e.2.positions (blocks[e.1]?.getD []).length)
      = takeList blocks.flatten (selGlobal (blocks.map List.length) e) := by
    intro e he
    obtain ⟨hlt, hins, _⟩ := g4 e he
    have hlt' : e.1 < blocks.length := by simpa using hlt
    simp only [List.getElem_map] at hins
    rw [List.getElem?_eq_getElem hlt']
    simp only [Option.getD_some]
    have hsl := sliceBounds_flatten_self_get blocks (blocks.map List.length) rfl e.1
      (by rw [sliceBounds_length]; exact hlt) hlt'
    have hb : (sliceBounds (blocks.map List.length))[e.1]'(by rw [sliceBounds_length]; exact hlt)
        = (off (blocks.map List.length) e.1, off (blocks.map List.length) (e.1 + 1)) := by
      have := sliceBounds_getElem? hlt
      rw [List.getElem?_eq_some_iff] at this
      exact this.2
    rw [hb] at hsl
    simp only at hsl
    conv => lhs; arg 1; rw [← hsl]
    rw [takeList_pySlice]
    · simp only [selGlobal, List.getD_eq_getElem?_getD, List.getElem?_eq_getElem hlt,
        Option.getD_some, List.getElem_map]
    · intro i hi
      have := hins i hi
      have := off_succ hlt
      simp only [List.getElem_map] at this
      omega
  refine ⟨d, g1, ?_, g5, ?_⟩
  · intro e he
    have hlt := (g4 e he).lt
    exact ⟨_, List.getElem?_eq_getElem (by simpa using hlt)⟩
  · rw [List.map_congr_left key]
    have : (d.map fun a => takeList blocks.flatten (selGlobal (blocks.map List.length) a)).flatten
        = takeList blocks.flatten (d.map (selGlobal (blocks.map List.length))).flatten := by
      rw [takeList_flatten, List.map_map]; rfl
    rw [this, g3, takeList_range' _ _ _ (by omega)]
    congr 1
    omega

/-- Non-vacuity for C09: blocks of lengths 2, 0, 3, 1; repeats allowed; a range across blocks. -/
example :
    blockDict [2, 0, 3, 1] [0, 1, 2, 2, 5] = [(0, .list [0, 1]), (2, .list [0, 0]), (3, .list [0])] ∧
    blockSlices [2, 0, 3, 1] 6 4 1 5 = some [(0, .slice 1 none), (1, .full), (2, .full), (3, .slice 0 (some 0))] := by
  decide

/-- **C08.** `df.iloc[rows, cols]` is pandas' `take`.  For every partitioned frame that stands for
    `df`, whatever its division into blocks and whichever lengths and labels are cached, and for
    every request inside bounds (no request, a range, or an array of positions in any order) the
    selection succeeds and the new frame stands for the rows and columns asked for, in the order
    asked for.

    Partial: when block length caches are filled (`known`), array positions must not repeat
    (see `C08_repeats_wrong`); `_ranges` must not be inverted (`C08_inverted_range_wrong`) and
    empty ranges are treated separately (`C08_empty_range`). -/
theorem C08_take_partial (cfg : Cfg) (hp : 1 ≤ cfg.nPartitions) (hmr : 1 ≤ cfg.minRow)
    (hmc : 1 ≤ cfg.minCol) (m : MFrame ι κ α) (df : Frame ι κ α) (h : m.Represents df)
    (known : Nat → Nat → Bool × Bool) (rows cols : Option Positions)
    (hrows : ∀ p, rows = some p → ∀ x ∈ p.toList, x < df.nrows)
    (hcols : ∀ p, cols = some p → ∀ x ∈ p.toList, x < df.ncols)
    (hrange : ∀ a b, rows = some (.range a b) ∨ cols = some (.range a b) → a < b)
    (hrep : (∀ i j, known i j = (false, false)) ∨
      ∀ p, rows = some p ∨ cols = some p → p.toList.Nodup) (nan : α) :
    ∃ m', take2d cfg known m rows cols = some m' ∧
      m'.Represents ((df.takeRows (reqList df.nrows rows)).takeCols (reqList df.ncols cols)) ∧
      m'.toPandas nan
        = some ((df.takeRows (reqList df.nrows rows)).takeCols (reqList df.ncols cols)) := by
  have valid : ∀ (n : Nat) (r : Option Positions),
      (∀ p, r = some p → ∀ x ∈ p.toList, x < n) → (∀ a b, r = some (.range a b) → a < b) →
      ∀ q, r = some q → q.Valid n := by
    intro n r hr hab q hq
    cases q with
    | array ps => exact hr _ hq
    | range a b =>
      have h1 := hab a b hq
      have h2 := hr _ hq (b - 1) (by simp only [Positions.toList, List.mem_range'_1]; omega)
      exact ⟨by omega, by omega⟩
  obtain ⟨m', h1, h2⟩ : ∃ m', take2d cfg known m rows cols = some m' ∧
      m'.Represents ((df.takeRows (reqList df.nrows rows)).takeCols (reqList df.ncols cols)) := by
    rcases hrep with hk | hnd
    · exact take2d_spec cfg hp hmr hmc h (known := known) (kn := false)
        (by intro i j hh; rw [hk i j] at hh; simp at hh)
        (valid _ _ hrows fun a b hh => hrange a b (Or.inl hh))
        (valid _ _ hcols fun a b hh => hrange a b (Or.inr hh))
        (fun a b hh => hrange a b (Or.inl hh)) (fun a b hh => hrange a b (Or.inr hh))
        (by simp) (by simp)
    · exact take2d_spec cfg hp hmr hmc h (known := known) (kn := true)
        (by intros; rfl)
        (valid _ _ hrows fun a b hh => hrange a b (Or.inl hh))
        (valid _ _ hcols fun a b hh => hrange a b (Or.inr hh))
        (fun a b hh => hrange a b (Or.inl hh)) (fun a b hh => hrange a b (Or.inr hh))
        (fun _ q hq => hnd q (Or.inl hq)) (fun _ q hq => hnd q (Or.inr hq))
  exact ⟨m', h1, h2, h2.toPandas nan⟩

/-- a 4×3 frame used in the examples -/
def selDemo : Frame Nat String Int :=
  { index := [10, 11, 12, 13], columns := ["a", "b", "c"],
    rows := [[1, 2, 3], [4, 5, 6], [7, 8, 9], [10, 11, 12]] }

/-- the frame above in 2×2 blocks -/
def selDemoM : MFrame Nat String Int :=
  { parts := selDemo.cut [2, 2] [2, 1], index := some selDemo.index,
    columns := some selDemo.columns, rowLens := some [2, 2], colWidths := some [2, 1] }

theorem selDemo_represents : selDemoM.Represents selDemo :=
  ⟨⟨rfl, by decide⟩, ⟨[2, 2], [2, 1], ⟨by decide, by decide, by decide, by decide⟩, rfl,
    Or.inr rfl, Or.inr rfl⟩, Or.inr rfl, Or.inr rfl⟩

/-- Non-vacuity for C08: rows 3, 0, 2 and columns 2, 0 of a 4×3 frame. -/
example :
    ((take2d ⟨4, 1, 1⟩ (fun _ _ => (true, true)) selDemoM (some (.array [3, 0, 2]))
      (some (.array [2, 0]))).bind (·.toPandas 0))
    = some { index := [13, 10, 12], columns := ["c", "a"], rows := [[12, 10], [3, 1], [9, 7]] } := by
  decide

/-- **C08 fails for repeats.**  `df.iloc[:, [0, 0, 2]]` on a 4×3 frame in blocks of 2+1 columns,
    with block sizes cached: two positions fall in a block of two columns, the whole block is
    taken, and the result's cells are columns `a`, `b`, `c` under labels `a`, `a`, `c`
    (`to_pandas` reports the inconsistency). -/
theorem C08_repeats_wrong :
    ∃ m', take2d ⟨4, 1, 1⟩ (fun _ _ => (true, true)) selDemoM none (some (.array [0, 0, 2])) = some m' ∧
      (assemble m'.parts).map (·.rows) = some selDemo.rows ∧
      (assemble m'.parts).map (·.rows) ≠ some ((selDemo.takeCols [0, 0, 2]).rows) ∧
      m'.toPandas 0 = none := by
  refine ⟨_, rfl, ?_⟩
  decide

/-- **C08 fails for inverted ranges.**  `df.iloc[3:1]` has no rows in pandas; here the fast path
    for slices returns blocks with rows, under an empty index. -/
theorem C08_inverted_range_wrong :
    ∃ m', take2d ⟨4, 1, 1⟩ (fun _ _ => (true, true)) selDemoM (some (.range 3 1)) none = some m' ∧
      m'.index = some [] ∧ (assemble m'.parts).map (·.rows) = some [[10, 11, 12], [1, 2, 3]] ∧
      m'.toPandas 0 = none := by
  refine ⟨_, rfl, ?_⟩
  decide

/-- **C08**, empty ranges (`df.iloc[k:k]`): no rows, all columns, even though no block is left. -/
theorem C08_empty_range (cfg : Cfg) (m : MFrame ι κ α) (df : Frame ι κ α) (h : m.Represents df)
    (hcols : m.columns = some df.columns) (hn : 0 < df.nrows) (known : Nat → Nat → Bool × Bool)
    (k : Nat) (nan : α) :
    (take2d cfg known m (some (.range k k)) none).bind (·.toPandas nan)
      = some (df.takeRows []) := by
  obtain ⟨rl, cw, hcut, hpt, hrl, hcw⟩ := h.blocks
  have hi : m.getIndex.length = df.nrows := by rw [h.getIndex]; rfl
  unfold take2d
  rw [hi]
  have h0 : ¬ (k - k = df.nrows) := by omega
  simp only [normPositions, h0, ↓reduceIte]
  have hj : jumps df.nrows m.getColumns.length (some (.range k k)) none = false := by
    have e : (Positions.range k k).toList = [] := by simp [Positions.toList]
    simp only [jumps]
    rw [e]
    simp [jumpToReorder, nondecreasing]
  rw [hj]
  simp only [maskThenReorder, reduceCtorEq, false_and, Bool.false_eq_true, ↓reduceIte]
  have hb : ∀ np, blockSlices m.getRowLens m.getIndex.length np k k = some [] := by
    intro np
    unfold blockSlices
    rw [hi]
    have : ¬ (k = 0 ∧ df.nrows ≤ k) := by omega
    have hc : (decide (k = 0) && decide (k ≥ df.nrows)) = false := by
      simp only [Bool.and_eq_false_iff, decide_eq_false_iff_not]; omega
    simp [hc]
  have hlab : pySlice m.getIndex k k = [] := by simp [pySlice]
  simp only [takeByMask, maskAxisPlan, sortedPositions, blockIndex, hb, Option.bind_eq_bind,
    Option.bind_some, newLengths, List.mapM_nil, Option.pure_def, newLabels, hlab, widthsOk,
    Bool.not_true, Bool.false_eq_true, ↓reduceIte, maskGrid, inOrder, Bool.and_self]
  have hmk : MFrame.mk' (MFrame.mk (ι := ι) (κ := κ) (α := α) [] (some []) m.columns (some []) m.colWidths)
      = some (filterEmpties (MFrame.mk [] (some []) m.columns (some []) m.colWidths)) := by
    unfold MFrame.mk'
    have v2 : validAxis m.colWidths m.columns = true := by
      unfold validAxis
      rcases hcw with h1 | h1 <;> simp only [h1, hcols]
      have := hcut.cw_sum
      simp only [Frame.ncols] at this
      rw [this]; simp
    have v1 : validAxis (some []) (some ([] : List ι)) = true := rfl
    simp only [v1, v2, Bool.and_self, ↓reduceIte]
  have hfe : filterEmpties (MFrame.mk (ι := ι) (κ := κ) (α := α) [] (some []) m.columns (some []) m.colWidths)
      = MFrame.mk [] (some []) m.columns (some []) m.colWidths := by
    unfold filterEmpties
    split
    · simp
    · rfl
  rw [hmk, hfe]
  simp only [Option.bind_some, MFrame.toPandas, assemble, List.filter_nil, List.mapM_nil,
    Option.pure_def, Option.bind_eq_bind, List.isEmpty_nil, ↓reduceIte, Frame.isEmpty, Frame.nrows,
    List.length_nil, beq_self_eq_true, Bool.true_or, MFrame.getIndex, MFrame.getColumns, hcols]
  simp [Frame.takeRows, takeList]

/-- The meaning of an `iloc` key: which positions it asks for (`none`: pandas raises
    `IndexError`). -/
def Loc.picks (n : Nat) : Loc → Option (List Nat)
  | .all => some (List.range n)
  | .slice a b => some (slicePicks n a b)
  | .ints ps => ps.mapM (intPick n)
  | .bools bs => if bs.length = n then
      some ((List.range n).filter fun i => bs[i]?.getD false) else none

/-- What is excluded from `C08_iloc_partial` along one axis: an inverted or empty slice, and a
    repeated integer position. -/
def Loc.Proper (n : Nat) : Loc → Prop
  | .all => True
  | .slice a b => slicePicks n a b ≠ []
  | .ints ps => ∀ l, ps.mapM (intPick n) = some l → l.Nodup
  | .bools _ => True

theorem computeLookup_spec {n : Nat} {k : Loc} {l : List Nat} (hl : k.picks n = some l)
    (hpr : k.Proper n) :
    ∃ p, computeLookup n k = some p ∧ reqList n p = l ∧ (∀ q, p = some q → q.Valid n) ∧
      (∀ a b, p = some (.range a b) → a < b) ∧ (∀ q, p = some q → q.toList.Nodup) := by
  cases k with
  | all => cases hl; exact ⟨none, rfl, rfl, by simp, by simp, by simp⟩
  | slice a b =>
    simp only [Loc.picks, Option.some.injEq] at hl
    subst hl
    simp only [Loc.Proper] at hpr
    rw [slicePicks_eq] at hpr ⊢
    have hlt : (sliceIndices n a b).1 < (sliceIndices n a b).2 := by
      apply Decidable.byContradiction
      intro h
      exact hpr (by rw [Nat.sub_eq_zero_of_le (by omega)]; rfl)
    have hb : (sliceIndices n a b).2 ≤ n := by
      unfold sliceIndices
      simp only
      split
      · omega
      · split <;> omega
    refine ⟨_, rfl, rfl, ?_, ?_, ?_⟩
    · intro q hq; cases hq; exact ⟨by omega, hb⟩
    · intro x y hq; cases hq; exact hlt
    · intro q hq; cases hq; exact List.nodup_range'
  | bools bs =>
    simp only [Loc.picks] at hl
    split at hl
    · rename_i hlen
      cases hl
      have e : (bs.zipIdx.filterMap fun e => if e.1 then some e.2 else none)
          = (List.range n).filter fun i => bs[i]?.getD false := by
        rw [← hlen]
        clear hlen hpr
        have : ∀ (bs : List Bool) (s : Nat),
            ((bs.zipIdx s).filterMap fun e => if e.1 then some e.2 else none)
              = (List.range' s bs.length).filter fun i => bs[i - s]?.getD false := by
          intro bs
          induction bs with
          | nil => intro s; rfl
          | cons b bs ih =>
            intro s
            rw [List.zipIdx_cons, List.length_cons, List.range'_succ, List.filterMap_cons,
              List.filter_cons]
            have ht : (List.range' (s + 1) bs.length).filter (fun i => (b :: bs)[i - s]?.getD false)
                = (List.range' (s + 1) bs.length).filter (fun i => bs[i - (s + 1)]?.getD false) := by
              apply List.filter_congr
              intro i hi
              rw [List.mem_range'_1] at hi
              have : i - s = (i - (s + 1)) + 1 := by omega
              rw [this, List.getElem?_cons_succ]
            cases b with
            | true => simp [ih, ht]
            | false => simp [ih, ht]
        have h2 := this bs 0
        simpa [List.range_eq_range'] using h2
      refine ⟨_, rfl, e, ?_, by simp, ?_⟩
      · intro q hq
        cases hq
        intro x hx
        rw [e] at hx
        simp at hx; exact hx.1
      · intro q hq
        cases hq
        simp only [Positions.toList]
        rw [e]
        exact List.Pairwise.filter _ List.nodup_range
    · cases hl
  | ints ps =>
    simp only [Loc.picks] at hl
    have hmem : ∀ x ∈ l, x < n := by
      have : ∀ (ps : List Int) (l : List Nat), ps.mapM (intPick n) = some l → ∀ x ∈ l, x < n := by
        intro ps
        induction ps with
        | nil => intro l h; simp at h; subst h; simp
        | cons p ps ih =>
          intro l h
          simp only [List.mapM_cons, Option.bind_eq_bind, Option.bind_eq_some_iff, Option.pure_def,
            Option.some.injEq] at h
          obtain ⟨y, hy, l', hl', rfl⟩ := h
          intro x hx
          rcases List.mem_cons.mp hx with rfl | hx
          · unfold intPick at hy
            split at hy
            · cases hy; omega
            · split at hy
              · cases hy; omega
              · cases hy
          · exact ih l' hl' x hx
      exact this ps l hl
    have hcl : computeLookup n (.ints ps) = some (some (.array l)) := by
      simp only [computeLookup]
      split
      · have : ps.mapM (fun (p : Int) => if 0 ≤ p ∧ p < (n : Int) then some p.toNat
            else if p < 0 ∧ 0 ≤ p + (n : Int) then some (p + n).toNat else none) = some l := hl
        rw [this]; rfl
      · rename_i hneg
        have hpos : ∀ p ∈ ps, 0 ≤ p := by
          intro p hp
          apply Decidable.byContradiction
          intro hlt
          exact hneg (by rw [List.any_eq_true]; exact ⟨p, hp, by simpa using hlt⟩)
        have : ∀ (ps : List Int) (l : List Nat), (∀ p ∈ ps, 0 ≤ p) → ps.mapM (intPick n) = some l →
            ps.map Int.toNat = l := by
          intro ps
          induction ps with
          | nil => intro l _ h; simp at h; subst h; rfl
          | cons p ps ih =>
            intro l hpos h
            simp only [List.mapM_cons, Option.bind_eq_bind, Option.bind_eq_some_iff, Option.pure_def,
              Option.some.injEq] at h
            obtain ⟨y, hy, l', hl', rfl⟩ := h
            rw [List.map_cons, ih l' (fun q hq => hpos q (by simp [hq])) hl']
            have hp0 := hpos p (by simp)
            unfold intPick at hy
            split at hy
            · cases hy; rfl
            · split at hy
              · omega
              · cases hy
        rw [this ps l hpos hl]
    refine ⟨_, hcl, rfl, ?_, by simp, ?_⟩
    · intro q hq; cases hq; exact hmem
    · intro q hq; cases hq; exact hpr l hl

/-- **C08** at the API.  `df.iloc[r, c]` with slices (negative and missing bounds included),
    integer lists (negative positions included), boolean masks or `:` gives the rows and columns
    that Python's indexing rules pick.  Same exclusions as above (`Loc.Proper`). -/
theorem C08_iloc_partial (cfg : Cfg) (hp : 1 ≤ cfg.nPartitions) (hmr : 1 ≤ cfg.minRow)
    (hmc : 1 ≤ cfg.minCol) (m : MFrame ι κ α) (df : Frame ι κ α) (h : m.Represents df)
    (known : Nat → Nat → Bool × Bool) (r c : Loc) (rows cols : List Nat)
    (hr : r.picks df.nrows = some rows) (hc : c.picks df.ncols = some cols)
    (hrp : r.Proper df.nrows) (hcp : c.Proper df.ncols) (nan : α) :
    (ilocGet cfg known m r c).bind (·.toPandas nan) = some ((df.takeRows rows).takeCols cols) := by
  obtain ⟨rp, r1, r2, r3, r4, r5⟩ := computeLookup_spec hr hrp
  obtain ⟨cp, c1, c2, c3, c4, c5⟩ := computeLookup_spec hc hcp
  obtain ⟨m', g1, g2⟩ := take2d_spec cfg hp hmr hmc h (known := known) (kn := true)
    (by intros; rfl) r3 c3 r4 c4 (fun _ => r5) (fun _ => c5)
  have hi : m.getIndex.length = df.nrows := by rw [h.getIndex]; rfl
  have hcn : m.getColumns.length = df.ncols := by rw [h.getColumns]; rfl
  unfold ilocGet
  rw [hi, hcn, r1, c1]
  simp only [Option.bind_eq_bind, Option.bind_some]
  rw [g1, Option.bind_some, g2.toPandas nan, r2, c2]

/-- Non-vacuity: `df.iloc[[-1, 0], 1:]`. -/
example : ((ilocGet ⟨4, 1, 1⟩ (fun _ _ => (true, true)) selDemoM (.ints [-1, 0]) (.slice (some 1) none)).bind
      (·.toPandas 0))
    = some { index := [13, 10], columns := ["b", "c"], rows := [[11, 12], [2, 3]] } := by decide

/-- **C08**, errors: a row position outside the frame raises, as in pandas, instead of returning
    some other row. -/
theorem C08_out_of_bounds_raises (cfg : Cfg) (m : MFrame ι κ α) (df : Frame ι κ α)
    (h : m.Represents df) (known : Nat → Nat → Bool × Bool) (ps : List Nat)
    (hbad : ∃ x ∈ ps, df.nrows ≤ x) (cols : Option Positions) :
    take2d cfg known m (some (.array ps)) cols = none := by
  have hi : m.getIndex.length = df.nrows := by rw [h.getIndex]; rfl
  have hct : ∀ q : List Nat, (∃ x ∈ q, df.nrows ≤ x) → checkedTake m.getIndex q = none := by
    intro q hq
    unfold checkedTake
    rw [if_neg]
    intro hall
    obtain ⟨x, hx, hge⟩ := hq
    rw [List.all_eq_true] at hall
    have := hall x hx
    simp only [decide_eq_true_eq, hi] at this
    omega
  have hmask : ∀ cp, takeByMask known m (some (.array ps)) cp = none := by
    intro cp
    obtain ⟨q, hq, _, hperm, _⟩ := sortedPositions_pairwise ps
    have : ∃ x ∈ q, df.nrows ≤ x := by
      obtain ⟨x, hx, hge⟩ := hbad
      exact ⟨x, hperm.mem_iff.mpr hx, hge⟩
    unfold takeByMask maskAxisPlan
    simp only [hq, newLabels, hct q this]
    simp [Option.bind_eq_bind]
  unfold take2d
  have hn : normPositions m.getIndex.length (some (.array ps)) = some (.array ps) := rfl
  rw [hn]
  simp only [reduceCtorEq, false_and, ↓reduceIte]
  split
  · rename_i hj
    unfold reorderLabels reorderRowsStep
    simp only [Option.map_some, Positions.toList, hct ps hbad]
    simp
  · unfold maskThenReorder
    rw [hmask]
    rfl
