import Verif.Lemmas.Equals
import Verif.Props.Dropna
import Verif.Props.Reindex
import Verif.Props.LocGet
import Verif.Props.Concat
/-
C85: `equals`, the iterators over rows and columns, and `asof` on partitioned frames.
-/

variable {L α : Type}

/-- **C85**, `equals`.  `a.equals(b)` is true exactly when both frames have the same row labels, the same column labels and the same
    cells, however the two are divided.  Partial: the frames have their labels written to the blocks, and no block is empty (so there is
    a row and a column); see `C85_equals_empty`. -/
theorem C85_equals_partial [DecidableEq L] (P : JoinOps L) (hP : P.Good) (cfg : Cfg) (hp : 1 ≤ cfg.nPartitions) (hr : 1 ≤ cfg.minRow)
    (hc : 1 ≤ cfg.minCol) (nan : α) (same : α → α → Bool) (zero : L) (m1 m2 : MFrame L L α) (A B : Frame L L α) (h1 : m1.Represents A)
    (h2 : m2.Represents B) (hz1 : m1.NoEmptyBlocks) (hz2 : m2.NoEmptyBlocks) :
    m1.equals P cfg nan same zero m2 = some (some (A.equals same B)) :=
  equals_spec P hP cfg hp hr hc nan same zero h1 h2 hz1 hz2

theorem mapM_observed [DecidableEq L] (nan : α) {n : Nat} {f : Nat → Option (Located L α)} {l : List (Selected L α)} (hl : l.length = n)
    (h : ∀ i, i < n → ∃ o s, f i = some o ∧ o.Is s ∧ l[i]? = some s) :
    ((List.range n).mapM f).bind (·.mapM (Located.observe nan)) = some l := by
  subst hl
  induction l generalizing f with
  | nil => rfl
  | cons x l ih =>
    obtain ⟨o, s, e1, e2, e3⟩ := h 0 (by simp)
    simp only [List.getElem?_cons_zero, Option.some.injEq] at e3
    subst e3
    have ih := ih (f := fun i => f (i + 1)) fun i hi => by
      obtain ⟨o, s, a, b, c⟩ := h (i + 1) (by simp; omega)
      exact ⟨o, s, a, b, by simpa using c⟩
    rw [List.length_cons, List.range_succ_eq_map, List.mapM_cons, e1]
    have hmap : (List.map Nat.succ (List.range l.length)).mapM f = (List.range l.length).mapM fun i => f (i + 1) := by
      rw [List.mapM_map]
      rfl
    rw [hmap]
    cases hg : (List.range l.length).mapM fun i => f (i + 1) with
    | none => rw [hg] at ih; cases ih
    | some os =>
      rw [hg, Option.bind_some] at ih
      simp only [Option.bind_eq_bind, Option.bind_some, Option.pure_def, List.mapM_cons, e2.observe nan, ih]

/-- **C85**, `iterrows`: every row in order, once, as a Series with the row's label for name and the columns for labels.  Partial: the
    frame has a column. -/
theorem C85_iterrows_partial [DecidableEq L] (cfg : Cfg) (hp : 1 ≤ cfg.nPartitions) (hmr : 1 ≤ cfg.minRow) (hmc : 1 ≤ cfg.minCol)
    (known : Nat → Nat → Bool × Bool) (nan : α) (unnamed : L) (m : LFrame L L α) (df : Frame L L α) (h : m.Shows df) (hn : 0 < df.ncols) :
    (m.iterrows cfg known nan unnamed).bind (·.mapM (Located.observe nan)) = some (df.eachRow.map fun e => .series e.1 e.2.1 e.2.2) := by
  unfold LFrame.iterrows
  rw [h.getIndex]
  apply mapM_observed nan
  · simp [Frame.eachRow, h.wf.rows_len]
  · intro i hi
    have hi1 : i < df.nrows := hi
    have hi2 : i < df.rows.length := by rw [h.wf.rows_len]; exact hi
    obtain ⟨o, e1, e2⟩ := iloc_row cfg hp hmr hmc known nan unnamed h hn hi1
    have hz : (df.index.zip df.rows)[i]? = some (df.index[i], df.rows[i]) := by
      exact List.getElem?_zip_eq_some.2 ⟨List.getElem?_eq_getElem _, List.getElem?_eq_getElem _⟩
    exact ⟨o, _, e1, e2, by simp [Frame.eachRow, hz]⟩

/-- **C85**, `itertuples`: for every row in order its label (if asked for) and its cells.  Partial: the frame has a column. -/
theorem C85_itertuples_partial [DecidableEq L] (cfg : Cfg) (hp : 1 ≤ cfg.nPartitions) (hmr : 1 ≤ cfg.minRow) (hmc : 1 ≤ cfg.minCol)
    (known : Nat → Nat → Bool × Bool) (nan : α) (unnamed : L) (index : Bool) (m : LFrame L L α) (df : Frame L L α) (h : m.Shows df)
    (hn : 0 < df.ncols) :
    m.itertuples cfg known nan unnamed index = some ((df.index.zip df.rows).map fun r => (if index then some r.1 else none, r.2)) := by
  have h0 := C85_iterrows_partial cfg hp hmr hmc known nan unnamed m df h hn
  unfold LFrame.itertuples
  rw [Option.bind_eq_some_iff] at h0
  obtain ⟨os, e1, e2⟩ := h0
  rw [e1, Option.bind_some]
  unfold Frame.eachRow at e2
  rw [List.map_map] at e2
  generalize df.index.zip df.rows = z at e2 ⊢
  clear e1
  induction os generalizing z with
  | nil =>
    cases z with
    | nil => rfl
    | cons _ _ => simp at e2
  | cons o os ih =>
    rw [List.mapM_cons] at e2 ⊢
    cases ho : o.observe nan with
    | none => rw [ho] at e2; cases e2
    | some s =>
      rw [ho] at e2
      cases hos : os.mapM (Located.observe nan) with
      | none => rw [hos] at e2; cases e2
      | some ss =>
        rw [hos] at e2
        simp only [Option.bind_eq_bind, Option.bind_some, Option.pure_def, Option.some.injEq] at e2
        cases z with
        | nil => cases e2
        | cons r z =>
          rw [List.map_cons] at e2
          injection e2 with e2 e3
          subst e2
          have := ih z (by rw [hos, e3])
          rw [this]
          rfl

/-- **C85**, `items`: every column in order, once, as a Series with the column's label for name and the rows for labels.  Partial: the
    frame has a row. -/
theorem C85_items_partial [DecidableEq L] (cfg : Cfg) (hp : 1 ≤ cfg.nPartitions) (hmr : 1 ≤ cfg.minRow) (hmc : 1 ≤ cfg.minCol)
    (known : Nat → Nat → Bool × Bool) (nan : α) (unnamed : L) (m : LFrame L L α) (df : Frame L L α) (h : m.Shows df) (hn : 0 < df.nrows) :
    (m.items cfg known nan unnamed).bind (·.mapM (Located.observe nan)) = some (df.eachColumn.map fun e => .series e.1 e.2.1 e.2.2) := by
  unfold LFrame.items
  rw [h.getColumns]
  apply mapM_observed nan
  · simp [Frame.eachColumn, Frame.cols, Frame.ncols]
  · intro j hj
    obtain ⟨o, e1, e2⟩ := iloc_column cfg hp hmr hmc known nan unnamed h hn (j := j) hj
    exact ⟨o, _, e1, e2, by simp [Frame.eachColumn, Frame.cols, Frame.ncols, hj]⟩

/-- the data that `asof` looks at: rows without missing values in the columns of `subset` -/
theorem asof_kept [DecidableEq L] (cfg : Cfg) (hp : 1 ≤ cfg.nPartitions) (hmr : 1 ≤ cfg.minRow) (hmc : 1 ≤ cfg.minCol)
    (known : Nat → Nat → Bool × Bool) (isna : α → Bool) (num : Nat → L) (nan : α) {m : LFrame L L α} {df : Frame L L α} (h : m.Shows df)
    {subset : Option (List L)} (hs : subsetOk df.columns subset) (hsn : ∀ xs, subset = some xs → xs.Nodup) :
    ∃ data d, m.asofData cfg known subset = some data ∧
      data.dropnaRows cfg isna num (.how .any) none false = some d ∧
      d.getIndex = ((df.index.zip df.rows).filter fun r => (takeList r.2 (subsetPositions df.columns subset)).all fun a => !isna a).map (·.1) := by
  obtain ⟨data, e1, e2⟩ : ∃ data, m.asofData cfg known subset = some data ∧
      data.Shows (df.takeCols (subsetPositions df.columns subset)) := by
    cases subset with
    | none =>
      refine ⟨m, rfl, ?_⟩
      have : df.takeCols (subsetPositions df.columns none) = df := by
        unfold Frame.takeCols subsetPositions
        rw [takeList_range]
        have : df.rows.map (takeList · (List.range df.columns.length)) = df.rows := by
          conv => rhs; rw [← List.map_id df.rows]
          apply List.map_congr_left
          intro r hr
          rw [← h.wf.row_width r hr, takeList_range]
          rfl
        rw [this]
      rw [this]
      exact h
    | some xs =>
      obtain ⟨v, a1, a2⟩ := takeColLabels_shows cfg hp hmr hmc known h (hs xs rfl) (hsn xs rfl)
      refine ⟨v, ?_, a2⟩
      simp only [LFrame.asofData]
      rw [h.getColumns, if_pos, a1]
      rw [List.all_eq_true]
      intro x hx
      simpa using hs xs rfl x hx
  have := C33_dropna_rows cfg hmc isna num (.how .any) none false nan data _ e2
  unfold Frame.dropnaRows at this
  rw [if_pos (by intro l hl; cases hl)] at this
  obtain ⟨d, d1, _, _, d2, _⟩ := this
  refine ⟨data, d, e1, d1, ?_⟩
  rw [d2]
  simp only [Frame.ignoreIndex, Bool.false_eq_true, ↓reduceIte, Frame.pickRows, Frame.takeCols, List.map_map]
  rw [← keepWhere_zip (fun r => (takeList r (subsetPositions df.columns subset)).all fun a => !isna a) df.index df.rows h.wf.rows_len]
  congr 1
  apply List.map_congr_left
  intro r hr
  simp only [Function.comp_def, NaRule.keeps, subsetPositions]
  have hl : ∀ ps : List Nat, (takeList df.columns ps).length = (takeList r ps).length := fun ps =>
    takeList_length_congr (h.wf.row_width r hr).symm ps
  rw [hl, takeList_range]

/-- **C85**, `asof`.  `df.asof(where, subset)` for a list `where`: for every entry of `where` the last row at or before it that has no
    missing value in the columns of `subset`, a row of missing values if there is none.  Partial: the row labels are in ascending order
    and distinct, the columns of `subset` are there and listed once; see `C85_asof_repeated_label`, `C85_asof_descending`. -/
theorem C85_asof_partial [DecidableEq L] (cfg : Cfg) (hp : 1 ≤ cfg.nPartitions) (hmr : 1 ≤ cfg.minRow) (hmc : 1 ≤ cfg.minCol)
    (known : Nat → Nat → Bool × Bool) (le : L → L → Bool) (nanLabel : L) (isna : α → Bool) (num : Nat → L) (nan : α) (m : LFrame L L α)
    (df : Frame L L α) (h : m.Shows df) (hn : df.index.Nodup) (hnan : nanLabel ∉ df.index) (subset : Option (List L))
    (hs : subsetOk df.columns subset) (hsn : ∀ xs, subset = some xs → xs.Nodup) (where_ : List L) (r : Frame L L α)
    (hr : df.asof le isna nan subset where_ = some r) :
    ∃ m', m.asof cfg known le nanLabel isna num nan subset where_ = some m' ∧ m'.Shows r ∧ m'.toPandas nan = some r := by
  unfold Frame.asof at hr
  by_cases hsort : df.index.Pairwise (fun x y => le x y = true)
  · rw [if_pos hsort] at hr
    have hr := Option.some.inj hr
    obtain ⟨data, d, e1, e2, e3⟩ := asof_kept cfg hp hmr hmc known isna num nan h hs hsn
    generalize hK : (fun r : List α => (takeList r (subsetPositions df.columns subset)).all fun a => !isna a) = keep at *
    have e3 : d.getIndex = ((df.index.zip df.rows).filter fun r => keep r.2).map (·.1) := by rw [e3, ← hK]
    have hKs : d.getIndex.Pairwise (fun x y => le x y = true) := by
      have hsub : d.getIndex.Sublist df.index := by
        rw [e3]
        have h1 := (List.filter_sublist (l := df.index.zip df.rows) (p := fun r => keep r.2)).map (·.1)
        rw [List.map_fst_zip (by rw [h.wf.rows_len]; exact Nat.le_refl _)] at h1
        exact h1
      exact hsort.sublist hsub
    have e4 : where_.mapM (indexAsof le nanLabel d.getIndex) =
        some (where_.map fun w => (d.getIndex.filter fun x => le x w).getLast?.getD nanLabel) := by
      apply mapM_congr_some
      intro w _
      unfold indexAsof
      rw [if_pos hKs]
    have e5 := C56_reindex_partial cfg hp hmr hmc nan nan m df h (some ⟨true, where_.map fun w => (d.getIndex.filter fun x => le x w).getLast?.getD nanLabel⟩)
      none (by intro _ _ _ hc; cases hc)
    unfold Frame.reindex at e5
    simp only [Option.map_some, Option.map_none, Frame.reindexIndex?, Frame.reindexColumns?] at e5
    rw [reindexIndex_rows h.wf hn, Option.bind_some] at e5
    obtain ⟨m1, f1, f2, _⟩ := e5
    obtain ⟨m2, g1, g2⟩ := setIndex_shows f2 where_ (df' := r) (by
      unfold Frame.setIndex
      rw [if_pos (by simp), ← hr]
      congr 2
      rw [List.map_map]
      apply List.map_congr_left
      intro w _
      simp only [Function.comp_def]
      congr 1
      unfold Frame.lastBefore
      rw [e3, List.filter_map, List.filter_filter]
      have : ((fun x => le x w) ∘ fun r : L × List α => r.1) = fun r : L × List α => le r.1 w := rfl
      rw [this, List.getLast?_map]
      have hcomm : (fun r : L × List α => le r.1 w && keep r.2) = fun r => keep r.2 && le r.1 w := by
        funext r; exact Bool.and_comm _ _
      rw [hcomm]
      cases hF : ((df.index.zip df.rows).filter fun r => keep r.2 && le r.1 w).getLast? with
      | none =>
        simp only [Option.map_none, Option.getD_none]
        rw [List.find?_eq_none.2]
        · rfl
        · intro e he
          have : e.1 ∈ df.index := (List.of_mem_zip he).1
          have : e.1 ≠ nanLabel := fun h0 => hnan (h0 ▸ this)
          simpa using this
      | some e =>
        have hm : e ∈ df.index.zip df.rows := (List.mem_filter.1 (List.mem_of_getLast? hF)).1
        simp only [Option.map_some, Option.getD_some]
        rw [find?_zip_of_mem df.index df.rows hn e.1 e.2 hm]
        rfl)
    refine ⟨m2, ?_, g2, (g2.observed nan).1⟩
    unfold LFrame.asof
    rw [e1, Option.bind_some, e2, Option.bind_some, e4, Option.bind_some, f1, Option.bind_some, g1]
  · rw [if_neg hsort] at hr; cases hr

/-- **C85**, `asof` for a single label: the row as a Series named by that label.  Partial: as before, and the frame has at least two
    columns; see `C85_asof_one_column`. -/
theorem C85_asof_one_partial [DecidableEq L] (cfg : Cfg) (hp : 1 ≤ cfg.nPartitions) (hmr : 1 ≤ cfg.minRow) (hmc : 1 ≤ cfg.minCol)
    (known : Nat → Nat → Bool × Bool) (le : L → L → Bool) (nanLabel : L) (isna : α → Bool) (num : Nat → L) (nan : α) (unnamed : L)
    (m : LFrame L L α) (df : Frame L L α) (h : m.Shows df) (hn : df.index.Nodup) (hnan : nanLabel ∉ df.index) (subset : Option (List L))
    (hs : subsetOk df.columns subset) (hsn : ∀ xs, subset = some xs → xs.Nodup) (h2 : 2 ≤ df.ncols) (w : L) (row : List α)
    (hr : df.asof le isna nan subset [w] = some { index := [w], columns := df.columns, rows := [row] }) :
    (m.asofOne cfg known le nanLabel isna num nan unnamed subset w).bind (Located.observe nan) = some (.series w df.columns row) := by
  obtain ⟨m', e1, e2, _⟩ := C85_asof_partial cfg hp hmr hmc known le nanLabel isna num nan m df h hn hnan subset hs hsn [w] _ hr
  unfold LFrame.asofOne
  rw [e1, Option.bind_some]
  unfold LFrame.squeeze
  rw [if_pos ⟨rfl, Or.inr (by rw [e2.getIndex]; rfl)⟩]
  unfold LFrame.columnarize
  have h2' : 2 ≤ df.columns.length := h2
  rw [e2.getColumns, if_pos (Or.inl (by simp only; omega))]
  obtain ⟨t, et, ht⟩ := transpose_shows e2
  have hw : row.length = df.columns.length := by
    have := e2.wf.row_width row (by simp)
    exact this
  rw [transpose_one_row _ _ _ hw] at ht
  rw [et, Option.bind_some]
  unfold LFrame.seriesSqueeze
  have hidx : t.getIndex = df.columns := ht.getIndex
  rw [hidx, if_neg (by omega)]
  obtain ⟨c, ec, hc⟩ := copy_shows ht
  rw [ec]
  exact Located.Is.observe (o := .series c) (s := .series w df.columns row) hc nan

/-! ### the hypotheses are met -/

namespace EqualsDemo

open C11Example (P a b good)

/-- the frame `a`, divided another way -/
def ma : MFrame Nat Nat Nat := { parts := a.cut [1, 2] [1, 1], index := none, columns := none, rowLens := none, colWidths := none }
def ma' : MFrame Nat Nat Nat :=
  { parts := a.cut [2, 1] [2], index := some [0, 1, 2], columns := some [7, 8], rowLens := some [2, 1], colWidths := some [2] }
/-- the last cell differs -/
def c : Frame Nat Nat Nat := { index := [0, 1, 2], columns := [7, 8], rows := [[1, 2], [3, 4], [5, 7]] }
def mc : MFrame Nat Nat Nat := { parts := c.cut [2, 1] [1, 1], index := none, columns := none, rowLens := none, colWidths := none }

theorem ma_ok : ma.Represents a :=
  ⟨⟨by decide, by decide⟩, ⟨[1, 2], [1, 1], ⟨by decide, by decide, by decide, by decide⟩, rfl, Or.inl rfl, Or.inl rfl⟩,
    Or.inl rfl, Or.inl rfl⟩
theorem ma'_ok : ma'.Represents a :=
  ⟨⟨by decide, by decide⟩, ⟨[2, 1], [2], ⟨by decide, by decide, by decide, by decide⟩, rfl, Or.inr rfl, Or.inr rfl⟩,
    Or.inr rfl, Or.inr rfl⟩
theorem mc_ok : mc.Represents c :=
  ⟨⟨by decide, by decide⟩, ⟨[2, 1], [1, 1], ⟨by decide, by decide, by decide, by decide⟩, rfl, Or.inl rfl, Or.inl rfl⟩,
    Or.inl rfl, Or.inl rfl⟩

example : ma.equals P ⟨2, 1, 1⟩ 0 (· == ·) 0 ma' = some (some true) ∧ ma'.equals P ⟨2, 1, 1⟩ 0 (· == ·) 0 mc = some (some false) := by
  constructor
  · rw [C85_equals_partial P good ⟨2, 1, 1⟩ (by decide) (by decide) (by decide) 0 (· == ·) 0 ma ma' a a ma_ok ma'_ok (by unfold MFrame.NoEmptyBlocks; decide)
      (by unfold MFrame.NoEmptyBlocks; decide)]
    decide
  · rw [C85_equals_partial P good ⟨2, 1, 1⟩ (by decide) (by decide) (by decide) 0 (· == ·) 0 ma' mc a c ma'_ok mc_ok (by unfold MFrame.NoEmptyBlocks; decide)
      (by unfold MFrame.NoEmptyBlocks; decide)]
    decide

/-- **C85 fails** for frames without rows: they have no blocks, so there is nothing to compare and the answer is NaN; pandas says that a
    frame equals itself. -/
theorem C85_equals_empty :
    ((fromPandas ⟨2, 1, 1⟩ (Frame.mk [] [7] [] : Frame Nat Nat Nat)).bind fun m => m.equals P ⟨2, 1, 1⟩ 0 (· == ·) 0 m)
      = some none ∧
    (Frame.mk [] [7] [] : Frame Nat Nat Nat).equals (· == ·) (Frame.mk [] [7] []) = true := by decide +kernel

/-- the labels are ascending, the first cell of the first row is missing (`0`) -/
example : (lgFrame [1, 3, 5, 7, 9] [5, 6, 7]).asof (fun a b => decide (a ≤ b)) (· == 0) 0 none [0, 2, 4, 9]
    = some { index := [0, 2, 4, 9], columns := [5, 6, 7], rows := [[0, 0, 0], [0, 0, 0], [10, 11, 12], [40, 41, 42]] } := by decide

example : ((lgDemo [1, 3, 5, 7, 9] [5, 6, 7]).asof ⟨4, 1, 1⟩ lgKnown (fun a b => decide (a ≤ b)) (-100) (· == 0) (fun n => (n : Int)) 0
    none [0, 2, 4, 9]).bind (LFrame.toPandas 0)
    = some { index := [0, 2, 4, 9], columns := [5, 6, 7], rows := [[0, 0, 0], [0, 0, 0], [10, 11, 12], [40, 41, 42]] } := by
  obtain ⟨m, e1, _, e3⟩ := C85_asof_partial ⟨4, 1, 1⟩ (by decide) (by decide) (by decide) lgKnown (fun a b => decide (a ≤ b)) (-100) (· == 0)
    (fun n => (n : Int)) 0 _ _ (lgDemo_shows 1 3 5 7 9 5 6 7) (by decide) (by decide) none (by decide) (by simp) [0, 2, 4, 9] _ rfl
  rw [e1, Option.bind_some, e3]
  decide

/-- `asof(4, subset=[6])` -/
example : ((lgDemo [1, 3, 5, 7, 9] [5, 6, 7]).asofOne ⟨4, 1, 1⟩ lgKnown (fun a b => decide (a ≤ b)) (-100) (· == 0) (fun n => (n : Int)) 0
    (-1) (some [6]) 2).bind (Located.observe 0) = some (.series 2 [5, 6, 7] [0, 1, 2]) :=
  C85_asof_one_partial ⟨4, 1, 1⟩ (by decide) (by decide) (by decide) lgKnown (fun a b => decide (a ≤ b)) (-100) (· == 0)
    (fun n => (n : Int)) 0 (-1) _ _ (lgDemo_shows 1 3 5 7 9 5 6 7) (by decide) (by decide) (some [6]) (by decide) (by simp) (by decide) 2 _
    (by decide)

/-- **C85 fails** for repeated row labels: the rows are fetched by label, so `reindex` raises; pandas takes the last of them. -/
theorem C85_asof_repeated_label :
    (lgFrame [1, 3, 3, 7, 9] [5, 6, 7]).asof (fun a b => decide (a ≤ b)) (· == 0) 0 none [4]
      = some { index := [4], columns := [5, 6, 7], rows := [[20, 21, 22]] } ∧
    (lgDemo [1, 3, 3, 7, 9] [5, 6, 7]).asof ⟨4, 1, 1⟩ lgKnown (fun a b => decide (a ≤ b)) (-100) (· == 0) (fun n => (n : Int)) 0
      none [4] = none := by decide +kernel

/-- **C85 fails** for row labels that are not ascending: pandas raises `ValueError("asof requires a sorted index")`, Modin answers (with
    the last label above the one asked for). -/
theorem C85_asof_descending :
    (lgFrame [9, 7, 5, 3, 1] [5, 6, 7]).asof (fun a b => decide (a ≤ b)) (· == 0) 0 none [4] = none ∧
    ((lgDemo [9, 7, 5, 3, 1] [5, 6, 7]).asof ⟨4, 1, 1⟩ lgKnown (fun a b => decide (a ≤ b)) (-100) (· == 0) (fun n => (n : Int)) 0
      none [4]).bind (LFrame.toPandas 0) = some { index := [4], columns := [5, 6, 7], rows := [[20, 21, 22]] } := by decide +kernel

def single : LFrame Int Int Nat :=
  ⟨⟨(Frame.mk [1, 3] [5] [[8], [9]] : Frame Int Int Nat).cut [1, 1] [1], some [1, 3], some [5], none, none⟩, false, false⟩

/-- **C85 fails** for a single label and a single column: `squeeze` leaves the cell, pandas gives a Series. -/
theorem C85_asof_one_column :
    (single.asofOne ⟨4, 1, 1⟩ lgKnown (fun a b => decide (a ≤ b)) (-100) (· == 0) (fun n => (n : Int)) 0 (-1) none 2).bind
      (Located.observe 0) = some (.scalar 8) := by decide +kernel

example : ((lgDemo [1, 3, 5, 7, 9] [5, 6, 7]).iterrows ⟨4, 1, 1⟩ lgKnown 0 (-1)).bind (·.mapM (Located.observe 0)) =
    some [.series 1 [5, 6, 7] [0, 1, 2], .series 3 [5, 6, 7] [10, 11, 12], .series 5 [5, 6, 7] [20, 21, 22],
      .series 7 [5, 6, 7] [30, 31, 32], .series 9 [5, 6, 7] [40, 41, 42]] :=
  C85_iterrows_partial ⟨4, 1, 1⟩ (by decide) (by decide) (by decide) lgKnown 0 (-1) _ _ (lgDemo_shows 1 3 5 7 9 5 6 7) (by decide)

example : (lgDemo [1, 3, 5, 7, 9] [5, 6, 7]).itertuples ⟨4, 1, 1⟩ lgKnown 0 (-1) true =
    some [(some 1, [0, 1, 2]), (some 3, [10, 11, 12]), (some 5, [20, 21, 22]), (some 7, [30, 31, 32]), (some 9, [40, 41, 42])] :=
  C85_itertuples_partial ⟨4, 1, 1⟩ (by decide) (by decide) (by decide) lgKnown 0 (-1) true _ _ (lgDemo_shows 1 3 5 7 9 5 6 7) (by decide)

example : ((lgDemo [1, 3, 5, 7, 9] [5, 6, 7]).items ⟨4, 1, 1⟩ lgKnown 0 (-1)).bind (·.mapM (Located.observe 0)) =
    some [.series 5 [1, 3, 5, 7, 9] [0, 10, 20, 30, 40], .series 6 [1, 3, 5, 7, 9] [1, 11, 21, 31, 41],
      .series 7 [1, 3, 5, 7, 9] [2, 12, 22, 32, 42]] :=
  C85_items_partial ⟨4, 1, 1⟩ (by decide) (by decide) (by decide) lgKnown 0 (-1) _ _ (lgDemo_shows 1 3 5 7 9 5 6 7) (by decide)

end EqualsDemo
