import Verif.Model.Portion
import Verif.Lemmas.LocGet
import Verif.Lemmas.Dropna
import Verif.Lemmas.Interchange
import Verif.Props.Partitioning
import Verif.Props.Mask
/-
Lemmas for `head`, `tail`, `take`, `truncate`, `filter` and `sample` (C84).
-/

variable {ι κ α L : Type}

/-! ### the two ways -/

/-- handed to pandas -/
theorem throughPandas_spec [DecidableEq ι] [DecidableEq κ] (cfg : Cfg) (hp : 1 ≤ cfg.nPartitions) (hmr : 1 ≤ cfg.minRow)
    (hmc : 1 ≤ cfg.minCol) (nan : α) {m : LFrame ι κ α} {df g : Frame ι κ α} (h : m.Shows df) {f : Frame ι κ α → Option (Frame ι κ α)}
    (hf : f df = some g) (hg : g.WF) : (m.throughPandas cfg nan f).bind (·.toPandas nan) = some g := by
  unfold LFrame.throughPandas
  rw [(h.observed nan).1, Option.bind_some, hf, Option.bind_some]
  have e := C01_pandas_round_trip nan cfg hp hmr hmc g hg
  cases hx : fromPandas cfg g with
  | none => rw [hx] at e; cases e
  | some r =>
    rw [hx, Option.bind_some] at e
    rw [Option.map_some, Option.bind_some]
    unfold LFrame.toPandas LFrame.synced
    exact e

theorem throughPandas_none [DecidableEq ι] [DecidableEq κ] (cfg : Cfg) (nan : α) {m : LFrame ι κ α} {df : Frame ι κ α} (h : m.Shows df)
    {f : Frame ι κ α → Option (Frame ι κ α)} (hf : f df = none) : m.throughPandas cfg nan f = none := by
  unfold LFrame.throughPandas
  rw [(h.observed nan).1, Option.bind_some, hf]
  rfl

/-- no rows are left -/
theorem take2d_nothing [DecidableEq ι] [DecidableEq κ] (cfg : Cfg) (known : Nat → Nat → Bool × Bool) (nan : α) {m : LFrame ι κ α}
    {df : Frame ι κ α} (h : m.Shows df) (hcols : m.columns = some df.columns) (hn : 0 < df.nrows) (k : Nat) :
    (m.take2d cfg known (some (.range k k)) none).bind (·.toPandas nan) = some (df.takeRows []) := by
  have hi : m.getIndex.length = df.nrows := by rw [h.getIndex]; rfl
  unfold LFrame.take2d
  rw [hi]
  have h0 : ¬ (k - k = df.nrows) := by omega
  simp only [normPositions, h0, ↓reduceIte]
  have hj : jumps df.nrows m.getColumns.length (some (.range k k)) none = false := by
    have e : (Positions.range k k).toList = [] := by simp [Positions.toList]
    simp only [jumps]
    rw [e]
    simp [jumpToReorder, nondecreasing]
  rw [hj]
  simp only [maskThenReorder, reduceCtorEq, false_and, Bool.false_eq_true, ↓reduceIte]
  have hb : ∀ np, blockSlices m.getRowLens m.getIndex.length np k k = some [] := by
    intro np
    unfold blockSlices
    rw [hi]
    have hc : (decide (k = 0) && decide (k ≥ df.nrows)) = false := by
      simp only [Bool.and_eq_false_iff, decide_eq_false_iff_not]; omega
    simp [hc]
  have hlab : pySlice m.getIndex k k = [] := by simp [pySlice]
  simp only [takeByMask, maskAxisPlan, sortedPositions, blockIndex, hb, Option.bind_eq_bind,
    Option.bind_some, newLengths, List.mapM_nil, Option.pure_def, newLabels, hlab, widthsOk,
    Bool.not_true, Bool.false_eq_true, ↓reduceIte, maskGrid, inOrder, Bool.and_self]
  have hmk : MFrame.mk' (MFrame.mk (ι := ι) (κ := κ) (α := α) [] (some []) m.columns (some []) m.colWidths)
      = some (filterEmpties (MFrame.mk [] (some []) m.columns (some []) m.colWidths)) := by
    unfold MFrame.mk'
    have v2 : validAxis m.colWidths m.columns = true := by
      unfold validAxis
      obtain ⟨df0, rl, cw, hwf, hr, hcl, hcut, _, _, hcw, _⟩ := h.blocks
      rcases hcw with h1 | h1 <;> simp only [h1, hcols]
      have := hcut.cw_sum
      simp only [Frame.ncols] at this
      rw [this, hcl]; simp
    have v1 : validAxis (some []) (some ([] : List ι)) = true := rfl
    simp only [v1, v2, Bool.and_self, ↓reduceIte]
  have hfe : filterEmpties (MFrame.mk (ι := ι) (κ := κ) (α := α) [] (some []) m.columns (some []) m.colWidths)
      = MFrame.mk [] (some []) m.columns (some []) m.colWidths := by
    unfold filterEmpties
    split
    · simp
    · rfl
  have key : ∀ fl gl : Bool, (LFrame.mk (MFrame.mk (ι := ι) (κ := κ) (α := α) [] (some []) m.columns (some []) m.colWidths) fl gl).toPandas nan
      = some (df.takeRows []) := by
    intro fl gl
    have hs : ∃ fl' gl', (LFrame.mk (MFrame.mk (ι := ι) (κ := κ) (α := α) [] (some []) m.columns (some []) m.colWidths) fl gl).synced
        = some (LFrame.mk (MFrame.mk (ι := ι) (κ := κ) (α := α) [] (some []) m.columns (some []) m.colWidths) fl' gl') := by
      unfold LFrame.synced LFrame.propagate
      simp only [hfe, List.length_nil, Nat.zero_le, List.all_nil, and_self, ↓reduceIte, List.zip_nil_left, List.mapM_nil,
        Option.pure_def, Option.map_some]
      cases fl <;> cases gl <;> exact ⟨_, _, rfl⟩
    obtain ⟨fl', gl', hs⟩ := hs
    unfold LFrame.toPandas
    rw [hs, Option.bind_some]
    simp only [MFrame.toPandas, assemble, List.filter_nil, List.mapM_nil,
      Option.pure_def, Option.bind_eq_bind, Option.bind_some, List.isEmpty_nil, ↓reduceIte, Frame.isEmpty, Frame.nrows,
      List.length_nil, beq_self_eq_true, Bool.true_or, MFrame.getIndex, MFrame.getColumns, hcols]
    simp [Frame.takeRows, takeList]
  rw [hmk, hfe]
  simp only [Option.map_some, Option.bind_some]
  exact key _ _

/-- `take2d_shows` with positions that may repeat when no block size is cached -/
theorem take2d_distinct [DecidableEq ι] [DecidableEq κ] (cfg : Cfg) (hp : 1 ≤ cfg.nPartitions) (hmr : 1 ≤ cfg.minRow)
    (hmc : 1 ≤ cfg.minCol) (known : Nat → Nat → Bool × Bool) {m : LFrame ι κ α} {df : Frame ι κ α} (h : m.Shows df)
    {rows cols : Option Positions} (hrv : ∀ q, rows = some q → q.Valid df.nrows) (hcv : ∀ q, cols = some q → q.Valid df.ncols)
    (hre : ∀ a b, rows = some (.range a b) → a < b) (hce : ∀ a b, cols = some (.range a b) → a < b)
    (hd : (∀ i j, known i j = (false, false)) ∨ ((reqList df.nrows rows).Nodup ∧ (reqList df.ncols cols).Nodup)) :
    ∃ m', m.take2d cfg known rows cols = some m' ∧
      m'.Shows ((df.takeRows (reqList df.nrows rows)).takeCols (reqList df.ncols cols)) := by
  rcases hd with hd | hd
  · exact take2d_shows cfg hp hmr hmc h (kn := false) (by intro i j hk; rw [hd i j] at hk; simp at hk) hrv hcv hre hce
      (fun e => by cases e) (fun e => by cases e)
  · exact take2d_shows cfg hp hmr hmc h (kn := true) (fun _ _ _ => rfl) hrv hcv hre hce
      (fun _ q e => by have := hd.1; rw [e] at this; exact this)
      (fun _ q e => by have := hd.2; rw [e] at this; exact this)

/-- the positions of a key that keeps its axis -/
theorem IKey.picked_addressed {n : Nat} {k : IKey} {ps : List Nat} (hk : k.isScalar = false) (hp : k.addressed n = some ps) :
    k.picked n = some (.many ps) := by
  cases k with
  | int i => cases hk
  | _ => simp only [IKey.picked, hp, Option.map_some]

/-- `iloc` with keys that keep both axes and leave something if they are slices -/
theorem ilocPart_spec [DecidableEq ι] [DecidableEq κ] (cfg : Cfg) (hp : 1 ≤ cfg.nPartitions) (hmr : 1 ≤ cfg.minRow)
    (hmc : 1 ≤ cfg.minCol) (known : Nat → Nat → Bool × Bool) (nan : α) {m : LFrame ι κ α} {df : Frame ι κ α} (h : m.Shows df)
    {r c : IKey} {ps qs : List Nat} (hrk : r.isScalar = false) (hck : c.isScalar = false) (hr : r.addressed df.nrows = some ps)
    (hc : c.addressed df.ncols = some qs) (hrs : 0 < df.nrows → 0 < df.ncols → r.isSlice = true → ps ≠ [])
    (hcs : 0 < df.nrows → 0 < df.ncols → c.isSlice = true → qs ≠ [])
    (hd : (∀ i j, known i j = (false, false)) ∨ (ps.Nodup ∧ qs.Nodup)) :
    (m.ilocPart cfg known nan r c).bind (·.toPandas nan) = some ((df.takeRows ps).takeCols qs) := by
  unfold LFrame.ilocPart
  by_cases h0 : m.getColumns.length = 0 ∨ m.getIndex.length = 0
  · rw [if_pos h0]
    apply throughPandas_spec cfg hp hmr hmc nan h
    · unfold Frame.ilocPart
      rw [hr, Option.bind_some, hc, Option.map_some]
    · exact (h.wf.takeRows ps).takeCols qs
  · rw [if_neg h0]
    rw [h.getIndex, h.getColumns] at h0 ⊢
    have hn : 0 < df.nrows := by simp only [Frame.nrows]; omega
    have hw : 0 < df.ncols := by simp only [Frame.ncols]; omega
    obtain ⟨rp, r1, r2⟩ := IKey.readLookup_spec (IKey.picked_addressed hrk hr) (hrs hn hw)
    obtain ⟨cp, c1, c2⟩ := IKey.readLookup_spec (IKey.picked_addressed hck hc) (hcs hn hw)
    rw [show df.index.length = df.nrows from rfl, show df.columns.length = df.ncols from rfl, r1, Option.bind_some, c1, Option.bind_some]
    have el : reqList df.nrows rp = ps := r2.list
    have ec : reqList df.ncols cp = qs := c2.list
    obtain ⟨m', a1, a2⟩ := take2d_distinct cfg hp hmr hmc known h r2.valid c2.valid r2.range c2.range (by rw [el, ec]; exact hd)
    rw [a1, Option.bind_some, (a2.observed nan).1, el, ec]

/-- a slice of rows whose bounds are in order, none of them left or some -/
theorem ilocPart_rows [DecidableEq ι] [DecidableEq κ] (cfg : Cfg) (hp : 1 ≤ cfg.nPartitions) (hmr : 1 ≤ cfg.minRow)
    (hmc : 1 ≤ cfg.minCol) (known : Nat → Nat → Bool × Bool) (nan : α) {m : LFrame ι κ α} {df : Frame ι κ α} (h : m.Shows df)
    {a b : Option Int} {s e : Nat} (hs : (a.map (sliceBound df.nrows)).getD 0 = s) (he : (b.map (sliceBound df.nrows)).getD df.nrows = e)
    (hse : s ≤ e) (hcols : s = e → m.columns = some df.columns) :
    (m.ilocPart cfg known nan (.slice a b) (.slice none none)).bind (·.toPandas nan) = some (df.takeRows (List.range' s (e - s))) := by
  have hadd : (IKey.slice a b).addressed df.nrows = some (List.range' s (e - s)) := by
    simp only [IKey.addressed, hs, he]
  have hall : (IKey.slice none none).addressed df.ncols = some (List.range df.ncols) := by
    simp [IKey.addressed, List.range_eq_range']
  have hcut : (df.takeRows (List.range' s (e - s))).takeCols (List.range df.ncols) = df.takeRows (List.range' s (e - s)) :=
    Frame.takeCols_all (h.wf.takeRows _)
  by_cases hlt : s < e ∨ df.nrows = 0 ∨ df.ncols = 0
  · have := ilocPart_spec cfg hp hmr hmc known nan h (r := .slice a b) (c := .slice none none) rfl rfl hadd hall
      (by
        intro h1 h2 _ e0
        have := congrArg List.length e0
        simp only [List.length_range', List.length_nil] at this
        omega)
      (by
        intro h1 h2 _ e0
        have := congrArg List.length e0
        simp only [List.length_range, List.length_nil] at this
        omega)
      (Or.inr ⟨List.nodup_range', List.nodup_range⟩)
    rw [this, hcut]
  · have hse' : s = e := by omega
    subst hse'
    have hn : 0 < df.nrows := by omega
    have hw : 0 < df.ncols := by omega
    unfold LFrame.ilocPart
    rw [if_neg (by
      rw [h.getIndex, h.getColumns]
      simp only [Frame.nrows, Frame.ncols] at hn hw
      omega)]
    have hl : m.getIndex.length = df.nrows := by rw [h.getIndex]; rfl
    rw [hl]
    have hk : (IKey.slice a b).readLookup df.nrows = some (some (.range s s)) := by
      cases a with
      | none =>
        cases b with
        | none =>
          simp only [Option.map_none, Option.getD_none] at hs he
          omega
        | some b =>
          show some (some (Positions.range ((none.map (sliceBound df.nrows)).getD 0) (((some b).map (sliceBound df.nrows)).getD df.nrows))) = _
          rw [hs, he]
      | some a =>
        show some (some (Positions.range (((some a).map (sliceBound df.nrows)).getD 0) ((b.map (sliceBound df.nrows)).getD df.nrows))) = _
        rw [hs, he]
    rw [hk, Option.bind_some]
    show ((m.take2d cfg known (some (.range s s)) none)).bind (·.toPandas nan) = _
    rw [take2d_nothing cfg known nan h (hcols rfl) hn s]
    simp

theorem takeRows_slice {df : Frame ι κ α} (h : df.WF) {s e : Nat} (hse : s ≤ e) (he : e ≤ df.nrows) :
    df.takeRows (List.range' s (e - s)) = { index := (df.index.take e).drop s, columns := df.columns, rows := (df.rows.take e).drop s } := by
  have hr := h.rows_len
  simp only [Frame.nrows] at he
  unfold Frame.takeRows
  congr 1
  · rw [takeList_range' _ _ _ (by omega), show s + (e - s) = e by omega, pySlice, List.drop_take]
  · rw [takeList_range' _ _ _ (by omega), show s + (e - s) = e by omega, pySlice, List.drop_take]

/-! ### labels in order -/

theorem sorted_lt_countP {labels : List Int} (h : labels.Pairwise (· ≤ ·)) (x : Int) :
    ∀ k y, labels[k]? = some y → (y < x ↔ k < labels.countP fun z => decide (z < x)) := by
  induction labels with
  | nil => intro k y e; simp at e
  | cons a l ih =>
    rw [List.pairwise_cons] at h
    intro k y e
    rw [List.countP_cons]
    have zero : ¬ a < x → l.countP (fun z => decide (z < x)) = 0 := by
      intro ha
      rw [List.countP_eq_zero]
      intro z hz
      have := h.1 z hz
      simp only [decide_eq_true_eq]
      omega
    cases k with
    | zero =>
      simp only [List.getElem?_cons_zero, Option.some.injEq] at e
      subst e
      by_cases ha : a < x
      · simp [ha]
      · simp [ha, zero ha]
    | succ k =>
      rw [List.getElem?_cons_succ] at e
      have := ih h.2 k y e
      by_cases ha : a < x
      · simp only [ha, decide_true, ↓reduceIte]
        rw [this]
        omega
      · have hy : ¬ y < x := by
          have := h.1 y (List.mem_of_getElem? e)
          omega
        have := zero ha
        simp only [ha, decide_false, Bool.false_eq_true, ↓reduceIte]
        omega

theorem countP_le_eq (labels : List Int) (x : Int) :
    (labels.countP fun z => decide (z ≤ x)) = labels.countP fun z => decide (z < x + 1) := by
  congr 1
  funext z
  simp only [decide_eq_decide]
  omega

theorem sorted_le_countP {labels : List Int} (h : labels.Pairwise (· ≤ ·)) (x : Int) :
    ∀ k y, labels[k]? = some y → (y ≤ x ↔ k < labels.countP fun z => decide (z ≤ x)) := by
  intro k y e
  rw [countP_le_eq, ← sorted_lt_countP h (x + 1) k y e]
  omega

theorem filter_range_interval {n s e : Nat} (hs : s ≤ e) (he : e ≤ n) {P : Nat → Bool} (hP : ∀ k, k < n → (P k = true ↔ s ≤ k ∧ k < e)) :
    (List.range n).filter P = List.range' s (e - s) := by
  have e1 : List.range n = List.range' 0 s ++ (List.range' s (e - s) ++ List.range' e (n - e)) := by
    rw [List.range_eq_range']
    have a1 := List.range'_append (s := s) (m := e - s) (n := n - e) (step := 1)
    have a2 := List.range'_append (s := 0) (m := s) (n := n - s) (step := 1)
    simp only [Nat.one_mul, Nat.zero_add] at a1 a2
    rw [show s + (e - s) = e by omega, show e - s + (n - e) = n - s by omega] at a1
    rw [a1, a2, show s + (n - s) = n by omega]
  rw [e1, List.filter_append, List.filter_append]
  have f1 : (List.range' 0 s).filter P = [] := by
    rw [List.filter_eq_nil_iff]
    intro k hk
    rw [List.mem_range'_1] at hk
    rw [hP k (by omega)]
    omega
  have f3 : (List.range' e (n - e)).filter P = [] := by
    rw [List.filter_eq_nil_iff]
    intro k hk
    rw [List.mem_range'_1] at hk
    rw [hP k (by omega)]
    omega
  have f2 : (List.range' s (e - s)).filter P = List.range' s (e - s) := by
    rw [List.filter_eq_self]
    intro k hk
    rw [List.mem_range'_1] at hk
    rw [hP k (by omega)]
    omega
  rw [f1, f2, f3]
  simp

theorem countP_lt_le (labels : List Int) (x : Int) :
    (labels.countP fun z => decide (z < x)) ≤ labels.countP fun z => decide (z ≤ x) := by
  apply List.countP_mono_left
  intro z _
  simp only [decide_eq_true_eq]
  omega

/-- the bounds of a label in ascending labels -/
theorem intBound_sorted {labels : List Int} (h : labels.Pairwise (· ≤ ·)) (x : Int) :
    intBound labels false x = some (labels.countP fun z => decide (z < x)) ∧
    intBound labels true x = some (labels.countP fun z => decide (z ≤ x)) := by
  have hle := countP_lt_le labels x
  have hlen : (labels.countP fun z => decide (z ≤ x)) ≤ labels.length := List.countP_le_length
  have hps : ((List.range labels.length).filter fun k => labels[k]? == some x)
      = List.range' (labels.countP fun z => decide (z < x))
        ((labels.countP fun z => decide (z ≤ x)) - (labels.countP fun z => decide (z < x))) := by
    apply filter_range_interval hle hlen
    intro k hk
    have hg := List.getElem?_eq_getElem hk
    have h1 := sorted_lt_countP h x k _ hg
    have h2 := sorted_le_countP h x k _ hg
    rw [hg]
    simp only [beq_iff_eq, Option.some.injEq]
    omega
  generalize hA : (labels.countP fun z => decide (z < x)) = A at *
  generalize hB : (labels.countP fun z => decide (z ≤ x)) = B at *
  unfold intBound
  simp only [hps]
  by_cases hAB : A = B
  · subst hAB
    rw [Nat.sub_self]
    simp only [List.range'_zero, List.head?_nil, List.getLast?_nil]
    rw [if_pos h, hA]
    exact ⟨rfl, rfl⟩
  · have e1 : (List.range' A (B - A)).head? = some A := by
      rw [List.head?_range', if_neg (by omega)]
    have e2 : (List.range' A (B - A)).getLast? = some (B - 1) := by
      rw [List.getLast?_range', if_neg (by omega)]
      congr 1
      omega
    have e3 : B - 1 - A + 1 = B - A := by omega
    simp only [e1, e2, List.length_range', e3, ↓reduceIte, Bool.false_eq_true, true_and, Option.some.injEq]
    omega

/-- what `slice_locs` gives on ascending labels -/
theorem intSlicer_sorted {labels : List Int} (h : labels.Pairwise (· ≤ ·)) {before after : Option Int} (hb : boundsOk before after = true) :
    ∃ s e, intSlicer labels before after = some (s, e) ∧ s ≤ e ∧ e ≤ labels.length ∧
      ∀ k y, labels[k]? = some y → (inBounds before after y = true ↔ s ≤ k ∧ k < e) := by
  have hlt : ∀ k y, labels[k]? = some y → k < labels.length := fun k y e => (List.getElem?_eq_some_iff.1 e).1
  unfold intSlicer
  cases before with
  | none =>
    cases after with
    | none =>
      refine ⟨0, labels.length, rfl, Nat.zero_le _, Nat.le_refl _, fun k y e => ?_⟩
      have := hlt k y e
      simp [inBounds, this]
    | some a =>
      refine ⟨0, labels.countP fun z => decide (z ≤ a), by simp only [Option.map_none, Option.getD_none, Option.bind_some, Option.map_some, Option.getD_some, (intBound_sorted h a).2], Nat.zero_le _, List.countP_le_length, fun k y e => ?_⟩
      have := sorted_le_countP h a k y e
      simp [inBounds, this]
  | some b =>
    cases after with
    | none =>
      refine ⟨labels.countP fun z => decide (z < b), labels.length, by simp only [Option.map_none, Option.getD_none, Option.bind_some, Option.map_some, Option.getD_some, (intBound_sorted h b).1], List.countP_le_length, Nat.le_refl _, fun k y e => ?_⟩
      have h1 := sorted_lt_countP h b k y e
      have := hlt k y e
      simp only [inBounds, Option.all_some, Option.all_none, Bool.and_true, decide_eq_true_eq]
      omega
    | some a =>
      refine ⟨labels.countP fun z => decide (z < b), labels.countP fun z => decide (z ≤ a), by simp only [Option.bind_some, Option.map_some, Option.getD_some, (intBound_sorted h b).1, (intBound_sorted h a).2], ?_, List.countP_le_length, fun k y e => ?_⟩
      · apply List.countP_mono_left
        intro z _
        simp only [boundsOk, Option.any_some, Bool.not_eq_true', decide_eq_false_iff_not] at hb
        simp only [decide_eq_true_eq]
        omega
      · have h1 := sorted_lt_countP h b k y e
        have h2 := sorted_le_countP h a k y e
        simp only [inBounds, Option.all_some, Bool.and_eq_true, decide_eq_true_eq]
        omega

/-- a mask that is true on an interval -/
theorem keepWhere_interval {σ τ : Type} {labels : List σ} {p : σ → Bool} {s e : Nat} (hse : s ≤ e) (he : e ≤ labels.length)
    (hp : ∀ k y, labels[k]? = some y → (p y = true ↔ s ≤ k ∧ k < e)) (l : List τ) (hl : l.length = labels.length) :
    keepWhere (labels.map p) l = takeList l (List.range' s (e - s)) := by
  rw [← keepWhere_range (labels.map p) l (by simp [hl])]
  congr 1
  have := keepWhere_eq_filter (labels.map p) 0
  rw [List.length_map, ← List.range_eq_range', ← hl] at this
  rw [this]
  rw [hl]
  apply filter_range_interval hse he
  intro k hk
  rw [Nat.sub_zero, List.getElem?_map, List.getElem?_eq_getElem hk]
  rw [← hp k _ (List.getElem?_eq_getElem hk)]
  simp

/-! ### labels by name -/

/-- distinct labels are found at their own positions -/
theorem positionsOf_own [DecidableEq L] {labels : List L} (hn : labels.Nodup) {ps : List Nat} (hp : ∀ p ∈ ps, p < labels.length) :
    (takeList labels ps).flatMap (positionsOf labels) = ps := by
  induction ps with
  | nil => rfl
  | cons p ps ih =>
    have hp0 := hp p (by simp)
    rw [takeList_cons hp0, List.flatMap_cons, ih (fun q hq => hp q (by simp [hq]))]
    have : positionsOf labels labels[p] = [p] := by
      unfold positionsOf
      have := filter_range_interval (n := labels.length) (s := p) (e := p + 1) (by omega) (by omega)
        (P := fun k => labels[k]? == some labels[p]) (by
          intro k hk
          rw [List.getElem?_eq_getElem hk]
          simp only [beq_iff_eq, Option.some.injEq, List.getElem_inj hn]
          omega)
      rw [this, show p + 1 - p = 1 by omega]
      rfl
    rw [this]
    rfl

theorem keepWhere_map_self {τ : Type} (p : τ → Bool) (l : List τ) : keepWhere (l.map p) l = l.filter p := by
  unfold keepWhere
  induction l with
  | nil => rfl
  | cons x l ih =>
    simp only [List.map_cons, List.zip_cons_cons, List.filter_cons]
    split <;> simp_all

/-- the columns at the positions of a mask -/
theorem takeCols_keepWhere {df : Frame ι κ α} (h : df.WF) {mask : List Bool} (hm : mask.length = df.columns.length) :
    df.takeCols (keepWhere mask (List.range df.columns.length)) = df.pickCols mask := by
  unfold Frame.takeCols Frame.pickCols
  congr 1
  · exact keepWhere_range mask df.columns hm
  · apply List.map_congr_left
    intro r hr
    have hw := h.row_width r hr
    rw [← hw, keepWhere_range mask r (by rw [hm, hw])]

theorem takeRows_keepWhere {df : Frame ι κ α} (h : df.WF) {mask : List Bool} (hm : mask.length = df.index.length) :
    df.takeRows (keepWhere mask (List.range df.index.length)) = df.pickRows mask := by
  unfold Frame.takeRows Frame.pickRows
  rw [keepWhere_range mask df.index hm]
  have := keepWhere_range mask df.rows (by rw [hm, h.rows_len])
  rw [h.rows_len] at this
  rw [this]

theorem map_idxOf_own [DecidableEq L] {labels : List L} (hn : labels.Nodup) {ps : List Nat} (hp : ∀ p ∈ ps, p < labels.length) :
    (takeList labels ps).map (fun x => labels.idxOf x) = ps := by
  induction ps with
  | nil => rfl
  | cons p ps ih =>
    have hp0 := hp p (by simp)
    rw [takeList_cons hp0, List.map_cons, ih (fun q hq => hp q (by simp [hq])), hn.idxOf_getElem]

/-- the positions of the labels with a property -/
theorem keepWhere_positions [DecidableEq L] {labels : List L} (hn : labels.Nodup) (p : L → Bool) :
    (labels.filter p).map (fun x => labels.idxOf x) = keepWhere (labels.map p) (List.range labels.length) ∧
    (labels.filter p).flatMap (positionsOf labels) = keepWhere (labels.map p) (List.range labels.length) := by
  have hlt : ∀ k ∈ keepWhere (labels.map p) (List.range labels.length), k < labels.length :=
    fun k hk => List.mem_range.1 (keepWhere_mem hk)
  have e : labels.filter p = takeList labels (keepWhere (labels.map p) (List.range labels.length)) := by
    rw [keepWhere_range _ _ (by simp), keepWhere_map_self]
  rw [e]
  exact ⟨map_idxOf_own hn hlt, positionsOf_own hn hlt⟩

theorem keepWhere_nodup {mask : List Bool} {n : Nat} (h : mask.length = n) : (keepWhere mask (List.range n)).Nodup := by
  unfold keepWhere
  have hz : ((mask.zip (List.range n)).map (·.2)).Nodup := by
    rw [List.map_snd_zip (by simp [h])]
    exact List.nodup_range
  exact hz.sublist (List.Sublist.map _ List.filter_sublist)

/-- columns by label, each there once -/
theorem takeColLabels_own [DecidableEq L] (cfg : Cfg) (hp : 1 ≤ cfg.nPartitions) (hmr : 1 ≤ cfg.minRow) (hmc : 1 ≤ cfg.minCol)
    (known : Nat → Nat → Bool × Bool) (nan : α) {m : LFrame L L α} {df : Frame L L α} (h : m.Shows df) (hn : df.columns.Nodup) {ps : List Nat}
    (hps : ∀ p ∈ ps, p < df.ncols) (hd : (∀ i j, known i j = (false, false)) ∨ ps.Nodup) :
    (m.takeColLabels cfg known (takeList df.columns ps)).bind (·.toPandas nan) = some (df.takeCols ps) := by
  unfold LFrame.takeColLabels
  rw [h.getColumns, getIndexerFor_present _ _ (fun x hx => mem_takeList hx), mapM_id_some, Option.bind_some, positionsOf_own hn hps]
  obtain ⟨m', a1, a2⟩ := take2d_distinct cfg hp hmr hmc known h (rows := none) (cols := some (.array ps)) (by intro q e; cases e)
    (by intro q e; cases e; exact hps) (by intro a b e; cases e) (by intro a b e; cases e)
    (by rcases hd with hd | hd
        · exact Or.inl hd
        · exact Or.inr ⟨List.nodup_range, hd⟩)
  rw [a1, Option.bind_some, (a2.observed nan).1]
  show some ((df.takeRows (List.range df.nrows)).takeCols ps) = _
  rw [Frame.takeRows_all h.wf]

theorem sampleCount_eq (n frac : Option Int) : sampleCount n frac = sampleSize n frac := by
  unfold sampleCount sampleSize
  cases n with
  | none =>
    cases frac with
    | none => rfl
    | some k =>
      simp only [reduceCtorEq, and_false, ↓reduceIte, Option.bind_some]
      by_cases hk : k < 0
      · rw [if_pos hk, if_neg (by omega)]
      · rw [if_neg hk, if_pos (by omega)]
  | some k =>
    cases frac with
    | none =>
      simp only [reduceCtorEq, false_and, ↓reduceIte, Option.bind_some]
      by_cases hk : k < 0
      · rw [if_pos hk, if_neg (by omega)]
      · rw [if_neg hk, if_pos (by omega)]
    | some j => rfl

theorem renumbered_wf {df : Frame L L α} (h : df.WF) (num : Nat → L) (axis0 : Bool) : (df.renumbered num axis0).WF := by
  unfold Frame.renumbered
  cases axis0 with
  | true => exact ⟨by simp [h.rows_len], h.row_width⟩
  | false => exact ⟨h.rows_len, fun r hr => by rw [h.row_width r hr]; simp⟩

/-- a part of distinct labels in their order is a filter -/
theorem filter_mem_of_sublist [DecidableEq L] {A l : List L} (h : A.Sublist l) (hn : l.Nodup) : l.filter (fun x => decide (x ∈ A)) = A := by
  induction h with
  | slnil => rfl
  | cons a hs ih =>
    rw [List.nodup_cons] at hn
    rw [List.filter_cons, if_neg (by simpa using fun ha => hn.1 (hs.subset ha)), ih hn.2]
  | cons_cons a hs ih =>
    rw [List.nodup_cons] at hn
    rw [List.filter_cons, if_pos (by simp)]
    congr 1
    rw [← ih hn.2]
    apply List.filter_congr
    intro x hx
    rw [ih hn.2]
    have : x ≠ a := fun e => hn.1 (e ▸ hx)
    simp [this]
