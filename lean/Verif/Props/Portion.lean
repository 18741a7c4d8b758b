import Verif.Lemmas.Portion
/-
C84: a part of a frame: `head`, `tail`, `take`, `truncate`, `filter`, `sample`.
-/

variable {ι κ α L : Type}

/-- **C84**, `head`.  For every partitioned frame and every `n`, negative ones included, `df.head(n)` is what pandas gives.  When no row
    is left the column labels must be recorded (`hcols`; `PortionDemo.C84_head_zero_lazy`). -/
theorem C84_head_partial [DecidableEq ι] [DecidableEq κ] (cfg : Cfg) (hp : 1 ≤ cfg.nPartitions) (hmr : 1 ≤ cfg.minRow)
    (hmc : 1 ≤ cfg.minCol) (known : Nat → Nat → Bool × Bool) (nan : α) (m : LFrame ι κ α) (df : Frame ι κ α) (h : m.Shows df) (n : Int)
    (hcols : (df.head n).nrows = 0 → m.columns = some df.columns) :
    (m.head cfg known nan n).bind (·.toPandas nan) = some (df.head n) := by
  have hlen := h.wf.rows_len
  have hb : sliceBound df.nrows n ≤ df.nrows := by
    unfold sliceBound
    split <;> omega
  unfold LFrame.head
  rw [ilocPart_rows cfg hp hmr hmc known nan h (a := none) (b := some n) (s := 0) (e := sliceBound df.nrows n) rfl rfl (Nat.zero_le _)
    (by
      intro e
      apply hcols
      unfold sliceBound at e
      simp only [Frame.head, Frame.nrows, List.length_take] at e ⊢
      split at e
      · rw [if_neg (by omega)]; omega
      · rw [if_pos (by omega)]; omega),
    takeRows_slice h.wf (Nat.zero_le _) hb]
  simp only [Frame.head, List.drop_zero]
  have e : ∀ {τ : Type} (l : List τ), l.length = df.nrows →
      l.take (sliceBound df.nrows n) = l.take (if 0 ≤ n then n.toNat else df.nrows - (-n).toNat) := by
    intro τ l hl
    unfold sliceBound
    by_cases hn : n < 0
    · rw [if_pos hn, if_neg (by omega)]
      congr 1
      omega
    · rw [if_neg hn, if_pos (by omega)]
      by_cases hk : n.toNat ≤ df.nrows
      · rw [Nat.min_eq_left hk]
      · rw [Nat.min_eq_right (by omega), List.take_of_length_le (by omega), List.take_of_length_le (by omega)]
  rw [e df.index rfl, e df.rows hlen]

/-- **C84**, `tail`.  The same for `df.tail(n)`. -/
theorem C84_tail_partial [DecidableEq ι] [DecidableEq κ] (cfg : Cfg) (hp : 1 ≤ cfg.nPartitions) (hmr : 1 ≤ cfg.minRow)
    (hmc : 1 ≤ cfg.minCol) (known : Nat → Nat → Bool × Bool) (nan : α) (m : LFrame ι κ α) (df : Frame ι κ α) (h : m.Shows df) (n : Int)
    (hcols : (df.tail n).nrows = 0 → m.columns = some df.columns) :
    (m.tail cfg known nan n).bind (·.toPandas nan) = some (df.tail n) := by
  have hlen := h.wf.rows_len
  have key : ∀ i : Int, sliceBound df.nrows i = min (if 0 ≤ n then df.nrows - n.toNat else (-n).toNat) df.nrows →
      (m.ilocPart cfg known nan (.slice (some i) none) (.slice none none)).bind (·.toPandas nan) = some (df.tail n) := by
    intro i hi
    have hb : sliceBound df.nrows i ≤ df.nrows := by omega
    rw [ilocPart_rows cfg hp hmr hmc known nan h (a := some i) (b := none) (s := sliceBound df.nrows i) (e := df.nrows) rfl rfl hb
      (by
        intro e
        apply hcols
        simp only [Frame.tail, Frame.nrows, List.length_drop] at hi e ⊢
        omega),
      takeRows_slice h.wf hb (Nat.le_refl _)]
    simp only [Frame.tail]
    have e : ∀ {τ : Type} (l : List τ), l.length = df.nrows →
        (l.take df.nrows).drop (sliceBound df.nrows i) = l.drop (if 0 ≤ n then df.nrows - n.toNat else (-n).toNat) := by
      intro τ l hl
      rw [List.take_of_length_le (by omega), hi]
      generalize (if 0 ≤ n then df.nrows - n.toNat else (-n).toNat) = k
      by_cases hk : k ≤ df.nrows
      · rw [Nat.min_eq_left hk]
      · rw [Nat.min_eq_right (by omega), List.drop_of_length_le (by omega), List.drop_of_length_le (by omega)]
    rw [e df.index rfl, e df.rows hlen]
  unfold LFrame.tail
  by_cases h0 : n = 0
  · subst h0
    rw [if_neg (by simp)]
    apply key
    rw [h.getIndex]
    simp only [sliceBound, Frame.nrows, Int.le_refl, ↓reduceIte]
    rw [if_neg (by omega)]
    simp
  · rw [if_pos h0]
    apply key
    unfold sliceBound
    by_cases hn : 0 ≤ n
    · rw [if_pos (by omega), if_pos hn]
      omega
    · rw [if_neg (by omega), if_neg hn]

/-- **C84**, `take`.  `df.take(indices, axis)` gives the rows or columns at these positions in the order of `indices`, negative ones
    counted from the end.  Partial: positions must not repeat when block sizes are cached (as in C08). -/
theorem C84_take_partial [DecidableEq ι] [DecidableEq κ] (cfg : Cfg) (hp : 1 ≤ cfg.nPartitions) (hmr : 1 ≤ cfg.minRow)
    (hmc : 1 ≤ cfg.minCol) (known : Nat → Nat → Bool × Bool) (nan : α) (m : LFrame ι κ α) (df g : Frame ι κ α) (h : m.Shows df) (axis0 : Bool)
    (indices : List Int) (hg : df.take axis0 indices = some g)
    (hd : (∀ i j, known i j = (false, false)) ∨
      ∀ ps, indices.mapM (axisPos (if axis0 then df.nrows else df.ncols)) = some ps → ps.Nodup) :
    (m.take cfg known nan axis0 indices).bind (·.toPandas nan) = some g := by
  have hall : ∀ n, (IKey.slice none none).addressed n = some (List.range n) := by
    intro n
    simp [IKey.addressed, List.range_eq_range']
  have hne : ∀ n, 0 < n → List.range n ≠ [] := by
    intro n hn e
    have := congrArg List.length e
    simp at this
    omega
  unfold Frame.take at hg
  unfold LFrame.take
  cases axis0 with
  | true =>
    simp only [↓reduceIte] at hg hd ⊢
    cases hps : indices.mapM (axisPos df.nrows) with
    | none => rw [hps] at hg; cases hg
    | some ps =>
      rw [hps] at hg
      cases hg
      have hd' : (∀ i j, known i j = (false, false)) ∨ (ps.Nodup ∧ (List.range df.ncols).Nodup) := by
        rcases hd with hd | hd
        · exact Or.inl hd
        · exact Or.inr ⟨hd ps hps, List.nodup_range⟩
      rw [ilocPart_spec cfg hp hmr hmc known nan h (r := .list indices) (c := .slice none none) rfl rfl hps (hall _)
        (by intro _ _ e; cases e) (fun _ hw _ => hne _ hw) hd']
      rw [show df.ncols = (df.takeRows ps).ncols from rfl, Frame.takeCols_all (h.wf.takeRows ps)]
  | false =>
    simp only [Bool.false_eq_true, ↓reduceIte] at hg hd ⊢
    cases hps : indices.mapM (axisPos df.ncols) with
    | none => rw [hps] at hg; cases hg
    | some ps =>
      rw [hps] at hg
      cases hg
      have hd' : (∀ i j, known i j = (false, false)) ∨ ((List.range df.nrows).Nodup ∧ ps.Nodup) := by
        rcases hd with hd | hd
        · exact Or.inl hd
        · exact Or.inr ⟨List.nodup_range, hd ps hps⟩
      rw [ilocPart_spec cfg hp hmr hmc known nan h (r := .slice none none) (c := .list indices) rfl rfl (hall _) hps
        (fun hn _ _ => hne _ hn) (by intro _ _ e; cases e) hd']
      rw [Frame.takeRows_all h.wf]

/-- **C84**, `truncate`.  On labels in ascending order (repeated ones included) `df.truncate(before, after)` keeps exactly the rows whose
    label is not below `before` and not above `after`; the bounds need not be labels of the frame.  Along the columns likewise, when some
    column is left.  Partial: descending labels (`PortionDemo.C84_truncate_descending`). -/
theorem C84_truncate_partial (cfg : Cfg) (hp : 1 ≤ cfg.nPartitions) (hmr : 1 ≤ cfg.minRow) (hmc : 1 ≤ cfg.minCol)
    (known : Nat → Nat → Bool × Bool) (nan : α) (m : LFrame Int Int α) (df g : Frame Int Int α) (h : m.Shows df) (axis0 : Bool)
    (before after : Option Int) (hg : df.truncate axis0 before after = some g)
    (hasc : (if axis0 then df.index else df.columns).Pairwise (· ≤ ·))
    (hcols : if axis0 then g.nrows = 0 → m.columns = some df.columns else 0 < g.ncols) :
    (m.truncate cfg known nan axis0 before after).bind (·.toPandas nan) = some g := by
  unfold Frame.truncate at hg
  by_cases hok : Monotonic (if axis0 then df.index else df.columns) ∧ boundsOk before after = true
  case neg => rw [if_neg hok] at hg; cases hg
  case pos =>
    rw [if_pos hok] at hg
    cases hg
    have hb : (before.any fun b => after.any fun a => decide (b > a)) = false := by
      have := hok.2
      simp only [boundsOk, Bool.not_eq_true'] at this
      exact this
    have hpos : ∀ (n k : Nat), k ≤ n → sliceBound n (k : Int) = k := by
      intro n k hk
      unfold sliceBound
      rw [if_neg (by omega)]
      simp
      omega
    unfold LFrame.truncate
    rw [h.getIndex, h.getColumns]
    simp only
    rw [if_neg (by simp [hasc]), hb, if_neg (by simp)]
    obtain ⟨s, e, h1, h2, h3, h4⟩ := intSlicer_sorted hasc hok.2
    rw [h1, Option.bind_some]
    simp only [Frame.keepLabels] at hcols ⊢
    cases axis0 with
    | true =>
      simp only [↓reduceIte] at hasc h1 h3 h4 hcols ⊢
      have e1 : ∀ {τ : Type} (l : List τ), l.length = df.index.length → _ := fun l hl => keepWhere_interval h2 h3 h4 l hl
      have epick : df.pickRows (df.index.map (inBounds before after)) = df.takeRows (List.range' s (e - s)) := by
        unfold Frame.pickRows Frame.takeRows
        rw [e1 df.index rfl, e1 df.rows h.wf.rows_len]
      rw [ilocPart_rows cfg hp hmr hmc known nan h (a := some (s : Int)) (b := some (e : Int)) (s := s) (e := e)
        (hpos df.nrows s (Nat.le_trans h2 h3)) (hpos df.nrows e h3) h2
        (by
          intro hse
          apply hcols
          rw [epick, hse]
          simp [Frame.takeRows, Frame.nrows, takeList]), epick]
    | false =>
      simp only [Bool.false_eq_true, ↓reduceIte] at hasc h1 h3 h4 hcols ⊢
      have e1 : ∀ {τ : Type} (l : List τ), l.length = df.columns.length → _ := fun l hl => keepWhere_interval h2 h3 h4 l hl
      have epick : df.pickCols (df.columns.map (inBounds before after)) = df.takeCols (List.range' s (e - s)) := by
        unfold Frame.pickCols Frame.takeCols
        rw [e1 df.columns rfl]
        congr 1
        apply List.map_congr_left
        intro r hr
        exact e1 r (h.wf.row_width r hr)
      rw [ilocPart_spec cfg hp hmr hmc known nan h (r := .slice none none) (c := .slice (some (s : Int)) (some (e : Int)))
        (ps := List.range df.nrows) (qs := List.range' s (e - s)) rfl rfl
        (by simp [IKey.addressed, List.range_eq_range'])
        (by
          simp only [IKey.addressed, Option.map_some, Option.getD_some]
          rw [hpos df.ncols s (Nat.le_trans h2 h3), hpos df.ncols e h3])
        (by
          intro hn _ _ e0
          have := congrArg List.length e0
          simp at this
          omega)
        (by
          intro _ _ _ e0
          rw [epick, e0] at hcols
          simp [Frame.takeCols, Frame.ncols, takeList] at hcols)
        (Or.inr ⟨List.nodup_range, List.nodup_range'⟩), epick, Frame.takeRows_all h.wf]

/-- **C84**, `truncate` raises exactly when pandas does before anything is selected: labels in neither order, or `before` after
    `after`. -/
theorem C84_truncate_raises (cfg : Cfg) (known : Nat → Nat → Bool × Bool) (nan : α) (m : LFrame Int Int α) (df : Frame Int Int α)
    (h : m.Shows df) (axis0 : Bool) (before after : Option Int) (hg : df.truncate axis0 before after = none) :
    m.truncate cfg known nan axis0 before after = none := by
  unfold Frame.truncate at hg
  by_cases hno : Monotonic (if axis0 then df.index else df.columns) ∧ boundsOk before after = true
  case pos => rw [if_pos hno] at hg; cases hg
  case neg =>
    unfold LFrame.truncate
    rw [h.getIndex, h.getColumns]
    simp only
    by_cases hm : Monotonic (if axis0 then df.index else df.columns)
    · have hb : ¬ (boundsOk before after = true) := fun hb => hno ⟨hm, hb⟩
      have hb' : (before.any fun b => after.any fun a => decide (b > a)) = true := by
        simpa [boundsOk] using hb
      rw [if_pos hb', ite_self]
    · rw [if_pos (by unfold Monotonic at hm; exact not_or.1 hm)]

/-- **C84**, `filter(like=...)` and `filter(regex=...)` on rows: for every partitioned frame with rows and every test of a label, exactly the
    rows whose label passes are kept, in order, repeated labels included. -/
theorem C84_filter_rows [DecidableEq L] (cfg : Cfg) (hp : 1 ≤ cfg.nPartitions) (hmr : 1 ≤ cfg.minRow) (hmc : 1 ≤ cfg.minCol)
    (known : Nat → Nat → Bool × Bool) (nan : α) (m : LFrame L L α) (df : Frame L L α) (h : m.Shows df) (test : L → Bool) (hn : 0 < df.nrows) :
    (m.filterLike cfg known nan true test).bind (·.toPandas nan) = some (df.keepLabels true test) := by
  unfold LFrame.filterLike LFrame.filterLabels
  rw [h.getIndex, h.getColumns]
  simp only [↓reduceIte]
  rw [if_neg (by simp only [Frame.nrows] at hn; omega)]
  have := C51_bool_array cfg hp hmr hmc known nan m df (df.index.map test) h
  unfold Frame.getArray at this
  rw [if_pos (by simp)] at this
  obtain ⟨m', a1, a2, _⟩ := this
  rw [a1, Option.bind_some, a2]
  rfl

/-- **C84**, `filter(like=...)` and `filter(regex=...)` on columns: the columns whose label passes, in order.  Partial: column labels are
    distinct (`PortionDemo.C84_filter_repeated`). -/
theorem C84_filter_columns_partial [DecidableEq L] (cfg : Cfg) (hp : 1 ≤ cfg.nPartitions) (hmr : 1 ≤ cfg.minRow) (hmc : 1 ≤ cfg.minCol)
    (known : Nat → Nat → Bool × Bool) (nan : α) (m : LFrame L L α) (df : Frame L L α) (h : m.Shows df) (asList : Bool) (test : L → Bool)
    (hn : df.columns.Nodup) :
    (m.filterLabels cfg known nan false asList test).bind (·.toPandas nan) = some (df.keepLabels false test) := by
  unfold LFrame.filterLabels
  rw [h.getIndex, h.getColumns]
  simp only [Bool.false_eq_true, ↓reduceIte]
  have hlt : ∀ k ∈ keepWhere (df.columns.map test) (List.range df.columns.length), k < df.columns.length :=
    fun k hk => List.mem_range.1 (keepWhere_mem hk)
  have hkeep : df.takeCols (keepWhere (df.columns.map test) (List.range df.columns.length)) = df.keepLabels false test :=
    takeCols_keepWhere h.wf (by simp)
  have elb : keepWhere (df.columns.map test) df.columns
      = takeList df.columns (keepWhere (df.columns.map test) (List.range df.columns.length)) :=
    (keepWhere_range _ _ (by simp)).symm
  have hin : ∀ x ∈ keepWhere (df.columns.map test) df.columns, x ∈ df.columns := fun x hx => keepWhere_mem hx
  by_cases h0 : df.index.length = 0
  · rw [if_pos h0]
    apply throughPandas_spec cfg hp hmr hmc nan h
    · unfold Frame.getLabels
      simp only [LKey.addressed]
      rw [if_pos hin, Option.map_some, ← hkeep]
      congr 2
      rw [elb]
      exact positionsOf_own hn hlt
    · exact Frame.pickCols_wf h.wf _
  · rw [if_neg h0, if_neg (by
      simp only [Bool.not_eq_true, List.any_eq_false]
      intro x hx
      simpa using hin x hx), elb]
    rw [takeColLabels_own cfg hp hmr hmc known nan h hn hlt (Or.inr (keepWhere_nodup (by simp))), hkeep]

/-- **C84**, `filter(items=...)` on rows and columns: the listed labels that are there.  Partial: the labels of the axis are distinct, and
    the items stand in the order of the labels (`hord`); otherwise the order differs from pandas' (`PortionDemo.C84_filter_order`). -/
theorem C84_filter_items_partial [DecidableEq L] (cfg : Cfg) (hp : 1 ≤ cfg.nPartitions) (hmr : 1 ≤ cfg.minRow) (hmc : 1 ≤ cfg.minCol)
    (known : Nat → Nat → Bool × Bool) (nan : α) (m : LFrame L L α) (df : Frame L L α) (h : m.Shows df) (axis0 : Bool) (items : List L)
    (hn : (if axis0 then df.index else df.columns).Nodup)
    (hord : (items.eraseDups.filter (· ∈ if axis0 then df.index else df.columns)).Sublist (if axis0 then df.index else df.columns)) :
    (m.filterItems cfg known nan axis0 items).bind (·.toPandas nan) = df.filterItems axis0 items := by
  have hord' : items.eraseDups.filter (· ∈ if axis0 then df.index else df.columns)
      = (if axis0 then df.index else df.columns).filter fun x => decide (x ∈ items) := by
    rw [← filter_mem_of_sublist hord hn]
    apply List.filter_congr
    intro x hx
    simp only [decide_eq_decide, List.mem_filter, List.mem_eraseDups, decide_eq_true_eq]
    exact ⟨fun h => h.1, fun h => ⟨h, hx⟩⟩
  unfold Frame.filterItems
  simp only
  rw [if_pos hn, hord']
  unfold LFrame.filterItems
  cases axis0 with
  | true =>
    simp only [↓reduceIte] at hn hord' ⊢
    rw [(keepWhere_positions hn _).1, takeRows_keepWhere h.wf (by simp)]
    by_cases h0 : df.nrows = 0
    · unfold LFrame.filterLabels
      rw [h.getIndex]
      simp only [↓reduceIte, Bool.false_eq_true]
      rw [if_pos (by simpa [Frame.nrows] using h0)]
      apply throughPandas_spec cfg hp hmr hmc nan h
      · unfold Frame.getArray
        rw [if_pos (by simp)]
      · exact Frame.pickRows_wf h.wf _
    · have := C84_filter_rows cfg hp hmr hmc known nan m df h (fun x => decide (x ∈ items)) (by omega)
      unfold LFrame.filterLike LFrame.filterLabels at this
      unfold LFrame.filterLabels
      rw [h.getIndex, h.getColumns] at *
      simp only [↓reduceIte] at this ⊢
      rw [if_neg (by simpa [Frame.nrows] using h0)] at this ⊢
      exact this
  | false =>
    simp only [Bool.false_eq_true, ↓reduceIte] at hn hord' ⊢
    rw [(keepWhere_positions hn _).1, takeCols_keepWhere h.wf (by simp)]
    exact C84_filter_columns_partial cfg hp hmr hmc known nan m df h false _ hn

/-- **C84**, `sample`.  For every generator (`choose`), `df.sample(n | frac, axis)` has exactly the rows or columns at the drawn positions
    in the order they were drawn, and raises exactly when pandas does.  Partial: `ignore_index` (`PortionDemo.C84_sample_ignore_index`),
    repeated column labels (`PortionDemo.C84_sample_repeated_label`), and repeated draws when block sizes are cached (as in C08). -/
theorem C84_sample_partial [DecidableEq L] (cfg : Cfg) (hp : 1 ≤ cfg.nPartitions) (hmr : 1 ≤ cfg.minRow) (hmc : 1 ≤ cfg.minCol)
    (known : Nat → Nat → Bool × Bool) (nan : α) (m : LFrame L L α) (df : Frame L L α) (h : m.Shows df) (num : Nat → L)
    (choose : Nat → Nat → Option (List Nat)) (hch : ∀ len k ps, choose len k = some ps → ∀ p ∈ ps, p < len) (axis0 : Bool)
    (n frac : Option Int) (ignore : Bool) (hign : ignore = false ∨ sampleSize n frac = some 0) (hlab : axis0 = false → df.columns.Nodup)
    (hd : (∀ i j, known i j = (false, false)) ∨ ∀ len k ps, choose len k = some ps → ps.Nodup) :
    (m.sample cfg known nan num choose axis0 n frac ignore).bind (·.toPandas nan) = df.sample num choose axis0 n frac ignore := by
  unfold LFrame.sample
  rw [sampleCount_eq]
  cases hs : sampleSize n frac with
  | none =>
    unfold Frame.sample
    rw [hs]
    rfl
  | some size =>
    rw [Option.bind_some]
    by_cases h0 : size = 0
    · subst h0
      rw [if_pos rfl]
      have e : df.sample num choose axis0 n frac ignore = df.sample num choose axis0 (some 0) none ignore := by
        unfold Frame.sample
        rw [hs]
        rfl
      rw [e]
      cases hx : df.sample num choose axis0 (some 0) none ignore with
      | none => rw [throughPandas_none cfg nan h hx]; rfl
      | some g =>
        apply throughPandas_spec cfg hp hmr hmc nan h hx
        unfold Frame.sample at hx
        rw [show sampleSize (some 0) none = some 0 from rfl, Option.bind_some] at hx
        cases hc : choose (if axis0 = true then df.nrows else df.ncols) 0 with
        | none => rw [hc] at hx; cases hx
        | some ps =>
          rw [hc] at hx
          cases hx
          have hw : (if axis0 = true then df.takeRows ps else df.takeCols ps).WF := by
            cases axis0
            · exact h.wf.takeCols ps
            · exact h.wf.takeRows ps
          simp only
          cases ignore
          · exact hw
          · exact renumbered_wf hw num axis0
    · rw [if_neg h0]
      have hig : ignore = false := by
        rcases hign with e | e
        · exact e
        · rw [hs] at e
          cases e
          exact absurd rfl h0
      subst hig
      unfold Frame.sample
      rw [hs, Option.bind_some]
      simp only [Bool.false_eq_true, ↓reduceIte]
      cases axis0 with
      | true =>
        simp only [↓reduceIte]
        rw [h.getIndex]
        show ((choose df.nrows size).bind _).bind _ = _
        cases hc : choose df.nrows size with
        | none => rfl
        | some ps =>
          rw [Option.bind_some, Option.map_some]
          obtain ⟨m', a1, a2⟩ := take2d_distinct cfg hp hmr hmc known h (rows := some (.array ps)) (cols := none)
            (by intro q e; cases e; exact hch _ _ _ hc) (by intro q e; cases e) (by intro a b e; cases e) (by intro a b e; cases e)
            (by rcases hd with hd | hd
                · exact Or.inl hd
                · exact Or.inr ⟨hd _ _ _ hc, List.nodup_range⟩)
          rw [a1, Option.bind_some, (a2.observed nan).1]
          show some ((df.takeRows ps).takeCols (List.range (df.takeRows ps).ncols)) = _
          rw [Frame.takeCols_all (h.wf.takeRows ps)]
      | false =>
        simp only [Bool.false_eq_true, ↓reduceIte]
        rw [h.getColumns]
        show ((choose df.ncols size).bind _).bind _ = _
        cases hc : choose df.ncols size with
        | none => rfl
        | some ps =>
          rw [Option.bind_some, Option.map_some]
          exact takeColLabels_own cfg hp hmr hmc known nan h (hlab rfl) (hch _ _ _ hc)
            (by rcases hd with hd | hd
                · exact Or.inl hd
                · exact Or.inr (hd _ _ _ hc))

/-! ### a frame -/

namespace PortionDemo

/-- five rows and three columns, in blocks of 3 + 2 rows and 2 + 1 columns; `lazy`: the labels are not recorded -/
def frame (index columns : List Int) : Frame Int Int Int :=
  .mk index columns [[0, 1, 2], [10, 11, 12], [20, 21, 22], [30, 31, 32], [40, 41, 42]]

def held (lazy : Bool) (index columns : List Int) : LFrame Int Int Int :=
  .mk (.mk ((frame index columns).cut [3, 2] [2, 1]) (if lazy then none else some index) (if lazy then none else some columns) none none)
    false false

theorem held_shows (lazy : Bool) (a b c d e x y z : Int) : (held lazy [a, b, c, d, e] [x, y, z]).Shows (frame [a, b, c, d, e] [x, y, z]) := by
  refine ⟨⟨rfl, ?_⟩, ⟨frame [a, b, c, d, e] [x, y, z], [3, 2], [2, 1], ⟨rfl, ?_⟩, rfl, rfl, ⟨by decide, by decide, rfl, rfl⟩, rfl,
    Or.inl rfl, Or.inl rfl, fun _ => rfl, fun _ => rfl⟩, ?_, ?_⟩
  · intro r hr
    simp only [frame, List.mem_cons, List.not_mem_nil, or_false] at hr
    rcases hr with rfl | rfl | rfl | rfl | rfl <;> rfl
  · intro r hr
    simp only [frame, List.mem_cons, List.not_mem_nil, or_false] at hr
    rcases hr with rfl | rfl | rfl | rfl | rfl <;> rfl
  · cases lazy
    · exact Or.inr rfl
    · exact Or.inl ⟨rfl, rfl⟩
  · cases lazy
    · exact Or.inr rfl
    · exact Or.inl ⟨rfl, rfl⟩

def cfg : Cfg := ⟨4, 1, 1⟩

def sizes : Nat → Nat → Bool × Bool := fun _ _ => (true, true)

/-- the hypotheses are met: `df.head(-2)` and `df.tail(2)` of a frame without recorded labels -/
example : ((held true [1, 2, 2, 5, 9] [7, 8, 9]).head cfg sizes 0 (-2)).bind (·.toPandas 0)
      = some (.mk [1, 2, 2] [7, 8, 9] [[0, 1, 2], [10, 11, 12], [20, 21, 22]]) ∧
    ((held true [1, 2, 2, 5, 9] [7, 8, 9]).tail cfg sizes 0 2).bind (·.toPandas 0)
      = some (.mk [5, 9] [7, 8, 9] [[30, 31, 32], [40, 41, 42]]) :=
  ⟨C84_head_partial cfg (by decide) (by decide) (by decide) sizes 0 _ _ (held_shows true 1 2 2 5 9 7 8 9) (-2) (by decide),
   C84_tail_partial cfg (by decide) (by decide) (by decide) sizes 0 _ _ (held_shows true 1 2 2 5 9 7 8 9) 2 (by decide)⟩

/-- no rows at all: `df.head(0)` of a frame with recorded labels -/
example : ((held false [1, 2, 2, 5, 9] [7, 8, 9]).head cfg sizes 0 0).bind (·.toPandas 0) = some (.mk [] [7, 8, 9] []) :=
  C84_head_partial cfg (by decide) (by decide) (by decide) sizes 0 _ _ (held_shows false 1 2 2 5 9 7 8 9) 0 (fun _ => rfl)

/-- `df.take([-1, 0])` -/
example : ((held true [1, 2, 2, 5, 9] [7, 8, 9]).take cfg sizes 0 true [-1, 0]).bind (·.toPandas 0)
    = some (.mk [9, 1] [7, 8, 9] [[40, 41, 42], [0, 1, 2]]) :=
  C84_take_partial cfg (by decide) (by decide) (by decide) sizes 0 _ _ _ (held_shows true 1 2 2 5 9 7 8 9) true [-1, 0] (by decide)
    (Or.inr (by
      intro ps e
      have : ([-1, 0] : List Int).mapM (axisPos 5) = some [4, 0] := by decide
      rw [show (frame [1, 2, 2, 5, 9] [7, 8, 9]).nrows = 5 from rfl] at e
      simp only [↓reduceIte] at e
      rw [this] at e
      cases e
      decide))

/-- `df.truncate(2, 6)`: the bound `6` is not a label -/
example : ((held true [1, 2, 2, 5, 9] [7, 8, 9]).truncate cfg sizes 0 true (some 2) (some 6)).bind (·.toPandas 0)
    = some (.mk [2, 2, 5] [7, 8, 9] [[10, 11, 12], [20, 21, 22], [30, 31, 32]]) :=
  C84_truncate_partial cfg (by decide) (by decide) (by decide) sizes 0 _ _ _ (held_shows true 1 2 2 5 9 7 8 9) true (some 2) (some 6)
    (by decide) (by decide) (by decide)

/-- along the columns -/
example : ((held true [1, 2, 2, 5, 9] [7, 8, 9]).truncate cfg sizes 0 false (some 8) none).bind (·.toPandas 0)
    = some (.mk [1, 2, 2, 5, 9] [8, 9] [[1, 2], [11, 12], [21, 22], [31, 32], [41, 42]]) :=
  C84_truncate_partial cfg (by decide) (by decide) (by decide) sizes 0 _ _ _ (held_shows true 1 2 2 5 9 7 8 9) false (some 8) none
    (by decide) (by decide) (by decide)

/-- labels in neither order -/
example : (held true [1, 2, 0, 5, 9] [7, 8, 9]).truncate cfg sizes 0 true (some 2) (some 6) = none :=
  C84_truncate_raises cfg sizes 0 _ _ (held_shows true 1 2 0 5 9 7 8 9) true _ _ (by decide)

/-- `df.filter(...)` by a test of row labels and of column labels, and by items in the order of the columns with one that is not there -/
example : ((held true [1, 2, 2, 5, 9] [7, 8, 9]).filterLike cfg sizes 0 true fun x => decide (x % 2 = 0)).bind (·.toPandas 0)
      = some (.mk [2, 2] [7, 8, 9] [[10, 11, 12], [20, 21, 22]]) ∧
    ((held true [1, 2, 2, 5, 9] [7, 8, 9]).filterLike cfg sizes 0 false fun x => decide (x % 2 = 1)).bind (·.toPandas 0)
      = some (.mk [1, 2, 2, 5, 9] [7, 9] [[0, 2], [10, 12], [20, 22], [30, 32], [40, 42]]) ∧
    ((held true [1, 2, 2, 5, 9] [7, 8, 9]).filterItems cfg sizes 0 false [3, 7, 9, 7]).bind (·.toPandas 0)
      = some (.mk [1, 2, 2, 5, 9] [7, 9] [[0, 2], [10, 12], [20, 22], [30, 32], [40, 42]]) :=
  ⟨C84_filter_rows cfg (by decide) (by decide) (by decide) sizes 0 _ _ (held_shows true 1 2 2 5 9 7 8 9) _ (by decide),
   C84_filter_columns_partial cfg (by decide) (by decide) (by decide) sizes 0 _ _ (held_shows true 1 2 2 5 9 7 8 9) true _ (by decide),
   C84_filter_items_partial cfg (by decide) (by decide) (by decide) sizes 0 _ _ (held_shows true 1 2 2 5 9 7 8 9) false [3, 7, 9, 7]
     (by decide) (by decide)⟩

/-- a generator that draws the last positions, last first -/
def lastFirst (len size : Nat) : Option (List Nat) := if size ≤ len then some ((List.range size).map fun i => len - 1 - i) else none

theorem lastFirst_lt (len k : Nat) (ps : List Nat) (h : lastFirst len k = some ps) : ∀ p ∈ ps, p < len := by
  unfold lastFirst at h
  split at h
  · cases h
    intro p hp
    simp only [List.mem_map, List.mem_range] at hp
    obtain ⟨i, hi, rfl⟩ := hp
    omega
  · cases h

theorem lastFirst_nodup (len k : Nat) (ps : List Nat) (h : lastFirst len k = some ps) : ps.Nodup := by
  unfold lastFirst at h
  split at h
  · cases h
    unfold List.Nodup
    rw [List.pairwise_map]
    apply List.Pairwise.imp_of_mem (R := (· ≠ ·)) _ List.nodup_range
    intro a b ha hb hab
    rw [List.mem_range] at ha hb
    omega
  · cases h

/-- `df.sample(2)` and `df.sample(9)` -/
example : ((held true [1, 2, 2, 5, 9] [7, 8, 9]).sample cfg sizes 0 (fun n => (n : Int)) lastFirst true (some 2) none false).bind
      (·.toPandas 0) = some (.mk [9, 5] [7, 8, 9] [[40, 41, 42], [30, 31, 32]]) ∧
    ((held true [1, 2, 2, 5, 9] [7, 8, 9]).sample cfg sizes 0 (fun n => (n : Int)) lastFirst true (some 9) none false).bind
      (·.toPandas 0) = none :=
  ⟨C84_sample_partial cfg (by decide) (by decide) (by decide) sizes 0 _ _ (held_shows true 1 2 2 5 9 7 8 9) _ lastFirst lastFirst_lt true
     (some 2) none false (Or.inl rfl) (by decide) (Or.inr lastFirst_nodup),
   C84_sample_partial cfg (by decide) (by decide) (by decide) sizes 0 _ _ (held_shows true 1 2 2 5 9 7 8 9) _ lastFirst lastFirst_lt true
     (some 9) none false (Or.inl rfl) (by decide) (Or.inr lastFirst_nodup)⟩

/-! ### where the code differs from pandas -/

/-- **C84 fails for `head(0)` of a frame whose column labels are not recorded**: no block is left to read them from, and the columns are
    lost. -/
theorem C84_head_zero_lazy :
    (held true [1, 2, 3, 4, 5] [7, 8, 9]).Shows (frame [1, 2, 3, 4, 5] [7, 8, 9]) ∧
    ((held true [1, 2, 3, 4, 5] [7, 8, 9]).head cfg sizes 0 0).bind (·.toPandas 0) = some (.mk [] [] []) ∧
    (frame [1, 2, 3, 4, 5] [7, 8, 9]).head 0 = .mk [] [7, 8, 9] [] := ⟨held_shows true 1 2 3 4 5 7 8 9, by decide +kernel, by decide⟩

/-- **C84 fails for `truncate` on descending labels**: `df.truncate(2, 4)` on the rows `5, 4, 3, 2, 1` takes the bounds the wrong way
    round.  The frame that comes out cannot even be turned into pandas (its rows and its labels disagree). -/
theorem C84_truncate_descending :
    ((held false [5, 4, 3, 2, 1] [7, 8, 9]).truncate cfg sizes 0 true (some 2) (some 4)).isSome = true ∧
    ((held false [5, 4, 3, 2, 1] [7, 8, 9]).truncate cfg sizes 0 true (some 2) (some 4)).bind (·.toPandas 0) = none ∧
    (frame [5, 4, 3, 2, 1] [7, 8, 9]).truncate true (some 2) (some 4)
      = some (.mk [4, 3, 2] [7, 8, 9] [[10, 11, 12], [20, 21, 22], [30, 31, 32]]) := by decide +kernel

/-- **C84 fails for `filter(items=...)` in another order**: pandas gives the columns in the order of the items. -/
theorem C84_filter_order :
    ((held false [1, 2, 3, 4, 5] [7, 8, 9]).filterItems cfg sizes 0 false [9, 7]).bind (·.toPandas 0)
      = some (.mk [1, 2, 3, 4, 5] [7, 9] [[0, 2], [10, 12], [20, 22], [30, 32], [40, 42]]) ∧
    (frame [1, 2, 3, 4, 5] [7, 8, 9]).filterItems false [9, 7]
      = some (.mk [1, 2, 3, 4, 5] [9, 7] [[2, 0], [12, 10], [22, 20], [32, 30], [42, 40]]) := by decide +kernel

/-- **C84 fails for `filter` on columns when a label repeats**: each of the two columns `7` is selected twice. -/
theorem C84_filter_repeated :
    ((held false [1, 2, 3, 4, 5] [7, 8, 7]).filterLike cfg (fun _ _ => (false, false)) 0 false fun x => decide (x = 7)).bind
      (fun r => (r.toPandas 0).map (·.columns)) = some [7, 7, 7, 7] ∧
    ((frame [1, 2, 3, 4, 5] [7, 8, 7]).keepLabels false fun x => decide (x = 7)).columns = [7, 7] := by decide +kernel

/-- **C84 fails for `filter(like=...)` on the rows of a frame without rows**: the columns are lost. -/
theorem C84_filter_empty :
    (((fromPandas cfg (Frame.mk [] [7, 8, 9] [] : Frame Int Int Int)).map fun r => LFrame.mk r false false).bind fun m =>
      (m.filterLike cfg sizes 0 true fun _ => true).bind (·.toPandas 0)) = some (.mk [] [] []) ∧
    (Frame.mk [] [7, 8, 9] [] : Frame Int Int Int).keepLabels true (fun _ => true) = .mk [] [7, 8, 9] [] := by decide +kernel

/-- **C84 fails for `sample(..., ignore_index=True)`**: the labels of the drawn rows are kept. -/
theorem C84_sample_ignore_index :
    ((held false [1, 2, 3, 4, 5] [7, 8, 9]).sample cfg sizes 0 (fun n => (n : Int)) lastFirst true (some 2) none true).bind
      (fun r => (r.toPandas 0).map (·.index)) = some [5, 4] ∧
    ((frame [1, 2, 3, 4, 5] [7, 8, 9]).sample (fun n => (n : Int)) lastFirst true (some 2) none true).map (·.index) = some [0, 1] := by
  decide +kernel

/-- **C84 fails for `sample(axis=1)` when a label repeats**: one column is drawn, two come back. -/
theorem C84_sample_repeated_label :
    ((held false [1, 2, 3, 4, 5] [7, 8, 7]).sample cfg sizes 0 (fun n => (n : Int)) lastFirst false (some 1) none false).bind
      (fun r => (r.toPandas 0).map (·.columns)) = some [7, 7] ∧
    ((frame [1, 2, 3, 4, 5] [7, 8, 7]).sample (fun n => (n : Int)) lastFirst false (some 1) none false).map (·.columns) = some [7] := by
  decide +kernel

end PortionDemo
