import Verif.Lemmas.Relabel
/-
Which operations keep the heights of the row partitions.
-/

variable {ι κ α : Type}

/-- the blocks of row partition `i` have `rl[i]` rows -/
def RowsH (g : Grid ι κ α) (rl : List Nat) : Prop :=
  g.length = rl.length ∧ ∀ e ∈ g.zip rl, ∀ b ∈ e.1, b.nrows = e.2

theorem rowsH_map {τ : Type} (l : List τ) (F : τ → List (Frame ι κ α)) (n : τ → Nat) (h : ∀ p, ∀ b ∈ F p, b.nrows = n p) :
    RowsH (l.map F) (l.map n) := by
  refine ⟨by simp, ?_⟩
  induction l with
  | nil => simp
  | cons a l ih =>
    intro e he b hb
    simp only [List.map_cons, List.zip_cons_cons, List.mem_cons] at he
    rcases he with he | he
    · subst he; exact h a b hb
    · exact ih e he b hb

theorem rowsH_cut {df : Frame ι κ α} {rl cw : List Nat} (h : df.IsCut rl cw) : RowsH (df.cut rl cw) rl := by
  have := rowsH_map (sliceBounds rl) (fun p => (sliceBounds cw).map fun q => (df.ilocRows p.1 p.2).ilocCols q.1 q.2)
    (fun p => (df.ilocRows p.1 p.2).nrows) (by
      intro p b hb
      simp only [List.mem_map] at hb
      obtain ⟨_, _, rfl⟩ := hb
      rfl)
  rw [sliceBounds_nrows h] at this
  exact this

theorem rowsH_unique {df : Frame ι κ α} {rl rl' cw : List Nat} (h : df.IsCut rl' cw) (hr : RowsH (df.cut rl' cw) rl) : rl' = rl := by
  have h1 := rowsH_cut h
  have hl : rl'.length = rl.length := by rw [← h1.1, hr.1]
  apply List.ext_getElem hl
  intro i hi hi'
  have hgl : i < (df.cut rl' cw).length := by rw [h1.1]; exact hi
  have hne : (df.cut rl' cw)[i] ≠ [] := by
    simp only [Frame.cut, List.getElem_map, ne_eq, List.map_eq_nil_iff]
    exact sliceBounds_ne_nil h.cw_ne
  obtain ⟨b, hb⟩ := List.exists_mem_of_ne_nil _ hne
  have e1 := h1.2 ((df.cut rl' cw)[i], rl'[i]) (List.mem_iff_getElem.2 ⟨i, by rw [List.length_zip]; exact Nat.lt_min.2 ⟨hgl, hi⟩, by simp⟩) b hb
  have e2 := hr.2 ((df.cut rl' cw)[i], rl[i]) (List.mem_iff_getElem.2 ⟨i, by rw [List.length_zip]; exact Nat.lt_min.2 ⟨hgl, hi'⟩, by simp⟩) b hb
  simp only at e1 e2
  omega

/-- a frame whose row partitions have the heights `rl` is cut along `rl` -/
theorem represents_rows {m : MFrame ι κ α} {df : Frame ι κ α} (h : m.Represents df) {rl : List Nat} (hr : RowsH m.parts rl) :
    ∃ cw, df.IsCut rl cw ∧ m.parts = df.cut rl cw := by
  obtain ⟨rl', cw, hc, hp, _, _⟩ := h.blocks
  rw [hp] at hr
  have := rowsH_unique hc hr
  subst this
  exact ⟨cw, hc, hp⟩

theorem keepNonzero_all {τ : Type} : ∀ (l : List τ) (ls : List Nat), l.length = ls.length → 0 ∉ ls → keepNonzero l ls = l := by
  intro l
  induction l with
  | nil => intro ls h _; simp [keepNonzero]
  | cons a l ih =>
    intro ls h h0
    cases ls with
    | nil => simp at h
    | cons b ls =>
      have hb : b ≠ 0 := by intro hb; apply h0; simp [hb]
      simp only [keepNonzero, ne_eq, hb, not_false_eq_true, ↓reduceIte]
      rw [ih ls (by simpa using h) (fun hx => h0 (List.mem_cons_of_mem _ hx))]

theorem keepNonzero_subset {τ : Type} : ∀ (l : List τ) (ls : List Nat), ∀ x ∈ keepNonzero l ls, x ∈ l := by
  intro l
  induction l with
  | nil => intro ls x h; simp [keepNonzero] at h
  | cons a l ih =>
    intro ls x h
    cases ls with
    | nil => simp [keepNonzero] at h
    | cons b ls =>
      simp only [keepNonzero] at h
      split at h
      · rcases List.mem_cons.1 h with h | h
        · simp [h]
        · exact List.mem_cons_of_mem _ (ih ls x h)
      · exact List.mem_cons_of_mem _ (ih ls x h)

/-- what is known about the recorded heights: nothing, or they are right and none is zero -/
def LensOk (rl : List Nat) (c : Option (List Nat)) : Prop := c = none ∨ (c = some rl ∧ 0 ∉ rl)

theorem filterEmpties_rows {m : MFrame ι κ α} {rl : List Nat} (h : RowsH m.parts rl) (hc : LensOk rl m.rowLens) :
    RowsH (filterEmpties m).parts rl ∧ LensOk rl (filterEmpties m).rowLens := by
  unfold filterEmpties
  split
  · rename_i rl' cw h1 h2
    rcases hc with hc | ⟨hc, h0⟩
    · rw [hc] at h1; cases h1
    · rw [hc] at h1
      cases h1
      split
      · exact ⟨h, Or.inr ⟨hc, h0⟩⟩
      · simp only
        rw [keepNonzero_all _ _ h.1 h0]
        refine ⟨⟨by simpa using h.1, ?_⟩, Or.inr ⟨?_, h0⟩⟩
        · intro e he b hb
          rw [List.zip_map_left] at he
          simp only [List.mem_map] at he
          obtain ⟨e', he', rfl⟩ := he
          exact h.2 e' he' b (keepNonzero_subset _ _ b hb)
        · congr 1
          rw [List.filter_eq_self]
          intro x hx
          simp only [ne_eq, decide_eq_true_eq]
          intro hx0; subst hx0; exact h0 hx
  · exact ⟨h, hc⟩

theorem mk'_rows {m m' : MFrame ι κ α} {rl : List Nat} (he : m.mk' = some m') (h : RowsH m.parts rl) (hc : LensOk rl m.rowLens) :
    RowsH m'.parts rl ∧ LensOk rl m'.rowLens := by
  unfold MFrame.mk' at he
  split at he
  · cases he; exact filterEmpties_rows h hc
  · cases he

/-- row partition by row partition -/
theorem mapM_rows {ι' κ' β : Type} {g : Grid ι κ α} {rl : List Nat} (h : RowsH g rl) {f : List (Frame ι κ α) → Option (List (Frame ι' κ' β))}
    {g' : Grid ι' κ' β} (he : g.mapM f = some g')
    (hf : ∀ row n r, (∀ b ∈ row, b.nrows = n) → f row = some r → ∀ b ∈ r, b.nrows = n) : RowsH g' rl := by
  induction g generalizing rl g' with
  | nil =>
    have : g' = [] := by simpa using he.symm
    subst this
    exact ⟨by simpa using h.1, by simp⟩
  | cons row g ih =>
    cases rl with
    | nil => simp [RowsH] at h
    | cons n rl =>
      simp only [List.mapM_cons, Option.pure_def, Option.bind_eq_bind, Option.bind_eq_some_iff] at he
      obtain ⟨r, hr, g2, hg2, he⟩ := he
      cases he
      have ih := ih (rl := rl) ⟨by simpa using h.1, fun e he => h.2 e (by simp [he])⟩ hg2
      refine ⟨by simpa using ih.1, ?_⟩
      intro e he b hb
      simp only [List.zip_cons_cons, List.mem_cons] at he
      rcases he with he | he
      · subst he
        exact hf row n r (h.2 (row, n) (by simp)) hr b hb
      · exact ih.2 e he b hb

theorem rowsH_iff {g : Grid ι κ α} {rl : List Nat} : RowsH g rl ↔ g.length = rl.length ∧
    ∀ (i : Nat) (row : List (Frame ι κ α)) (n : Nat), g[i]? = some row → rl[i]? = some n → ∀ b ∈ row, b.nrows = n := by
  constructor
  · intro h
    refine ⟨h.1, fun i row n h1 h2 b hb => h.2 (row, n) ?_ b hb⟩
    exact List.mem_iff_getElem?.2 ⟨i, List.getElem?_zip_eq_some.2 ⟨h1, h2⟩⟩
  · intro h
    refine ⟨h.1, fun e he b hb => ?_⟩
    obtain ⟨i, hi⟩ := List.mem_iff_getElem?.1 he
    obtain ⟨h1, h2⟩ := List.getElem?_zip_eq_some.1 hi
    exact h.2 i e.1 e.2 h1 h2 b hb

theorem mapM_at {A B : Type} {f : A → Option B} : ∀ {l : List A} {r : List B}, l.mapM f = some r →
    ∀ i : Nat, r[i]? = l[i]?.bind f := by
  intro l
  induction l with
  | nil =>
    intro r h i
    have : r = [] := by simpa using h.symm
    subst this; simp
  | cons a l ih =>
    intro r h i
    simp only [List.mapM_cons, Option.pure_def, Option.bind_eq_bind, Option.bind_eq_some_iff] at h
    obtain ⟨b, hb, r2, hr2, h⟩ := h
    cases h
    cases i with
    | zero => simp [hb]
    | succ i => simpa using ih hr2 i

theorem mapM_length_eq {A B : Type} {f : A → Option B} : ∀ {l : List A} {r : List B}, l.mapM f = some r → r.length = l.length := by
  intro l
  induction l with
  | nil =>
    intro r h
    have : r = [] := by simpa using h.symm
    subst this; simp
  | cons a l ih =>
    intro r h
    simp only [List.mapM_cons, Option.pure_def, Option.bind_eq_bind, Option.bind_eq_some_iff] at h
    obtain ⟨b, hb, r2, hr2, h⟩ := h
    cases h
    simpa using ih hr2

theorem mapM_mem {A B : Type} {f : A → Option B} {l : List A} {r : List B} (h : l.mapM f = some r) {b : B} (hb : b ∈ r) :
    ∃ a ∈ l, f a = some b := by
  obtain ⟨i, hi⟩ := List.mem_iff_getElem?.1 hb
  rw [mapM_at h] at hi
  obtain ⟨a, ha, hf⟩ := Option.bind_eq_some_iff.1 hi
  exact ⟨a, List.mem_of_getElem? ha, hf⟩

theorem maskBlock_nrows (kl kw : Bool) (cs : BlockSel) (b : Frame ι κ α) : (maskBlock kl kw .full cs b).nrows = b.nrows := by
  unfold maskBlock
  rw [apply_ite Frame.nrows]
  simp only [Frame.takeCols, Frame.takeRows, Frame.nrows, BlockSel.positions, takeList_range, ite_self]

theorem maskGrid_rows {g g' : Grid ι κ α} {rl : List Nat} (h : RowsH g rl) {known : Nat → Nat → Bool × Bool} {cd : List (Nat × BlockSel)}
    (he : maskGrid known ((List.range g.length).map fun i => (i, BlockSel.full)) cd g = some g') : RowsH g' rl := by
  unfold maskGrid at he
  rw [rowsH_iff] at h ⊢
  have hl := mapM_length_eq he
  simp only [List.length_map, List.length_range] at hl
  refine ⟨by rw [hl]; exact h.1, ?_⟩
  intro i row n h1 h2 b hb
  have hi : i < g.length := by
    have := (List.getElem?_eq_some_iff.1 h1).1
    omega
  rw [mapM_at he] at h1
  rw [List.getElem?_map, List.getElem?_range hi, Option.map_some, Option.bind_some] at h1
  obtain ⟨c, _, hc⟩ := mapM_mem h1 hb
  simp only [Option.bind_eq_bind, Option.pure_def, Option.bind_eq_some_iff, Option.some.injEq] at hc
  obtain ⟨row0, hrow0, b0, hb0, rfl⟩ := hc
  have hn := h.2 i row0 n hrow0 h2 b0 (List.mem_of_getElem? hb0)
  rw [maskBlock_nrows, hn]

theorem takeByMask_rows {m m' : MFrame ι κ α} {rl : List Nat} (h : RowsH m.parts rl) (hc : LensOk rl m.rowLens)
    {known : Nat → Nat → Bool × Bool} {cp : Option Positions} (he : takeByMask known m none cp = some m') :
    RowsH m'.parts rl ∧ LensOk rl m'.rowLens := by
  unfold takeByMask at he
  simp only [maskAxisPlan, Option.bind_eq_bind, Option.bind_some, Option.bind_eq_some_iff, Prod.exists] at he
  obtain ⟨cd, cw, cols, _, he⟩ := he
  split at he
  · cases he
  · obtain ⟨g, hg, he⟩ := Option.bind_eq_some_iff.1 he
    exact mk'_rows he (maskGrid_rows h hg) hc

theorem hcat_nrows [DecidableEq ι] {fs : List (Frame ι κ α)} {f : Frame ι κ α} (h : Frame.hcat fs = some f) {n : Nat}
    (hn : ∀ b ∈ fs, b.nrows = n) : f.nrows = n := by
  cases fs with
  | nil => cases h
  | cons a fs =>
    simp only [Frame.hcat] at h
    split at h
    · cases h; exact hn a (by simp)
    · cases h

theorem splitResult_nrows {num : Nat} {f : Frame ι κ α} {mb : Nat} {l : Option (List Nat)} {r : List (Frame ι κ α)}
    (h : splitResult false num f mb l = some r) : ∀ b ∈ r, b.nrows = f.nrows := by
  unfold splitResult at h
  split at h
  · cases h; intro b hb; simp at hb; rw [hb]
  · intro b hb
    simp only [Option.map_eq_some_iff] at h
    obtain ⟨lens, _, rfl⟩ := h
    simp only [List.mem_map] at hb
    obtain ⟨q, _, rfl⟩ := hb
    rfl

theorem deployAxis_nrows [DecidableEq ι] [DecidableEq κ] {f : Frame ι κ α → Option (Frame ι κ α)} (hf : ∀ a b, f a = some b → b.nrows = a.nrows)
    {k : Nat} {keep : Bool} {mb : Nat} {l : Option (List Nat)} {man : Bool} {row r : List (Frame ι κ α)} {n : Nat}
    (h : deployAxisFunc false f k keep row mb l man = some r) (hn : ∀ b ∈ row, b.nrows = n) : ∀ b ∈ r, b.nrows = n := by
  unfold deployAxisFunc at h
  simp only [axisConcat, Option.bind_eq_bind, Bool.false_eq_true, ↓reduceIte, Option.bind_eq_some_iff] at h
  obtain ⟨d, hd, r1, hr1, h⟩ := h
  intro b hb
  rw [splitResult_nrows h b hb, hf d r1 hr1, hcat_nrows hd hn]

theorem reorderLabels_rows [DecidableEq ι] [DecidableEq κ] {cfg : Cfg} {m m' : MFrame ι κ α} {rl : List Nat} (h : RowsH m.parts rl)
    (hc : LensOk rl m.rowLens) {cp : Option (List Nat)} (he : reorderLabels cfg m none cp = some m') :
    RowsH m'.parts rl ∧ LensOk rl m'.rowLens := by
  unfold reorderLabels reorderRowsStep at he
  simp only [Option.bind_some] at he
  obtain ⟨⟨g, cols, cw⟩, h1, h2⟩ := Option.bind_eq_some_iff.1 he
  refine mk'_rows h2 ?_ hc
  simp only
  cases cp with
  | none => cases h1; exact h
  | some ps =>
    simp only [reorderColsStep] at h1
    obtain ⟨g1, hg1, h1⟩ := Option.bind_eq_some_iff.1 h1
    obtain ⟨c1, _, h1⟩ := Option.bind_eq_some_iff.1 h1
    obtain ⟨c2, _, h1⟩ := Option.map_eq_some_iff.1 h1
    cases h1
    unfold mapAxisPartitions at hg1
    simp only [Option.isSome_none, Bool.and_false, Bool.false_eq_true, ↓reduceIte, Option.bind_eq_bind, Option.pure_def,
      Option.bind_eq_some_iff, Option.some.injEq] at hg1
    obtain ⟨g2, hg2, rfl⟩ := hg1
    exact mapM_rows h hg2 fun row n r hn hr => deployAxis_nrows (by intro a b hab; cases hab; rfl) hr hn

theorem maskThenReorder_rows [DecidableEq ι] [DecidableEq κ] {cfg : Cfg} {m m' : MFrame ι κ α} {rl : List Nat} (h : RowsH m.parts rl)
    (hc : LensOk rl m.rowLens) {known : Nat → Nat → Bool × Bool} {cp : Option Positions}
    (he : maskThenReorder cfg known m none cp = some m') : RowsH m'.parts rl ∧ LensOk rl m'.rowLens := by
  unfold maskThenReorder at he
  obtain ⟨im, h1, he⟩ := Option.bind_eq_some_iff.1 he
  obtain ⟨a, b⟩ := takeByMask_rows h hc h1
  split at he
  · cases he; exact ⟨a, b⟩
  · exact reorderLabels_rows a b he

/-- **Selecting columns keeps the row partitions**, unless empty ones are recorded. -/
theorem take2d_cols_rows [DecidableEq ι] [DecidableEq κ] {cfg : Cfg} {m m' : LFrame ι κ α} {rl : List Nat} (h : RowsH m.parts rl)
    (hc : LensOk rl m.rowLens) {known : Nat → Nat → Bool × Bool} {cp : Option Positions}
    (he : m.take2d cfg known none cp = some m') : RowsH m'.parts rl ∧ LensOk rl m'.rowLens := by
  unfold LFrame.take2d at he
  simp only [show ∀ n, normPositions n none = none from fun _ => rfl] at he
  split at he
  · unfold LFrame.copy at he
    obtain ⟨r, hr, he⟩ := Option.map_eq_some_iff.1 he
    cases he
    exact mk'_rows hr h hc
  · split at he
    · rename_i hj
      simp [jumps] at hj
    · obtain ⟨r, hr, he⟩ := Option.map_eq_some_iff.1 he
      cases he
      exact maskThenReorder_rows h hc hr

theorem relabel_nrows {idx : Option (List ι)} {cols : Option (List κ)} {p q : Nat × Nat} {b r : Frame ι κ α}
    (h : relabel idx cols p q b = some r) : r.nrows = b.nrows := by
  unfold relabel at h
  obtain ⟨b1, h1, h⟩ := Option.bind_eq_some_iff.1 h
  have e1 : b1.nrows = b.nrows := by
    cases idx with
    | none => cases h1; rfl
    | some i =>
      simp only [Frame.setIndex] at h1
      split at h1
      · rename_i hl; cases h1; exact hl
      · cases h1
  rw [← e1]
  cases cols with
  | none => cases h; rfl
  | some c =>
    simp only [Frame.setColumns] at h
    split at h
    · cases h; rfl
    · cases h

theorem propagate_rows {m m' : LFrame ι κ α} {rl : List Nat} (h : RowsH m.parts rl) (hc : LensOk rl m.rowLens) {ax0 ax1 : Bool}
    (he : m.propagate ax0 ax1 = some m') : RowsH m'.parts rl ∧ LensOk rl m'.rowLens := by
  obtain ⟨a, b⟩ := filterEmpties_rows h hc
  unfold LFrame.propagate at he
  simp only at he
  split at he
  · rename_i hle
    obtain ⟨g, hg, he⟩ := Option.map_eq_some_iff.1 he
    cases he
    refine ⟨?_, b⟩
    simp only
    rw [rowsH_iff] at a ⊢
    have hl := mapM_length_eq hg
    rw [List.length_zip, Nat.min_eq_left hle.1] at hl
    refine ⟨by rw [hl]; exact a.1, ?_⟩
    intro i row n h1 h2 bb hb
    rw [mapM_at hg] at h1
    obtain ⟨⟨row0, pq⟩, hz, h1⟩ := Option.bind_eq_some_iff.1 h1
    obtain ⟨hz1, _⟩ := List.getElem?_zip_eq_some.1 hz
    obtain ⟨⟨b0, q⟩, hmem, hr⟩ := mapM_mem h1 hb
    rw [relabel_nrows hr]
    exact a.2 i row0 n hz1 h2 b0 (List.of_mem_zip hmem).1
  · cases he

theorem synced_rows {m m' : LFrame ι κ α} {rl : List Nat} (h : RowsH m.parts rl) (hc : LensOk rl m.rowLens)
    (he : m.synced = some m') : RowsH m'.parts rl ∧ LensOk rl m'.rowLens := by
  unfold LFrame.synced at he
  split at he
  · exact propagate_rows h hc he
  · split at he
    · exact propagate_rows h hc he
    · split at he
      · exact propagate_rows h hc he
      · cases he; exact ⟨h, hc⟩
