import Verif.Model.Labels
import Verif.Lemmas.Select
import Verif.Props.MapPlans
/-
Lemmas about deferred labels and transposition.
-/

variable {ι κ α β : Type}

/-- `m` stands for the pandas frame `df`: the cells in the blocks are those of `df`, the recorded labels are those of
    `df`, and the labels in the blocks are those of `df` along the axes whose flag is not set. -/
structure LFrame.Shows (m : LFrame ι κ α) (df : Frame ι κ α) : Prop where
  wf : df.WF
  blocks : ∃ (df0 : Frame ι κ α) (rl cw : List Nat), df0.WF ∧ df0.rows = df.rows ∧ df0.columns.length = df.columns.length ∧
    df0.IsCut rl cw ∧ m.parts = df0.cut rl cw ∧ (m.rowLens = none ∨ m.rowLens = some rl) ∧
    (m.colWidths = none ∨ m.colWidths = some cw) ∧ (m.defIndex = false → df0.index = df.index) ∧
    (m.defColumns = false → df0.columns = df.columns)
  index : (m.index = none ∧ m.defIndex = false) ∨ m.index = some df.index
  columns : (m.columns = none ∧ m.defColumns = false) ∨ m.columns = some df.columns

theorem filterEmpties_blocks {m : MFrame ι κ α} {df : Frame ι κ α} {rl cw : List Nat} (hc : df.IsCut rl cw)
    (hp : m.parts = df.cut rl cw) (hrl : m.rowLens = none ∨ m.rowLens = some rl) (hcw : m.colWidths = none ∨ m.colWidths = some cw) :
    ∃ rl' cw', df.IsCut rl' cw' ∧ (filterEmpties m).parts = df.cut rl' cw' ∧
      ((filterEmpties m).rowLens = none ∨ (filterEmpties m).rowLens = some rl') ∧
      ((filterEmpties m).colWidths = none ∨ (filterEmpties m).colWidths = some cw') ∧
      (filterEmpties m).index = m.index ∧ (filterEmpties m).columns = m.columns := by
  unfold filterEmpties
  split
  · rename_i rl' cw' h1 h2
    split
    · exact ⟨rl, cw, hc, hp, hrl, hcw, rfl, rfl⟩
    · rename_i hz
      have e1 : rl' = rl := by rcases hrl with h | h <;> rw [h1] at h <;> cases h; rfl
      have e2 : cw' = cw := by rcases hcw with h | h <;> rw [h2] at h <;> cases h; rfl
      subst e1; subst e2
      simp only [Bool.or_eq_true, beq_iff_eq, not_or] at hz
      refine ⟨rl'.filter (· ≠ 0), cw'.filter (· ≠ 0), ⟨?_, ?_, ?_, ?_⟩, ?_, Or.inr rfl, Or.inr rfl, rfl, rfl⟩
      · intro he
        have := filter_nonzero_sum rl'
        rw [he] at this
        exact hz.1.2 (by simpa using this.symm)
      · intro he
        have := filter_nonzero_sum cw'
        rw [he] at this
        exact hz.2 (by simpa using this.symm)
      · rw [filter_nonzero_sum, hc.rl_sum]
      · rw [filter_nonzero_sum, hc.cw_sum]
      · simp only; rw [hp, keepNonzero_cut]
  · exact ⟨rl, cw, hc, hp, hrl, hcw, rfl, rfl⟩

theorem pySlice_len {τ : Type} (l : List τ) (i j : Nat) : (pySlice l i j).length = min (j - i) (l.length - i) := by
  simp [pySlice]

theorem isCut_congr {ι' κ' β' : Type} {f : Frame ι κ α} {g : Frame ι' κ' β'} {rl cw : List Nat} (h : f.IsCut rl cw) (h1 : f.index.length = g.index.length)
    (h2 : f.columns.length = g.columns.length) : g.IsCut rl cw :=
  ⟨h.rl_ne, h.cw_ne, by rw [h.rl_sum]; exact h1, by rw [h.cw_sum]; exact h2⟩

theorem map_zip_self {τ σ : Type} (f : τ → σ) (l : List τ) : (l.map f).zip l = l.map fun x => (f x, x) := by
  induction l with
  | nil => rfl
  | cons x xs ih => simp [ih]

theorem relabel_block {df0 df : Frame ι κ α} (h1 : df0.index.length = df.index.length) (h2 : df0.columns.length = df.columns.length)
    (ax0 ax1 : Bool) (p q : Nat × Nat) :
    relabel (if ax0 then some df.index else none) (if ax1 then some df.columns else none) p q
      ((df0.ilocRows p.1 p.2).ilocCols q.1 q.2) =
    some (((Frame.mk (if ax0 then df.index else df0.index) (if ax1 then df.columns else df0.columns) df0.rows).ilocRows p.1 p.2).ilocCols q.1 q.2) := by
  unfold relabel Frame.setIndex Frame.setColumns Frame.ilocRows Frame.ilocCols
  cases ax0 <;> cases ax1 <;> simp [pySlice_len, h1, h2]

theorem propagate_shows {m : LFrame ι κ α} {df : Frame ι κ α} (h : m.Shows df) (ax0 ax1 : Bool)
    (hi : m.getIndex = df.index ∨ ax0 = false) (hcl : m.getColumns = df.columns ∨ ax1 = false) :
    ∃ m', m.propagate ax0 ax1 = some m' ∧ m'.Shows df ∧ m'.defIndex = (m.defIndex && !ax0) ∧
      m'.defColumns = (m.defColumns && !ax1) ∧ m'.index = m.index ∧ m'.columns = m.columns := by
  obtain ⟨df0, rl, cw, hwf0, hrows, hcolsl, hc, hp, hrl, hcw, hI, hC⟩ := h.blocks
  have hidl : df0.index.length = df.index.length := by rw [← hwf0.rows_len, ← h.wf.rows_len, hrows]
  obtain ⟨rl', cw', hc', hp', hrl', hcw', hi', hcl'⟩ := filterEmpties_blocks hc hp hrl hcw
  have hlen : (filterEmpties m.toMFrame).getRowLens = rl' := getRowLens_cut hc' hp' hrl'
  have hwid : (filterEmpties m.toMFrame).getColWidths = cw' := getColWidths_cut hc' hp' hcw'
  have hgi : (filterEmpties m.toMFrame).getIndex = m.toMFrame.getIndex := by
    unfold MFrame.getIndex
    rw [hi']
    cases m.index with
    | some i => rfl
    | none => simp only; rw [hp', hp, gridIndex_cut hc', gridIndex_cut hc]
  have hgc : (filterEmpties m.toMFrame).getColumns = m.toMFrame.getColumns := by
    unfold MFrame.getColumns
    rw [hcl']
    cases m.columns with
    | some i => rfl
    | none => simp only; rw [hp', hp, gridColumns_cut hc', gridColumns_cut hc]
  have hstep : ((filterEmpties m.toMFrame).parts.zip (sliceBounds (filterEmpties m.toMFrame).getRowLens)).mapM
      (fun (rp : List (Frame ι κ α) × (Nat × Nat)) => (rp.1.zip (sliceBounds (filterEmpties m.toMFrame).getColWidths)).mapM fun bq =>
        relabel (if ax0 then some (filterEmpties m.toMFrame).getIndex else none)
          (if ax1 then some (filterEmpties m.toMFrame).getColumns else none) rp.2 bq.2 bq.1) =
      some ((Frame.mk (if ax0 then df.index else df0.index) (if ax1 then df.columns else df0.columns) df0.rows).cut rl' cw') := by
    have e1 : (if ax0 then some (filterEmpties m.toMFrame).getIndex else none) = (if ax0 then some df.index else none) := by
      rcases hi with hi | hi
      · rw [hgi, hi]
      · simp [hi]
    have e2 : (if ax1 then some (filterEmpties m.toMFrame).getColumns else none) = (if ax1 then some df.columns else none) := by
      rcases hcl with hcl | hcl
      · rw [hgc, hcl]
      · simp [hcl]
    rw [e1, e2, hlen, hwid, hp']
    unfold Frame.cut
    rw [map_zip_self]
    apply mapM_map_some
    intro p _
    simp only
    rw [map_zip_self]
    apply mapM_map_some
    intro q _
    exact relabel_block hidl hcolsl ax0 ax1 p q
  have hle : (filterEmpties m.toMFrame).parts.length ≤ (sliceBounds (filterEmpties m.toMFrame).getRowLens).length ∧
      (filterEmpties m.toMFrame).parts.all
        (fun row => row.length ≤ (sliceBounds (filterEmpties m.toMFrame).getColWidths).length) = true := by
    rw [hlen, hwid, hp']
    refine ⟨by simp [Frame.cut], ?_⟩
    rw [List.all_eq_true]
    intro row hrow
    simp only [Frame.cut, List.mem_map] at hrow
    obtain ⟨p, _, rfl⟩ := hrow
    simp
  unfold LFrame.propagate
  simp only
  rw [if_pos hle, hstep, Option.map_some]
  refine ⟨_, rfl, ⟨h.wf, ⟨Frame.mk (if ax0 then df.index else df0.index) (if ax1 then df.columns else df0.columns) df0.rows, rl', cw',
    ⟨?_, ?_⟩, hrows, ?_, isCut_congr hc' ?_ ?_, rfl, hrl', hcw', ?_, ?_⟩, ?_, ?_⟩, rfl, rfl, hi', hcl'⟩
  · cases ax0
    · exact hwf0.rows_len
    · simp only [↓reduceIte]; rw [hrows]; exact h.wf.rows_len
  · intro r hr
    have := hwf0.row_width r hr
    cases ax1
    · exact this
    · simp only [↓reduceIte]; rw [this]; exact hcolsl
  · cases ax1 <;> simp [hcolsl]
  · cases ax0 <;> simp [hidl]
  · cases ax1 <;> simp [hcolsl]
  · simp only [Bool.and_eq_false_iff, Bool.not_eq_false']
    rintro (hd | rfl)
    · rw [hI hd]; simp
    · simp
  · simp only [Bool.and_eq_false_iff, Bool.not_eq_false']
    rintro (hd | rfl)
    · rw [hC hd]; simp
    · simp
  · simp only [hi']
    rcases h.index with ⟨h1, h2⟩ | h1
    · exact Or.inl ⟨h1, by simp [h2]⟩
    · exact Or.inr h1
  · simp only [hcl']
    rcases h.columns with ⟨h1, h2⟩ | h1
    · exact Or.inl ⟨h1, by simp [h2]⟩
    · exact Or.inr h1

theorem shows_index_known {m : LFrame ι κ α} {df : Frame ι κ α} (h : m.Shows df) (hd : m.defIndex = true) : m.getIndex = df.index := by
  rcases h.index with ⟨_, h2⟩ | h1
  · rw [hd] at h2; cases h2
  · unfold MFrame.getIndex; rw [h1]

theorem shows_columns_known {m : LFrame ι κ α} {df : Frame ι κ α} (h : m.Shows df) (hd : m.defColumns = true) :
    m.getColumns = df.columns := by
  rcases h.columns with ⟨_, h2⟩ | h1
  · rw [hd] at h2; cases h2
  · unfold MFrame.getColumns; rw [h1]

theorem shows_represents {m : LFrame ι κ α} {df : Frame ι κ α} (h : m.Shows df) (h1 : m.defIndex = false) (h2 : m.defColumns = false) :
    m.toMFrame.Represents df := by
  obtain ⟨df0, rl, cw, hwf0, hrows, _, hc, hp, hrl, hcw, hI, hC⟩ := h.blocks
  have : df0 = df := by
    have a := hI h1
    have b := hC h2
    cases df0; cases df
    simp_all
  subst this
  exact ⟨h.wf, ⟨rl, cw, hc, hp, hrl, hcw⟩, h.index.imp_left (·.1), h.columns.imp_left (·.1)⟩

theorem represents_shows {m : MFrame ι κ α} {df : Frame ι κ α} (h : m.Represents df) :
    LFrame.Shows { m with defIndex := false, defColumns := false } df := by
  obtain ⟨rl, cw, hc, hp, hrl, hcw⟩ := h.blocks
  exact ⟨h.wf, ⟨df, rl, cw, h.wf, rfl, rfl, hc, hp, hrl, hcw, fun _ => rfl, fun _ => rfl⟩, h.index.imp_left (⟨·, rfl⟩),
    h.columns.imp_left (⟨·, rfl⟩)⟩

theorem synced_spec {m : LFrame ι κ α} {df : Frame ι κ α} (h : m.Shows df) :
    ∃ m', m.synced = some m' ∧ m'.toMFrame.Represents df := by
  unfold LFrame.synced
  cases hd0 : m.defIndex <;> cases hd1 : m.defColumns
  · exact ⟨m, by simp, shows_represents h hd0 hd1⟩
  · obtain ⟨m', e1, e2, e3, e4, _⟩ := propagate_shows h false true (Or.inr rfl) (Or.inl (shows_columns_known h hd1))
    exact ⟨m', by simpa using e1, shows_represents e2 (by rw [e3, hd0]; rfl) (by rw [e4]; simp)⟩
  · obtain ⟨m', e1, e2, e3, e4, _⟩ := propagate_shows h true false (Or.inl (shows_index_known h hd0)) (Or.inr rfl)
    exact ⟨m', by simpa using e1, shows_represents e2 (by rw [e3]; simp) (by rw [e4, hd1]; rfl)⟩
  · obtain ⟨m', e1, e2, e3, e4, _⟩ := propagate_shows h true true (Or.inl (shows_index_known h hd0))
      (Or.inl (shows_columns_known h hd1))
    exact ⟨m', by simpa using e1, shows_represents e2 (by rw [e3]; simp) (by rw [e4]; simp)⟩

/-! ### the operations -/

theorem setIndex_shows {m : LFrame ι κ α} {df df' : Frame ι κ α} (h : m.Shows df) (labels : List ι) (hd : df.setIndex labels = some df') :
    ∃ m', m.setIndex labels = some m' ∧ m'.Shows df' := by
  unfold Frame.setIndex at hd
  split at hd
  · rename_i hl
    cases hd
    refine ⟨_, if_pos ?_, ?_⟩
    · rcases h.index with ⟨h1, _⟩ | h1 <;> simp [h1, hl]
    · obtain ⟨df0, rl, cw, hwf0, hrows, hcl, hc, hp, hrl, hcw, hI, hC⟩ := h.blocks
      refine ⟨⟨?_, h.wf.row_width⟩, ⟨df0, rl, cw, hwf0, hrows, hcl, hc, hp, hrl, hcw, by simp, hC⟩, Or.inr rfl, h.columns⟩
      simp only
      rw [h.wf.rows_len, hl]
  · cases hd

theorem setColumns_shows [DecidableEq κ] {m : LFrame ι κ α} {df df' : Frame ι κ α} (h : m.Shows df) (labels : List κ)
    (hd : df.setColumns labels = some df') : ∃ m', m.setColumns labels = some m' ∧ m'.Shows df' := by
  unfold Frame.setColumns at hd
  split at hd
  · rename_i hl
    cases hd
    unfold LFrame.setColumns
    split
    · rename_i heq
      refine ⟨m, rfl, ?_⟩
      have : df.columns = labels := by
        rcases h.columns with ⟨h1, _⟩ | h1
        · rw [heq] at h1; cases h1
        · rw [heq] at h1; exact (Option.some.inj h1).symm
      have : ({ df with columns := labels } : Frame ι κ α) = df := by cases df; simp_all
      rw [this]; exact h
    · refine ⟨_, if_pos ?_, ?_⟩
      · rcases h.columns with ⟨h1, _⟩ | h1 <;> simp [h1, hl]
      · obtain ⟨df0, rl, cw, hwf0, hrows, hcl, hc, hp, hrl, hcw, hI, hC⟩ := h.blocks
        refine ⟨⟨h.wf.rows_len, ?_⟩, ⟨df0, rl, cw, hwf0, hrows, ?_, hc, hp, hrl, hcw, hI, by simp⟩, h.index, Or.inr rfl⟩
        · intro r hr
          rw [h.wf.row_width r hr]; exact hl.symm
        · simp only [hcl, hl]
  · cases hd

/-- the checks of the constructor succeed, and dropping empty blocks keeps what is shown -/
theorem mk'_shows {m : LFrame ι κ α} {df : Frame ι κ α} (h : m.Shows df) :
    ∃ r, m.toMFrame.mk' = some r ∧ LFrame.Shows { r with defIndex := m.defIndex, defColumns := m.defColumns } df := by
  obtain ⟨df0, rl, cw, hwf0, hrows, hcolsl, hc, hp, hrl, hcw, hI, hC⟩ := h.blocks
  have hidl : df0.index.length = df.index.length := by rw [← hwf0.rows_len, ← h.wf.rows_len, hrows]
  have hc2 : df.IsCut rl cw := isCut_congr hc hidl hcolsl
  obtain ⟨rl', cw', hc', hp', hrl', hcw', hi', hcl'⟩ := filterEmpties_blocks hc hp hrl hcw
  refine ⟨filterEmpties m.toMFrame, if_pos ?_, ⟨h.wf, ⟨df0, rl', cw', hwf0, hrows, hcolsl, hc', hp', hrl', hcw', hI, hC⟩, ?_, ?_⟩⟩
  · have v1 : validAxis m.rowLens m.index = true := by
      unfold validAxis
      rcases hrl with h1 | h1 <;> rcases h.index with ⟨h2, _⟩ | h2 <;> simp only [h1, h2]
      have := hc2.rl_sum
      unfold Frame.nrows at this
      rw [this]; simp
    have v2 : validAxis m.colWidths m.columns = true := by
      unfold validAxis
      rcases hcw with h1 | h1 <;> rcases h.columns with ⟨h2, _⟩ | h2 <;> simp only [h1, h2]
      have := hc2.cw_sum
      unfold Frame.ncols at this
      rw [this]; simp
    rw [v1, v2]; rfl
  · simp only [hi']; exact h.index
  · simp only [hcl']; exact h.columns

theorem copy_shows {m : LFrame ι κ α} {df : Frame ι κ α} (h : m.Shows df) : ∃ m', m.copy = some m' ∧ m'.Shows df := by
  obtain ⟨r, e1, e2⟩ := mk'_shows h
  exact ⟨_, by unfold LFrame.copy; rw [e1]; rfl, e2⟩

theorem mapCells_shows [DecidableEq ι] [DecidableEq κ] (cfg : Cfg) (dyn : Bool) (cpu : Nat) (g : α → β) {m : LFrame ι κ α}
    {df : Frame ι κ α} (h : m.Shows df) :
    ∃ m', m.mapBlocks cfg dyn cpu (Frame.mapCells g) = some m' ∧ m'.Shows (df.mapCells g) := by
  obtain ⟨df0, rl, cw, hwf0, hrows, hcolsl, hc, hp, hrl, hcw, hI, hC⟩ := h.blocks
  have hm := (C04_elementwise_every_plan cfg dyn cpu g df0 hwf0 rl cw hc).1
  have hs : LFrame.Shows (LFrame.mk (MFrame.mk ((df0.mapCells g).cut rl cw) m.index m.columns m.rowLens m.colWidths) m.defIndex m.defColumns)
      (df.mapCells g) := by
    refine ⟨h.wf.mapCells g, ⟨df0.mapCells g, rl, cw, hwf0.mapCells g, ?_, hcolsl, isCut_congr hc rfl rfl, rfl, hrl, hcw, hI, hC⟩,
      h.index, h.columns⟩
    simp [Frame.mapCells, hrows]
  obtain ⟨r, e1, e2⟩ := mk'_shows hs
  refine ⟨_, ?_, e2⟩
  unfold LFrame.mapBlocks
  rw [hp, hm, Option.bind_some, e1]
  rfl

/-! ### transposition -/

theorem pySlice_getElem? {τ : Type} (l : List τ) (i j k : Nat) : (pySlice l i j)[k]? = if k < j - i then l[i + k]? else none := by
  simp [pySlice, List.getElem?_take, List.getElem?_drop]

theorem pySlice_map' {τ σ : Type} (f : τ → σ) (l : List τ) (i j : Nat) : pySlice (l.map f) i j = (pySlice l i j).map f := by
  simp [pySlice, List.map_take, List.map_drop]

theorem pySlice_range (n i j : Nat) : pySlice (List.range n) i j = (List.range (min (j - i) (n - i))).map (i + ·) := by
  apply List.ext_getElem?
  intro k
  rw [pySlice_getElem?]
  rw [List.getElem?_map]
  by_cases h1 : k < j - i
  · rw [if_pos h1]
    by_cases h2 : i + k < n
    · rw [List.getElem?_range h2, List.getElem?_range (by omega)]; rfl
    · rw [List.getElem?_eq_none (by simpa using h2), List.getElem?_eq_none (by simp; omega)]; rfl
  · rw [if_neg h1, List.getElem?_eq_none (by simp; omega)]; rfl

/-- the column at position `j` -/
theorem filterMap_col {rows : List (List α)} {n j : Nat} (h : ∀ r ∈ rows, r.length = n) (hj : j < n) :
    (rows.filterMap (·[j]?)).length = rows.length ∧ ∀ i : Nat, (rows.filterMap (·[j]?))[i]? = rows[i]?.bind fun (r : List α) => r[j]? := by
  induction rows with
  | nil => simp
  | cons r rows ih =>
    have hr := h r (by simp)
    obtain ⟨h1, h2⟩ := ih fun r' h' => h r' (by simp [h'])
    have : r[j]? = some (r[j]'(by omega)) := List.getElem?_eq_getElem (by omega)
    simp only [List.filterMap_cons, this]
    refine ⟨by simp [h1], ?_⟩
    intro i
    cases i with
    | zero => simp [this]
    | succ i => simpa using h2 i

theorem Frame.WF.transpose {f : Frame ι κ α} (h : f.WF) : f.transpose.WF := by
  refine ⟨by simp [Frame.transpose, Frame.ncols], ?_⟩
  intro r hr
  simp only [Frame.transpose, List.mem_map, List.mem_range] at hr ⊢
  obtain ⟨j, hj, rfl⟩ := hr
  rw [(filterMap_col h.row_width hj).1, h.rows_len]

theorem pySlice_filterMap_total {τ σ : Type} (f : τ → Option σ) (l : List τ) (h : ∀ x ∈ l, (f x).isSome) (i j : Nat) :
    (pySlice l i j).filterMap f = pySlice (l.filterMap f) i j := by
  have : ∃ g : τ → Option σ, True := ⟨f, trivial⟩
  have hg : ∀ l : List τ, (∀ x ∈ l, (f x).isSome) → ∀ n, (l.take n).filterMap f = (l.filterMap f).take n ∧
      (l.drop n).filterMap f = (l.filterMap f).drop n := by
    intro l
    induction l with
    | nil => intro _ n; simp
    | cons x xs ih =>
      intro hx n
      obtain ⟨y, hy⟩ := Option.isSome_iff_exists.1 (hx x (by simp))
      cases n with
      | zero => simp
      | succ n =>
        have := ih (fun z hz => hx z (by simp [hz])) n
        simp only [List.take_succ_cons, List.drop_succ_cons, List.filterMap_cons, hy, this.1, this.2, and_self]
  unfold pySlice
  rw [(hg _ (fun x hx => h x (List.mem_of_mem_drop hx)) _).1, (hg l h i).2]

theorem transpose_block {f : Frame ι κ α} (h : f.WF) (p q : Nat × Nat) :
    ((f.ilocRows p.1 p.2).ilocCols q.1 q.2).transpose = (f.transpose.ilocRows q.1 q.2).ilocCols p.1 p.2 := by
  unfold Frame.transpose Frame.ilocRows Frame.ilocCols Frame.ncols
  simp only [Frame.mk.injEq, true_and]
  rw [pySlice_map', pySlice_range, pySlice_len, List.map_map, List.map_map]
  apply List.map_congr_left
  intro j hj
  simp only [List.mem_range, Function.comp] at hj ⊢
  rw [List.filterMap_map, ← pySlice_filterMap_total]
  · apply filterMap_congr'
    intro r _
    simp only [Function.comp]
    rw [pySlice_getElem?, if_pos (by omega)]
  · intro r hr
    rw [List.getElem?_eq_getElem (by rw [h.row_width r hr]; omega)]
    rfl

theorem transpose_cut {f : Frame ι κ α} (h : f.WF) {rl cw : List Nat} (hc : f.IsCut rl cw) :
    colBlocks ((f.cut rl cw).map fun row => row.map Frame.transpose) = f.transpose.cut cw rl := by
  unfold Frame.cut
  simp only [List.map_map, Function.comp_def]
  rw [colBlocks_matrix _ _ _ (sliceBounds_ne_nil hc.rl_ne)]
  simp only [transpose_block h]

theorem transpose_shows {m : LFrame ι κ α} {df : Frame ι κ α} (h : m.Shows df) :
    ∃ m', m.transpose = some m' ∧ m'.Shows df.transpose := by
  obtain ⟨df0, rl, cw, hwf0, hrows, hcolsl, hc, hp, hrl, hcw, hI, hC⟩ := h.blocks
  have hidl : df0.index.length = df.index.length := by rw [← hwf0.rows_len, ← h.wf.rows_len, hrows]
  have hs : LFrame.Shows (LFrame.mk (MFrame.mk (df0.transpose.cut cw rl) m.columns m.index m.colWidths m.rowLens) m.defColumns m.defIndex)
      df.transpose := by
    refine ⟨h.wf.transpose, ⟨df0.transpose, cw, rl, hwf0.transpose, ?_, hidl, ⟨hc.cw_ne, hc.rl_ne, hc.cw_sum, hc.rl_sum⟩, rfl, hcw, hrl, hC, hI⟩,
      h.columns, h.index⟩
    simp only [Frame.transpose, Frame.ncols, hrows, hcolsl]
  obtain ⟨r, e1, e2⟩ := mk'_shows hs
  refine ⟨_, ?_, e2⟩
  unfold LFrame.transpose
  rw [hp, transpose_cut hwf0 hc, e1]
  rfl

theorem transpose_transpose {f : Frame ι κ α} (h : f.WF) : f.transpose.transpose = f := by
  have hrows : f.transpose.transpose.rows = f.rows := by
    apply List.ext_getElem?
    intro i
    simp only [Frame.transpose, Frame.ncols, List.getElem?_map, List.getElem?_range]
    by_cases hi : i < f.index.length
    · have hi' : i < f.rows.length := by rw [h.rows_len]; exact hi
      rw [List.getElem?_range hi, Option.map_some, List.getElem?_eq_getElem hi', Option.some_inj]
      apply List.ext_getElem?
      intro j
      have hw := (h.transpose).row_width
      have := filterMap_col hw (j := i) (by simpa [Frame.transpose] using hi)
      rw [show (List.map (fun j => List.filterMap (fun x => x[j]?) f.rows) (List.range f.columns.length)) = f.transpose.rows from rfl,
        this.2 j]
      simp only [Frame.transpose, Frame.ncols, List.getElem?_map]
      have hwr := h.row_width f.rows[i] (List.getElem_mem hi')
      by_cases hj : j < f.columns.length
      · rw [List.getElem?_range hj, Option.map_some, Option.bind_some, (filterMap_col h.row_width hj).2 i,
          List.getElem?_eq_getElem hi', Option.bind_some]
      · rw [List.getElem?_eq_none (by simpa using hj), List.getElem?_eq_none (by omega)]
        rfl
    · rw [List.getElem?_eq_none (by simpa using hi), List.getElem?_eq_none (by rw [h.rows_len]; omega)]
      rfl
  cases f
  simp only [Frame.transpose, Frame.mk.injEq, true_and] at hrows ⊢
  exact hrows

/-! ### selection by position on blocks whose labels are out of date -/

/-- `m` has the blocks and divisions of `m0` and the labels of `m1` -/
structure Mixed (m m0 m1 : MFrame ι κ α) : Prop where
  parts : m.parts = m0.parts
  rl : m.rowLens = m0.rowLens
  cw : m.colWidths = m0.colWidths
  idx : m.index = m1.index
  cols : m.columns = m1.columns
  il : m.index.map List.length = m0.index.map List.length
  cl : m.columns.map List.length = m0.columns.map List.length

structure MixedFull (m m0 m1 : MFrame ι κ α) : Prop extends Mixed m m0 m1 where
  gi : m.getIndex = m1.getIndex
  gc : m.getColumns = m1.getColumns
  gil : m.getIndex.length = m0.getIndex.length
  gcl : m.getColumns.length = m0.getColumns.length

theorem Mixed.full {m m0 m1 : MFrame ι κ α} (h : Mixed m m0 m1) {df0 df : Frame ι κ α} (h0 : m0.Represents df0)
    (h1 : m1.Represents df) (hl : df0.index.length = df.index.length) (hc : df0.columns.length = df.columns.length)
    (hi : m.index = none → df0.index = df.index) (hcl : m.columns = none → df0.columns = df.columns) : MixedFull m m0 m1 := by
  have gi : m.getIndex = df.index := by
    have g0 := h0.getIndex
    have g1 := h1.getIndex
    cases hm : m.index with
    | some i =>
      unfold MFrame.getIndex at g1 ⊢
      rw [hm]
      rw [← h.idx, hm] at g1
      exact g1
    | none =>
      have e0 : m0.index = none := by simpa [hm] using h.il.symm
      unfold MFrame.getIndex at g0 ⊢
      rw [e0] at g0
      rw [hm]
      simp only at g0 ⊢
      rw [h.parts, g0, hi hm]
  have gc : m.getColumns = df.columns := by
    have g0 := h0.getColumns
    have g1 := h1.getColumns
    cases hm : m.columns with
    | some i =>
      unfold MFrame.getColumns at g1 ⊢
      rw [hm]
      rw [← h.cols, hm] at g1
      exact g1
    | none =>
      have e0 : m0.columns = none := by simpa [hm] using h.cl.symm
      unfold MFrame.getColumns at g0 ⊢
      rw [e0] at g0
      rw [hm]
      simp only at g0 ⊢
      rw [h.parts, g0, hcl hm]
  exact { h with
    gi := by rw [gi, h1.getIndex]
    gc := by rw [gc, h1.getColumns]
    gil := by rw [gi, h0.getIndex, hl]
    gcl := by rw [gc, h0.getColumns, hc] }

theorem Mixed.getRowLens {m m0 m1 : MFrame ι κ α} (h : Mixed m m0 m1) : m.getRowLens = m0.getRowLens := by
  unfold MFrame.getRowLens; rw [h.rl, h.parts]

theorem Mixed.getColWidths {m m0 m1 : MFrame ι κ α} (h : Mixed m m0 m1) : m.getColWidths = m0.getColWidths := by
  unfold MFrame.getColWidths; rw [h.cw, h.parts]

theorem filterEmpties_mixed (m m0 m1 : MFrame ι κ α) (h : Mixed m m0 m1) : Mixed (filterEmpties m) (filterEmpties m0) (filterEmpties m1) := by
  have li : ∀ (a : MFrame ι κ α), (filterEmpties a).index = a.index ∧ (filterEmpties a).columns = a.columns := by
    intro a; unfold filterEmpties; split
    · split <;> exact ⟨rfl, rfl⟩
    · exact ⟨rfl, rfl⟩
  have any_len : ∀ {τ : Type} (o o' : Option (List τ)), o.map List.length = o'.map List.length →
      o.any (·.length == 0) = o'.any (·.length == 0) := by
    intro τ o o' ho
    cases o <;> cases o' <;> simp at ho ⊢
    rw [ho]
  have key : (filterEmpties m).parts = (filterEmpties m0).parts ∧ (filterEmpties m).rowLens = (filterEmpties m0).rowLens ∧
      (filterEmpties m).colWidths = (filterEmpties m0).colWidths := by
    unfold filterEmpties
    rw [h.rl, h.cw, any_len _ _ h.il, any_len _ _ h.cl]
    split
    · split
      · exact ⟨h.parts, h.rl, h.cw⟩
      · simp only [h.parts, and_self]
    · exact ⟨h.parts, h.rl, h.cw⟩
  exact ⟨key.1, key.2.1, key.2.2, by rw [(li m).1, (li m1).1, h.idx], by rw [(li m).2, (li m1).2, h.cols],
    by rw [(li m).1, (li m0).1, h.il], by rw [(li m).2, (li m0).2, h.cl]⟩

theorem validAxis_len {τ : Type} (l : Option (List Nat)) {o o' : Option (List τ)} (h : o.map List.length = o'.map List.length) :
    validAxis l o = validAxis l o' := by
  cases o <;> cases o' <;> cases l <;> simp_all [validAxis]

theorem mk'_mixed {m m0 m1 r0 r1 : MFrame ι κ α} (h : Mixed m m0 m1) (h0 : m0.mk' = some r0) (h1 : m1.mk' = some r1) :
    ∃ r, m.mk' = some r ∧ Mixed r r0 r1 := by
  unfold MFrame.mk' at h0 h1
  split at h0
  · rename_i hv
    split at h1
    · cases h0; cases h1
      refine ⟨_, if_pos ?_, filterEmpties_mixed m m0 m1 h⟩
      rw [h.rl, h.cw, validAxis_len _ h.il, validAxis_len _ h.cl]
      exact hv
    · cases h1
  · cases h0

theorem checkedTake_len {τ : Type} {l l' lab' : List τ} {ps : List Nat} (hl : l.length = l'.length) (h : checkedTake l' ps = some lab') :
    ∃ lab, checkedTake l ps = some lab ∧ lab.length = lab'.length := by
  unfold checkedTake at h ⊢
  rw [hl]
  split at h
  · rename_i hv
    cases h
    rw [if_pos hv]
    refine ⟨_, rfl, ?_⟩
    simp only [List.all_eq_true, decide_eq_true_eq] at hv
    rw [takeList_length (by rw [hl]; exact hv), takeList_length hv]
  · cases h

/-- the labels chosen along an axis -/
def axisLabels {τ : Type} (labels : List τ) (cache : Option (List τ)) : Option Positions → Option (List τ)
  | some p => newLabels labels (sortedPositions p)
  | none => cache

theorem maskAxisPlan_labels {τ : Type} {lens : List Nat} {lc : Option (List Nat)} {labels : List τ} {cache : Option (List τ)}
    {np : Nat} {p : Option Positions} {d : List (Nat × BlockSel)} {nl : Option (List Nat)} {lab : Option (List τ)}
    (h : maskAxisPlan lens lc labels cache np p = some (d, nl, lab)) : lab = axisLabels labels cache p := by
  unfold maskAxisPlan at h
  cases p with
  | none => cases h; rfl
  | some p =>
    simp only [Option.pure_def, Option.bind_eq_bind, Option.bind_eq_some_iff, Option.some.injEq, Prod.mk.injEq] at h
    obtain ⟨d', _, nl', _, lab', h3, rfl, rfl, rfl⟩ := h
    exact h3.symm

theorem maskAxisPlan_len {τ : Type} {lens : List Nat} {lc : Option (List Nat)} {labels labels' : List τ} {cache cache' : Option (List τ)}
    {np : Nat} {p : Option Positions} {d : List (Nat × BlockSel)} {nl : Option (List Nat)} {lab' : Option (List τ)}
    (hl : labels.length = labels'.length) (hc : cache.map List.length = cache'.map List.length)
    (h : maskAxisPlan lens lc labels' cache' np p = some (d, nl, lab')) :
    ∃ lab, maskAxisPlan lens lc labels cache np p = some (d, nl, lab) ∧ lab.map List.length = lab'.map List.length := by
  unfold maskAxisPlan at h ⊢
  cases p with
  | none => cases h; exact ⟨_, rfl, hc⟩
  | some p =>
    simp only [Option.pure_def, Option.bind_eq_bind, Option.bind_eq_some_iff, Option.some.injEq, Prod.mk.injEq] at h
    obtain ⟨d', h1, nl', h2, lab'', h3, rfl, rfl, rfl⟩ := h
    have : ∃ lab, newLabels labels (sortedPositions p) = some lab ∧ lab.length = lab''.length := by
      unfold newLabels at h3 ⊢
      split at h3
      · simp only [Option.some.injEq] at h3
        subst h3
        exact ⟨_, rfl, by simp [pySlice_len, hl]⟩
      · exact checkedTake_len hl h3
    obtain ⟨lab, e1, e2⟩ := this
    refine ⟨some lab, ?_, by simp [e2]⟩
    simp only [Option.pure_def, Option.bind_eq_bind]
    rw [hl, h1, Option.bind_some, h2, Option.bind_some, e1, Option.bind_some]

theorem widthsOk_len {cp : Option Positions} {cw : Option (List Nat)} {o o' : Option (List κ)}
    (h : o.map List.length = o'.map List.length) : widthsOk cp cw o = widthsOk cp cw o' := by
  cases o <;> cases o' <;> cases cp <;> cases cw <;> simp_all [widthsOk]

theorem takeByMask_mixed {m m0 m1 r0 r1 : MFrame ι κ α} (h : MixedFull m m0 m1) {known known' : Nat → Nat → Bool × Bool}
    {rp cp : Option Positions} (h0 : takeByMask known m0 rp cp = some r0) (h1 : takeByMask known' m1 rp cp = some r1) :
    ∃ r, takeByMask known m rp cp = some r ∧ Mixed r r0 r1 ∧ (r.index = none → m.index = none) ∧
      (r.columns = none → m.columns = none) := by
  unfold takeByMask at h0 h1 ⊢
  simp only [Option.bind_eq_bind, Option.bind_eq_some_iff, Prod.exists] at h0 h1
  obtain ⟨rd, nrl, lab0, a1, cd, ncw, clab0, a2, a3⟩ := h0
  obtain ⟨rd1, nrl1, lab1, b1, cd1, ncw1, clab1, b2, b3⟩ := h1
  obtain ⟨lab, c1, d1⟩ := maskAxisPlan_len (labels := m.getIndex) (cache := m.index) h.gil h.il a1
  obtain ⟨clab, c2, d2⟩ := maskAxisPlan_len (labels := m.getColumns) (cache := m.columns) h.gcl h.cl a2
  split at a3
  · cases a3
  · rename_i hw
    split at b3
    · cases b3
    · simp only [Option.bind_eq_some_iff] at a3 b3
      obtain ⟨g0, a4, a5⟩ := a3
      obtain ⟨g1, b4, b5⟩ := b3
      have e1 : lab = lab1 := by
        rw [maskAxisPlan_labels c1, maskAxisPlan_labels b1, h.gi, h.idx]
      have e2 : clab = clab1 := by
        rw [maskAxisPlan_labels c2, maskAxisPlan_labels b2, h.gc, h.cols]
      have hm : Mixed (MFrame.mk g0 lab clab nrl ncw) (MFrame.mk g0 lab0 clab0 nrl ncw) (MFrame.mk g1 lab1 clab1 nrl1 ncw1) :=
        ⟨rfl, rfl, rfl, e1, e2, d1, d2⟩
      obtain ⟨r, f1, f2⟩ := mk'_mixed hm a5 b5
      have hr : r.index = lab ∧ r.columns = clab := by
        unfold MFrame.mk' at f1
        split at f1
        · cases f1
          unfold filterEmpties
          split
          · split <;> exact ⟨rfl, rfl⟩
          · exact ⟨rfl, rfl⟩
        · cases f1
      refine ⟨r, ?_, f2, ?_, ?_⟩
      · rw [h.toMixed.getRowLens, h.toMixed.getColWidths, h.rl, h.cw, h.parts, c1]
        simp only [Option.bind_eq_bind, Option.bind_some]
        rw [c2]
        simp only [Option.bind_some]
        rw [widthsOk_len d2, if_neg hw, a4, Option.bind_some, f1]
      · rw [hr.1, maskAxisPlan_labels c1]
        intro hn
        cases rp with
        | none => exact hn
        | some p =>
          have := maskAxisPlan_labels c1
          rw [hn] at this
          unfold maskAxisPlan at c1
          subst this
          simp [Option.bind_eq_some_iff] at c1
      · rw [hr.2, maskAxisPlan_labels c2]
        intro hn
        cases cp with
        | none => exact hn
        | some p =>
          have := maskAxisPlan_labels c2
          rw [hn] at this
          unfold maskAxisPlan at c2
          subst this
          simp [Option.bind_eq_some_iff] at c2

theorem reorderLabels_mixed [DecidableEq ι] [DecidableEq κ] {cfg : Cfg} {m m0 m1 r0 r1 : MFrame ι κ α} (h : MixedFull m m0 m1)
    {rp cp : Option (List Nat)} (h0 : reorderLabels cfg m0 rp cp = some r0) (h1 : reorderLabels cfg m1 rp cp = some r1) :
    ∃ r, reorderLabels cfg m rp cp = some r ∧ Mixed r r0 r1 ∧ (r.index = none → m.index = none) ∧
      (r.columns = none → m.columns = none) := by
  unfold reorderLabels at h0 h1 ⊢
  simp only [Option.bind_eq_some_iff, Prod.exists] at h0 h1
  obtain ⟨g0, i0, rl0, a1, g0', c0, cw0, a2, a3⟩ := h0
  obtain ⟨g1, i1, rl1, b1, g1', c1, cw1, b2, b3⟩ := h1
  have rowStep : ∃ i, reorderRowsStep cfg m rp = some (g0, i, rl0) ∧ i = i1 ∧ i.map List.length = i0.map List.length ∧
      (i = none → m.index = none) := by
    unfold reorderRowsStep at a1 b1 ⊢
    cases rp with
    | none =>
      simp only [Option.some.injEq, Prod.mk.injEq] at a1 b1 ⊢
      obtain ⟨rfl, rfl, rfl⟩ := a1
      obtain ⟨rfl, rfl, rfl⟩ := b1
      exact ⟨m.index, ⟨h.parts, rfl, h.rl⟩, h.idx, h.il, id⟩
    | some ps =>
      simp only [Option.bind_eq_some_iff, Option.map_eq_some_iff, Prod.mk.injEq] at a1 b1 ⊢
      obtain ⟨g, e1, t, e2, w, e3, rfl, rfl, rfl⟩ := a1
      obtain ⟨g', f1, t', f2, w', f3, rfl, rfl, rfl⟩ := b1
      obtain ⟨u, u1, u2⟩ := checkedTake_len (l := m.getIndex) h.gil e2
      refine ⟨some u, ⟨g, by rw [h.parts, e1], u, u1, w, ?_, rfl, rfl, rfl⟩, ?_, by simp [u2], by simp⟩
      · rw [u2, h.gil, h.rl, e3]
      · rw [h.gi, f2] at u1
        exact u1.symm
  obtain ⟨i, p1, p2, p3, p4⟩ := rowStep
  have colStep : ∃ c, reorderColsStep cfg m g0 cp = some (g0', c, cw0) ∧ c = c1 ∧ c.map List.length = c0.map List.length ∧
      (c = none → m.columns = none) := by
    unfold reorderColsStep at a2 b2 ⊢
    cases cp with
    | none =>
      simp only [Option.some.injEq, Prod.mk.injEq] at a2 b2 ⊢
      obtain ⟨rfl, rfl, rfl⟩ := a2
      obtain ⟨rfl, rfl, rfl⟩ := b2
      exact ⟨m.columns, ⟨rfl, rfl, h.cw⟩, h.cols, h.cl, id⟩
    | some ps =>
      simp only [Option.bind_eq_some_iff, Option.map_eq_some_iff, Prod.mk.injEq] at a2 b2 ⊢
      obtain ⟨g, e1, t, e2, w, e3, rfl, rfl, rfl⟩ := a2
      obtain ⟨g', f1, t', f2, w', f3, rfl, rfl, rfl⟩ := b2
      obtain ⟨u, u1, u2⟩ := checkedTake_len (l := m.getColumns) h.gcl e2
      refine ⟨some u, ⟨g, e1, u, u1, w, ?_, rfl, rfl, rfl⟩, ?_, by simp [u2], by simp⟩
      · rw [u2, h.gcl, h.cw, e3]
      · rw [h.gc, f2] at u1
        exact u1.symm
  obtain ⟨c, q1, q2, q3, q4⟩ := colStep
  have hm : Mixed (MFrame.mk g0' i c rl0 cw0) (MFrame.mk g0' i0 c0 rl0 cw0) (MFrame.mk g1' i1 c1 rl1 cw1) :=
    ⟨rfl, rfl, rfl, p2, q2, p3, q3⟩
  obtain ⟨r, f1, f2⟩ := mk'_mixed hm a3 b3
  have hr : r.index = i ∧ r.columns = c := by
    unfold MFrame.mk' at f1
    split at f1
    · cases f1
      unfold filterEmpties
      split
      · split <;> exact ⟨rfl, rfl⟩
      · exact ⟨rfl, rfl⟩
    · cases f1
  refine ⟨r, ?_, f2, fun hn => p4 (by rw [← hr.1, hn]), fun hn => q4 (by rw [← hr.2, hn])⟩
  rw [p1, Option.bind_some, q1, Option.bind_some]
  exact f1

theorem takeRows_length {f g : Frame ι κ α} (ps : List Nat) (h : f.index.length = g.index.length) (hin : ∀ x ∈ ps, x < f.index.length) :
    (f.takeRows ps).index.length = (g.takeRows ps).index.length := by
  simp only [Frame.takeRows]
  rw [takeList_length hin, takeList_length (by rw [← h]; exact hin)]

theorem takeCols_length {f g : Frame ι κ α} (ps : List Nat) (h : f.columns.length = g.columns.length)
    (hin : ∀ x ∈ ps, x < f.columns.length) : (f.takeCols ps).columns.length = (g.takeCols ps).columns.length := by
  simp only [Frame.takeCols]
  rw [takeList_length hin, takeList_length (by rw [← h]; exact hin)]

theorem maskThenReorder_mixed [DecidableEq ι] [DecidableEq κ] (cfg : Cfg) (hp : 1 ≤ cfg.nPartitions)
    (hmr : 1 ≤ cfg.minRow) (hmc : 1 ≤ cfg.minCol) {m m0 m1 : MFrame ι κ α} {df0 df : Frame ι κ α} (h : Mixed m m0 m1)
    (h0 : m0.Represents df0) (h1 : m1.Represents df) (hl : df0.index.length = df.index.length)
    (hcl : df0.columns.length = df.columns.length)
    (hi : m.index = none → df0.index = df.index) (hic : m.columns = none → df0.columns = df.columns)
    {known : Nat → Nat → Bool × Bool} {kn : Bool}
    (hkn : ∀ i j, (known i j).1 = true ∨ (known i j).2 = true → kn = true)
    {rp cp : Option Positions}
    (hrv : ∀ q, rp = some q → q.Valid df.nrows) (hcv : ∀ q, cp = some q → q.Valid df.ncols)
    (hre : ∀ a b, rp = some (.range a b) → a < b)
    (hce : ∀ a b, cp = some (.range a b) → a < b)
    (hrk : kn = true → ∀ q, rp = some q → q.toList.Nodup)
    (hck : kn = true → ∀ q, cp = some q → q.toList.Nodup) :
    ∃ r r0 r1, maskThenReorder cfg known m rp cp = some r ∧ Mixed r r0 r1 ∧
      r0.Represents ((df0.takeRows (reqList df.nrows rp)).takeCols (reqList df.ncols cp)) ∧
      r1.Represents ((df.takeRows (reqList df.nrows rp)).takeCols (reqList df.ncols cp)) ∧
      (r.index = none → m.index = none) ∧ (r.columns = none → m.columns = none) := by
  have en : df0.nrows = df.nrows := hl
  have ec : df0.ncols = df.ncols := hcl
  obtain ⟨r0, e0, f0⟩ := maskThenReorder_spec cfg hp hmr hmc h0 hkn (by rw [en]; exact hrv) (by rw [ec]; exact hcv) hre hce hrk hck
  obtain ⟨r1, e1, f1⟩ := maskThenReorder_spec cfg hp hmr hmc h1 hkn hrv hcv hre hce hrk hck
  rw [en, ec] at f0
  obtain ⟨i0, a0, b0⟩ := takeByMask_spec h0 hkn (by rw [en]; exact hrv) (by rw [ec]; exact hcv) hre hce hrk hck
  obtain ⟨i1, a1, b1⟩ := takeByMask_spec h1 hkn hrv hcv hre hce hrk hck
  rw [en, ec] at b0
  obtain ⟨i, a, b, c, d⟩ := takeByMask_mixed (h.full h0 h1 hl hcl hi hic) a0 a1
  unfold maskThenReorder at e0 e1 ⊢
  rw [a0, Option.bind_some] at e0
  rw [a1, Option.bind_some] at e1
  rw [a, Option.bind_some]
  split at e0
  · rename_i ho
    rw [if_pos ho] at e1 ⊢
    cases e0; cases e1
    exact ⟨i, r0, r1, rfl, b, f0, f1, c, d⟩
  · rename_i ho
    rw [if_neg ho] at e1 ⊢
    have hsr := sortedReq_lt hrv
    have hsc := sortedReq_lt hcv
    have full := b.full b0 b1 (takeRows_length _ hl (by intro x hx; have := hsr x hx; rw [← en] at this; exact this))
      (takeCols_length _ hcl (by intro x hx; have := hsc x hx; rw [← ec] at this; exact this))
      (by intro hn; simp only [Frame.takeCols, Frame.takeRows]; rw [hi (c hn)])
      (by intro hn; simp only [Frame.takeCols, Frame.takeRows]; rw [hic (d hn)])
    obtain ⟨r, g1, g2, g3, g4⟩ := reorderLabels_mixed full e0 e1
    exact ⟨r, r0, r1, g1, g2, f0, f1, fun hn => c (g3 hn), fun hn => d (g4 hn)⟩

theorem LFrame.Shows.getIndex {m : LFrame ι κ α} {df : Frame ι κ α} (h : m.Shows df) : m.getIndex = df.index := by
  obtain ⟨df0, rl, cw, _, _, _, hc, hp, _, _, hI, _⟩ := h.blocks
  rcases h.index with ⟨h1, h2⟩ | h1
  · unfold MFrame.getIndex
    rw [h1]
    simp only
    rw [hp, gridIndex_cut hc, hI h2]
  · unfold MFrame.getIndex; rw [h1]

theorem LFrame.Shows.getColumns {m : LFrame ι κ α} {df : Frame ι κ α} (h : m.Shows df) : m.getColumns = df.columns := by
  obtain ⟨df0, rl, cw, _, _, _, hc, hp, _, _, _, hC⟩ := h.blocks
  rcases h.columns with ⟨h1, h2⟩ | h1
  · unfold MFrame.getColumns
    rw [h1]
    simp only
    rw [hp, gridColumns_cut hc, hC h2]
  · unfold MFrame.getColumns; rw [h1]

theorem operation_shows {ι' κ' β' : Type} {m : LFrame ι κ α} {df : Frame ι κ α} (h : m.Shows df)
    {op : MFrame ι κ α → Option (MFrame ι' κ' β')} {df' : Frame ι' κ' β'}
    (hop : ∀ m1 : MFrame ι κ α, m1.Represents df → ∃ m', op m1 = some m' ∧ m'.Represents df') :
    ∃ m', m.operation op = some m' ∧ m'.Shows df' := by
  obtain ⟨m1, e1, e2⟩ := synced_spec h
  obtain ⟨m', e3, e4⟩ := hop _ e2
  refine ⟨_, ?_, represents_shows e4⟩
  unfold LFrame.operation
  rw [e1, Option.bind_some, e3]
  rfl

theorem take2d_shows [DecidableEq ι] [DecidableEq κ] (cfg : Cfg) (hp : 1 ≤ cfg.nPartitions)
    (hmr : 1 ≤ cfg.minRow) (hmc : 1 ≤ cfg.minCol) {m : LFrame ι κ α} {df : Frame ι κ α} (h : m.Shows df)
    {known : Nat → Nat → Bool × Bool} {kn : Bool}
    (hkn : ∀ i j, (known i j).1 = true ∨ (known i j).2 = true → kn = true)
    {rows cols : Option Positions}
    (hrv : ∀ q, rows = some q → q.Valid df.nrows) (hcv : ∀ q, cols = some q → q.Valid df.ncols)
    (hre : ∀ a b, rows = some (.range a b) → a < b)
    (hce : ∀ a b, cols = some (.range a b) → a < b)
    (hrk : kn = true → ∀ q, rows = some q → q.toList.Nodup)
    (hck : kn = true → ∀ q, cols = some q → q.toList.Nodup) :
    ∃ m', m.take2d cfg known rows cols = some m' ∧
      m'.Shows ((df.takeRows (reqList df.nrows rows)).takeCols (reqList df.ncols cols)) := by
  have er := normPositions_req hrv
  have ec := normPositions_req hcv
  have hi : m.getIndex.length = df.nrows := by rw [h.getIndex]; rfl
  have hcn : m.getColumns.length = df.ncols := by rw [h.getColumns]; rfl
  rw [← er, ← ec]
  unfold LFrame.take2d
  rw [hi, hcn]
  generalize hrp : normPositions df.nrows rows = rp
  generalize hcp : normPositions df.ncols cols = cp
  have hrs : ∀ q, rp = some q → rows = some q := fun q hq => normPositions_some (hrp.trans hq)
  have hcs : ∀ q, cp = some q → cols = some q := fun q hq => normPositions_some (hcp.trans hq)
  have hrv' : ∀ q, rp = some q → q.Valid df.nrows := fun q hq => hrv q (hrs q hq)
  have hcv' : ∀ q, cp = some q → q.Valid df.ncols := fun q hq => hcv q (hcs q hq)
  have wr : (df.takeRows (List.range df.nrows)) = df := Frame.takeRows_all h.wf
  have wc : (df.takeCols (List.range df.ncols)) = df := Frame.takeCols_all h.wf
  by_cases h0 : rp = none ∧ cp = none
  · obtain ⟨rfl, rfl⟩ := h0
    simp only [and_self, ↓reduceIte, reqList]
    rw [wr, wc]
    exact copy_shows h
  · simp only
    rw [if_neg h0]
    by_cases hj : jumps df.nrows df.ncols rp cp = true
    · rw [if_pos hj]
      cases rp with
      | none => simp [jumps] at hj
      | some r =>
        cases cp with
        | some c => simp [jumps] at hj
        | none =>
          apply operation_shows h
          intro m1 hm1
          obtain ⟨m', g1, g2⟩ := reorderLabels_spec cfg hp hmr hmc hm1 (rp := some r.toList) (cp := none)
            (by intro ps hps; cases hps; exact (hrv' r rfl).mem) (by intro ps hps; cases hps)
          refine ⟨m', g1, ?_⟩
          simp only [Frame.takeRows?, Frame.takeCols?] at g2
          simp only [reqList]
          have : (df.takeRows r.toList).ncols = df.ncols := rfl
          rw [← this, Frame.takeCols_all (h.wf.takeRows _)]
          exact g2
    · rw [if_neg hj]
      obtain ⟨df0, rl, cw, hwf0, hrows, hcolsl, hc, hpt, hrl, hcw, hI, hC⟩ := h.blocks
      have hidl : df0.index.length = df.index.length := by rw [← hwf0.rows_len, ← h.wf.rows_len, hrows]
      have hc2 : df.IsCut rl cw := isCut_congr hc hidl hcolsl
      have r0 : (MFrame.mk m.parts (m.index.map fun _ => df0.index) (m.columns.map fun _ => df0.columns) m.rowLens m.colWidths).Represents df0 := by
        refine ⟨hwf0, ⟨rl, cw, hc, hpt, hrl, hcw⟩, ?_, ?_⟩
        · cases m.index <;> simp
        · cases m.columns <;> simp
      have r1 : (MFrame.mk (df.cut rl cw) m.index m.columns m.rowLens m.colWidths).Represents df :=
        ⟨h.wf, ⟨rl, cw, hc2, rfl, hrl, hcw⟩, h.index.imp_left (·.1), h.columns.imp_left (·.1)⟩
      have hmix : Mixed m.toMFrame (MFrame.mk m.parts (m.index.map fun _ => df0.index) (m.columns.map fun _ => df0.columns) m.rowLens m.colWidths)
          (MFrame.mk (df.cut rl cw) m.index m.columns m.rowLens m.colWidths) := by
        refine ⟨rfl, rfl, rfl, rfl, rfl, ?_, ?_⟩
        · rcases h.index with ⟨h1, _⟩ | h1 <;> simp [h1, hidl]
        · rcases h.columns with ⟨h1, _⟩ | h1 <;> simp [h1, hcolsl]
      have hii : m.index = none → df0.index = df.index := by
        intro hn
        rcases h.index with ⟨_, h2⟩ | h1
        · exact hI h2
        · rw [hn] at h1; cases h1
      have hcc : m.columns = none → df0.columns = df.columns := by
        intro hn
        rcases h.columns with ⟨_, h2⟩ | h1
        · exact hC h2
        · rw [hn] at h1; cases h1
      obtain ⟨r, s0, s1, e1, e2, e3, e4, e5, e6⟩ := maskThenReorder_mixed cfg hp hmr hmc hmix r0 r1 hidl hcolsl hii hcc hkn hrv' hcv'
        (fun a b hq => hre a b (hrs _ hq)) (fun a b hq => hce a b (hcs _ hq))
        (fun hk q hq => hrk hk q (hrs q hq)) (fun hk q hq => hck hk q (hcs q hq))
      rw [e1, Option.map_some]
      refine ⟨_, rfl, e4.wf, ?_, ?_, ?_⟩
      · obtain ⟨rl', cw', k1, k2, k3, k4⟩ := e3.blocks
        refine ⟨_, rl', cw', e3.wf, ?_, ?_, k1, ?_, ?_, ?_, ?_, ?_⟩
        · simp only [Frame.takeCols, Frame.takeRows, hrows]
        · apply takeCols_length
          · exact hcolsl
          · intro x hx
            have : x < df.ncols := by
              cases cp with
              | none => simpa [reqList] using hx
              | some q => exact (hcv' q rfl).mem x hx
            simp only [Frame.takeRows]
            rw [hcolsl]; exact this
        · rw [e2.parts, k2]
        · rw [e2.rl]; exact k3
        · rw [e2.cw]; exact k4
        · intro hd
          simp only at hd
          simp only [Frame.takeCols, Frame.takeRows, hI hd]
        · intro hd
          simp only at hd
          simp only [Frame.takeCols, Frame.takeRows, hC hd]
      · rcases e4.index with h1 | h1
        · refine Or.inl ⟨by rw [e2.idx, h1], ?_⟩
          have := e5 (by rw [e2.idx, h1])
          rcases h.index with ⟨_, h3⟩ | h3
          · exact h3
          · rw [this] at h3; cases h3
        · exact Or.inr (by rw [e2.idx, h1])
      · rcases e4.columns with h1 | h1
        · refine Or.inl ⟨by rw [e2.cols, h1], ?_⟩
          have := e6 (by rw [e2.cols, h1])
          rcases h.columns with ⟨_, h3⟩ | h3
          · exact h3
          · rw [this] at h3; cases h3
        · exact Or.inr (by rw [e2.cols, h1])
