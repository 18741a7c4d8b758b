import Verif.Model.Interchange
import Verif.Lemmas.GroupAgg
import Verif.Lemmas.Relabel
import Verif.Lemmas.Reindex
import Verif.Lemmas.SortIndex
/-
The dataframe interchange protocol.
-/

variable {ι κ α : Type}

/-! ### buffers -/

theorem stringOffsets_get (u : Utf8 α) : ∀ (values : List α) (ptr i : Nat), i ≤ values.length →
    (stringOffsets u ptr values)[i]? = some (ptr + (stringData u (values.take i)).length) := by
  intro values
  induction values with
  | nil =>
    intro ptr i hi
    have : i = 0 := by simpa using hi
    subst this
    simp [stringOffsets, stringData]
  | cons v vs ih =>
    intro ptr i hi
    cases i with
    | zero => simp [stringOffsets, stringData]
    | succ i =>
      simp only [stringOffsets, List.getElem?_cons_succ]
      rw [ih _ i (by simpa using hi), List.take_succ_cons]
      unfold stringData
      rw [List.flatMap_cons, List.length_append]
      cases u.enc v with
      | none => simp
      | some b => simp [Nat.add_assoc]

theorem stringData_slice (u : Utf8 α) {values : List α} {i : Nat} {v : α} {b : List Nat} (h : values[i]? = some v) (hb : u.enc v = some b) :
    pySlice (stringData u values) (stringData u (values.take i)).length (stringData u (values.take (i + 1))).length = b := by
  obtain ⟨hi, hv⟩ := List.getElem?_eq_some_iff.1 h
  have e1 : stringData u (values.take (i + 1)) = stringData u (values.take i) ++ b := by
    unfold stringData
    rw [List.take_succ, h, List.flatMap_append]
    simp [hb]
  have e2 : stringData u values = stringData u (values.take (i + 1)) ++ stringData u (values.drop (i + 1)) := by
    unfold stringData
    rw [← List.flatMap_append, List.take_append_drop]
  unfold pySlice
  rw [e2, e1]
  simp

theorem unpackStrings_spec (u : Utf8 α) (nan : α) (values : List α) :
    unpackStrings u nan values = some (values.map fun v => if (u.enc v).isSome then v else nan) := by
  unfold unpackStrings decodeStrings
  have e : (values.map fun v => if (u.enc v).isSome then v else nan) =
      (List.range values.length).map fun i => (values.map fun v => if (u.enc v).isSome then v else nan)[i]?.getD nan := by
    apply List.ext_getElem
    · simp
    · intro i h1 h2
      simp only [List.length_map] at h1
      simp [h1]
  rw [e]
  conv => lhs; rw [← List.map_id (List.range values.length)]
  apply mapM_map_some
  intro i hi
  have hi := List.mem_range.1 hi
  have hv : values[i]? = some values[i] := List.getElem?_eq_getElem hi
  simp only [id_eq]
  have hn : ((stringValidity u values).map (!·))[i]? = some (!(u.enc values[i]).isSome) := by
    simp [stringValidity, hv]
  rw [hn, Option.bind_some]
  have hr : (values.map fun v => if (u.enc v).isSome then v else nan)[i]?.getD nan = if (u.enc values[i]).isSome then values[i] else nan := by
    simp [hv]
  rw [hr]
  cases hb : u.enc values[i] with
  | none => simp
  | some b =>
    simp only [Option.isSome_some, Bool.not_true, Bool.false_eq_true, ↓reduceIte]
    rw [stringOffsets_get u values 0 i (Nat.le_of_lt hi), stringOffsets_get u values 0 (i + 1) hi, Option.bind_some, Option.bind_some,
      Nat.zero_add, Nat.zero_add, stringData_slice u hv hb]
    exact u.dec_enc _ _ hb

theorem unpackStrings_id (u : Utf8 α) (nan : α) {values : List α} (h : ∀ v ∈ values, (u.enc v).isSome ∨ v = nan) :
    unpackStrings u nan values = some values := by
  rw [unpackStrings_spec]
  congr 1
  conv => rhs; rw [← List.map_id values]
  apply List.map_congr_left
  intro v hv
  rcases h v hv with h1 | h1
  · simp [h1]
  · simp [h1]

theorem unpackCategories_spec [DecidableEq α] (isMinusOne : α → Bool) (nan : α) {cats : List α} :
    ∀ {vs : List α}, (∀ v ∈ vs, v ∈ cats) →
    unpackCategories isMinusOne nan cats (vs.map (codeOf cats)) = some (vs.map fun v => if isMinusOne v then nan else v) := by
  intro vs h
  unfold unpackCategories
  have e : (vs.map (codeOf cats)).mapM (fun (c : Int) => cats[(c % (cats.length : Int)).toNat]?) = some (vs.map id) := by
    apply mapM_map_some
    intro v hv
    have hm := h v hv
    unfold codeOf
    have hs : (cats.findIdx? (· = v)).isSome = true := by
      rw [List.findIdx?_isSome]
      simpa using hm
    obtain ⟨i, hi⟩ := Option.isSome_iff_exists.1 hs
    rw [hi]
    obtain ⟨h1, h2, _⟩ := List.findIdx?_eq_some_iff_getElem.1 hi
    have h2 : cats[i] = v := by simpa using h2
    simp only
    have : ((i : Int) % (cats.length : Int)).toNat = i := by
      rw [Int.emod_eq_of_lt (by omega) (by omega)]
      simp
    rw [this, List.getElem?_eq_getElem h1, h2]
    rfl
  rw [e]
  simp

theorem unpackColumn_spec [DecidableEq α] (u : Utf8 α) (isMinusOne : α → Bool) (nan : α) {kind : ColKind α} {vs : List α}
    (h : kind.Holds u nan vs) (hs : ∀ cats strings, kind = .categorical cats strings → ∀ v ∈ vs, isMinusOne v = false) :
    unpackColumn u isMinusOne nan kind vs = some vs := by
  cases kind with
  | primitive => rfl
  | string => exact unpackStrings_id u nan h
  | categorical cats strings =>
    obtain ⟨h1, h2⟩ := h
    rw [unpackColumn]
    have e : (if strings then unpackStrings u nan cats else some cats) = some cats := by
      cases strings with
      | false => rfl
      | true => exact unpackStrings_id u nan fun c hc => Or.inl (h2 rfl c hc)
    rw [e, Option.bind_some, unpackCategories_spec isMinusOne nan h1]
    congr 1
    conv => rhs; rw [← List.map_id vs]
    apply List.map_congr_left
    intro v hv
    simp [hs cats strings rfl v hv]

/-! ### to_numpy -/

theorem npBlockRow_cut {f : Frame ι κ α} (h : f.WF) {cw : List Nat} (hne : cw ≠ []) (hs : cw.sum = f.ncols) :
    npBlockRow ((sliceBounds cw).map fun q => f.ilocCols q.1 q.2) = some f.rows := by
  have hrows : Frame.hrows f.rows.length (((sliceBounds cw).map fun q => f.ilocCols q.1 q.2).map (·.rows)) = f.rows := by
    rw [List.map_map]
    have := hrows_map f.rows ((sliceBounds cw).map fun q => fun r => pySlice r q.1 q.2)
    rw [List.map_map] at this
    refine this.trans ?_
    simp only [List.map_map]
    conv => rhs; rw [← List.map_id f.rows]
    apply List.map_congr_left
    intro r hr
    exact covers_lens cw r ((h.row_width r hr).trans hs.symm)
  obtain ⟨q, qs, hq⟩ := List.exists_cons_of_ne_nil (sliceBounds_ne_nil hne)
  unfold npBlockRow
  have hall : ((sliceBounds cw).map fun q => f.ilocCols q.1 q.2).all (fun c => c.rows.length == f.rows.length) = true := by
    rw [List.all_eq_true]
    intro b hb
    obtain ⟨q, _, rfl⟩ := List.mem_map.1 hb
    simp [Frame.ilocCols]
  have hlen : (f.ilocCols q.1 q.2).rows.length = f.rows.length := by simp [Frame.ilocCols]
  rw [hq] at hrows hall ⊢
  simp only [List.map_cons] at hrows hall ⊢
  rw [hlen, if_pos hall, hrows]

theorem toNumpy_cut {m : MFrame ι κ α} {df0 : Frame ι κ α} (h : df0.WF) {rl cw : List Nat} (hc : df0.IsCut rl cw)
    (hp : m.parts = df0.cut rl cw) (hi : m.index = none ∨ ∃ i, m.index = some i ∧ i.length = df0.nrows)
    (hk : m.columns = none ∨ ∃ c, m.columns = some c ∧ c.length = df0.ncols) (hn : 0 < df0.nrows) : m.toNumpy = some df0.rows := by
  obtain ⟨p, ps, hpe⟩ := List.exists_cons_of_ne_nil (sliceBounds_ne_nil hc.rl_ne)
  have hwidth : ∀ r ∈ df0.cut rl cw, (r.map (·.ncols)).sum = df0.ncols := by
    intro r hr
    unfold Frame.cut at hr
    obtain ⟨p, _, rfl⟩ := List.mem_map.1 hr
    rw [← hc.cw_sum, List.map_map]
    congr 1
    have := sliceBounds_ncols (df := df0.ilocRows p.1 p.2) (rl := [(df0.ilocRows p.1 p.2).nrows]) (cw := cw) ⟨by simp, hc.cw_ne, by simp, hc.cw_sum⟩
    exact this
  have hbands : (df0.cut rl cw).mapM npBlockRow = some ((sliceBounds rl).map fun p => (df0.ilocRows p.1 p.2).rows) := by
    unfold Frame.cut
    apply mapM_map_some
    intro p _
    exact npBlockRow_cut (h.ilocRows _ _) hc.cw_ne hc.cw_sum
  have hflat : ((sliceBounds rl).map fun p => (df0.ilocRows p.1 p.2).rows).flatten = df0.rows :=
    covers_lens rl df0.rows (h.rows_len.trans hc.rl_sum.symm)
  unfold MFrame.toNumpy
  rw [hp]
  have hcons : df0.cut rl cw = ((sliceBounds cw).map fun q => (df0.ilocRows p.1 p.2).ilocCols q.1 q.2) ::
      ps.map fun p => (sliceBounds cw).map fun q => (df0.ilocRows p.1 p.2).ilocCols q.1 q.2 := by
    unfold Frame.cut
    rw [hpe]; rfl
  split
  · rename_i h0
    rw [hcons] at h0; cases h0
  rename_i row rest h0
  have hall : (df0.cut rl cw).all (fun r => (r.map (·.ncols)).sum == (row.map (·.ncols)).sum) = true := by
    rw [List.all_eq_true]
    intro r hr
    rw [hwidth r hr, hwidth row (by rw [h0]; simp)]
    simp
  rw [if_pos hall, hbands, Option.bind_some, hflat]
  have hidx : m.index.any (fun i => i.length != df0.rows.length) = false := by
    rcases hi with h1 | ⟨i, h1, h2⟩
    · simp [h1]
    · simp [h1, h2, h.rows_len, Frame.nrows]
  rw [hidx]
  simp only [Bool.false_eq_true, ↓reduceIte]
  rcases hk with h1 | ⟨c, h1, h2⟩
  · rw [h1]
  · rw [h1]
    simp only
    split
    · rename_i h3
      have := h.rows_len
      rw [h3] at this
      simp only [Frame.nrows] at hn
      simp at this
      omega
    · rename_i r rest' h3
      rw [if_pos]
      rw [h2]
      exact h.row_width r (by rw [h3]; simp)

theorem toNumpy_shows {m : LFrame ι κ α} {df : Frame ι κ α} (h : m.Shows df) (hn : 0 < df.nrows) : m.toNumpy = some df.rows := by
  obtain ⟨df0, rl, cw, h0, hr, hcl, hc, hp, _, _, _, _⟩ := h.blocks
  have hl : df0.nrows = df.nrows := by
    have := h0.rows_len
    rw [hr, h.wf.rows_len] at this
    exact this.symm
  rw [← hr]
  apply toNumpy_cut h0 hc hp _ _ (by omega)
  · rcases h.index with h1 | h1
    · exact Or.inl h1.1
    · exact Or.inr ⟨_, h1, hl.symm⟩
  · rcases h.columns with h1 | h1
    · exact Or.inl h1.1
    · exact Or.inr ⟨_, h1, hcl.symm⟩

/-! ### columns -/

theorem single_flatten {f : Frame ι κ α} (h : f.WF) {c : κ} {v : List α} (hn : f.named = [(c, v)]) : f.rows.flatten = v := by
  have e := ofCols_named h
  have hs := Frame.named_sized h
  rw [hn] at e hs
  have hl : v.length = f.index.length := hs (c, v) (by simp)
  have e2 : f.rows = (List.range f.index.length).map fun i => [(c, v)].filterMap (·.2[i]?) := by
    conv => lhs; rw [← e]
    rfl
  rw [e2]
  apply List.ext_getElem?
  intro i
  have : ((List.range f.index.length).map fun i => [(c, v)].filterMap (·.2[i]?)) = (List.range v.length).map fun i => (v[i]?).toList := by
    rw [hl]
    apply List.map_congr_left
    intro i hi
    have hi : i < v.length := by rw [hl]; exact List.mem_range.1 hi
    simp [hi]
  rw [this]
  congr 1
  have : ∀ (l : List α), ((List.range l.length).map fun i => (l[i]?).toList).flatten = l := by
    intro l
    induction l with
    | nil => rfl
    | cons a l ih =>
      rw [List.length_cons, List.range_succ_eq_map, List.map_cons, List.map_map, List.flatten_cons]
      simp only [Function.comp_def, List.getElem?_cons_succ, List.getElem?_cons_zero, Option.toList_some, List.singleton_append]
      rw [ih]
  exact this v

theorem columnCells_shows [DecidableEq ι] [DecidableEq κ] (cfg : Cfg) (hp : 1 ≤ cfg.nPartitions) (hmr : 1 ≤ cfg.minRow)
    (hmc : 1 ≤ cfg.minCol) (known : Nat → Nat → Bool × Bool) (nan : α) (kind : ColKind α) {m : LFrame ι κ α} {df : Frame ι κ α} (h : m.Shows df)
    (hn : 0 < df.nrows) (hu : df.columns.Nodup) {c : κ} {v : List α} (hcv : (c, v) ∈ df.named) :
    m.columnCells cfg known nan kind c = some v := by
  have hc : c ∈ df.columns := by
    rw [← named_labels df]
    exact List.mem_map.2 ⟨_, hcv, rfl⟩
  obtain ⟨m', e1, e2⟩ := takeColLabels_shows cfg hp hmr hmc known h (labels := [c]) (by simpa using hc) (by simp)
  have hnm : (df.takeCols ([c].flatMap (positionsOf df.columns))).named = [(c, v)] := by
    rw [named_takeCols h.wf]
    have : [c].flatMap (positionsOf df.columns) = positionsOf (df.named.map (·.1)) c := by
      rw [named_labels]; simp
    rw [this, takeList_positions]
    exact unique_of_nodup (by rw [named_labels]; exact hu) hcv
  have hfl := single_flatten e2.wf hnm
  have hn' : 0 < (df.takeCols ([c].flatMap (positionsOf df.columns))).nrows := hn
  unfold LFrame.columnCells
  rw [e1, Option.bind_some]
  cases kind with
  | categorical cats strings =>
    simp only
    rw [(e2.observed nan).1, Option.map_some, hfl]
  | primitive => simp only; rw [toNumpy_shows e2 hn', Option.map_some, hfl]
  | string => simp only; rw [toNumpy_shows e2 hn', Option.map_some, hfl]

theorem readColumns_spec [DecidableEq κ] (isStr : κ → Bool) (read : κ → Option (List α)) : ∀ (cols : List (κ × List α)) (seen : List κ),
    (seen ++ cols.map (·.1)).Nodup → (∀ c ∈ cols, isStr c.1 = true ∧ read c.1 = some c.2) →
    readColumns isStr read seen (cols.map (·.1)) = some cols := by
  intro cols
  induction cols with
  | nil => intro seen _ _; rfl
  | cons c cs ih =>
    intro seen hnd h
    obtain ⟨h1, h2⟩ := h c (by simp)
    have hns : seen.contains c.1 = false := by
      rw [List.map_cons, List.nodup_append] at hnd
      simp only [List.contains_eq_mem, decide_eq_false_iff_not]
      intro hmem
      exact hnd.2.2 _ hmem _ (by simp) rfl
    rw [List.map_cons, readColumns]
    simp only [h1, hns, Bool.not_true, Bool.or_self, Bool.false_eq_true, ↓reduceIte]
    rw [h2, Option.bind_some, ih (seen ++ [c.1]) (by simpa using hnd) (fun d hd => h d (by simp [hd]))]
    rfl

theorem frameOfDict_named {df : Frame ι κ α} (h : df.WF) (hc : df.columns ≠ []) :
    frameOfDict df.named = some { index := List.range df.nrows, columns := df.columns, rows := df.rows } := by
  have hs := Frame.named_sized h
  have hl := named_labels df
  cases hnm : df.named with
  | nil => rw [hnm] at hl; exact absurd hl.symm hc
  | cons c cs =>
    have hcl : c.2.length = df.index.length := hs c (by rw [hnm]; simp)
    unfold frameOfDict
    simp only
    rw [if_pos]
    · rw [hcl, ← hnm]
      congr 1
      unfold Frame.ofCols
      rw [hl, List.length_range]
      have := ofCols_named h
      unfold Frame.ofCols at this
      have e : (List.range df.index.length).map (fun i => df.named.filterMap (·.2[i]?)) = df.rows := congrArg Frame.rows this
      rw [e]; rfl
    · rw [List.all_eq_true]
      intro d hd
      rw [hs d (by rw [hnm]; exact hd), hcl]
      simp

theorem chunkToPandas_shows [DecidableEq ι] [DecidableEq κ] [DecidableEq α] (cfg : Cfg) (hp : 1 ≤ cfg.nPartitions) (hmr : 1 ≤ cfg.minRow)
    (hmc : 1 ≤ cfg.minCol) (known : κ → Nat → Nat → Bool × Bool) (u : Utf8 α) (isMinusOne : α → Bool) (nan : α) (isStr : κ → Bool)
    (kind : κ → ColKind α) {m : LFrame ι κ α} {df : Frame ι κ α} (h : m.Shows df) (hn : 0 < df.nrows) (hu : df.columns.Nodup)
    (hc : df.columns ≠ []) (hstr : ∀ c ∈ df.columns, isStr c = true)
    (hk : ∀ e ∈ df.named, (kind e.1).Holds u nan e.2 ∧ (∀ cats s, kind e.1 = .categorical cats s → ∀ v ∈ e.2, isMinusOne v = false)) :
    m.chunkToPandas cfg known u isMinusOne nan isStr kind = some { index := List.range df.nrows, columns := df.columns, rows := df.rows } := by
  unfold LFrame.chunkToPandas
  rw [h.getColumns, ← named_labels df, readColumns_spec isStr _ df.named [] (by rw [List.nil_append, named_labels]; exact hu), Option.bind_some,
    frameOfDict_named h.wf hc]
  · rw [named_labels]
  · intro e he
    refine ⟨hstr _ (by rw [← named_labels df]; exact List.mem_map.2 ⟨_, he, rfl⟩), ?_⟩
    rw [columnCells_shows cfg hp hmr hmc (known e.1) nan (kind e.1) h hn hu (c := e.1) (v := e.2) he, Option.bind_some]
    exact unpackColumn_spec u isMinusOne nan (hk e he).1 (hk e he).2

/-! ### chunks -/

theorem takeRows_range' {df : Frame ι κ α} (h : df.WF) {a b : Nat} (hab : a ≤ b) (hb : b ≤ df.nrows) :
    (df.takeRows (List.range' a (b - a))).takeCols (List.range df.ncols) = df.ilocRows a b := by
  have e1 : takeList df.index (List.range' a (b - a)) = pySlice df.index a b := by
    rw [takeList_range' _ _ _ (by simp only [Frame.nrows] at hb; omega)]
    congr 1; omega
  have e2 : takeList df.rows (List.range' a (b - a)) = pySlice df.rows a b := by
    rw [takeList_range' _ _ _ (by rw [h.rows_len]; simp only [Frame.nrows] at hb; omega)]
    congr 1; omega
  unfold Frame.takeRows Frame.takeCols Frame.ilocRows
  simp only [e1, e2, Frame.mk.injEq, true_and]
  refine ⟨takeList_range df.columns, ?_⟩
  conv => rhs; rw [← List.map_id (pySlice df.rows a b)]
  apply List.map_congr_left
  intro r hr
  have hr : r ∈ df.rows := by
    unfold pySlice at hr
    exact List.mem_of_mem_drop (List.mem_of_mem_take hr)
  have := takeList_range r
  rw [h.row_width r hr] at this
  exact this

theorem mapM_zipIdx_shows {A B : Type} (F : A → Nat → Option B) (P : A → B → Prop) : ∀ (l : List A) (s : Nat),
    (∀ a ∈ l, ∀ i, ∃ b, F a i = some b ∧ P a b) →
    ∃ bs, (l.zipIdx s).mapM (fun (p : A × Nat) => F p.1 p.2) = some bs ∧ bs.length = l.length ∧
      ∀ (i : Nat) (a : A) (b : B), l[i]? = some a → bs[i]? = some b → P a b := by
  intro l
  induction l with
  | nil => intro s _; exact ⟨[], rfl, rfl, by simp⟩
  | cons a l ih =>
    intro s h
    obtain ⟨b, h1, h2⟩ := h a (by simp) s
    obtain ⟨bs, h3, h4, h5⟩ := ih (s + 1) (fun x hx i => h x (by simp [hx]) i)
    refine ⟨b :: bs, ?_, by simp [h4], ?_⟩
    · rw [List.zipIdx_cons, List.mapM_cons]
      simp only [h1, h3, Option.bind_eq_bind, Option.bind_some, Option.pure_def]
    · intro i a' b' ha hb
      cases i with
      | zero => simp at ha hb; subst ha; subst hb; exact h2
      | succ i => simp at ha hb; exact h5 i a' b' ha hb

theorem bandChunks_shows [DecidableEq ι] [DecidableEq κ] (cfg : Cfg) (hp : 1 ≤ cfg.nPartitions) (hmr : 1 ≤ cfg.minRow) (hmc : 1 ≤ cfg.minCol)
    (known : Nat → Nat → Nat → Bool × Bool) {m : LFrame ι κ α} {df : Frame ι κ α} (h : m.Shows df) (hz : 0 ∉ m.getRowLens) :
    ∃ cs, m.bandChunks cfg known = some cs ∧ cs.length = m.parts.length ∧
      ∀ (i : Nat) (p : Nat × Nat) (c : LFrame ι κ α), (sliceBounds m.getRowLens)[i]? = some p → cs[i]? = some c → c.Shows (df.ilocRows p.1 p.2) := by
  obtain ⟨df0, rl, cw, h0, hr, hcl, hc, hpt, hrl, _, _, _⟩ := h.blocks
  have hl : df0.nrows = df.nrows := by
    have := h0.rows_len
    rw [hr, h.wf.rows_len] at this
    exact this.symm
  have erl := getRowLens_cut hc hpt hrl
  unfold LFrame.bandChunks
  rw [erl] at hz ⊢
  obtain ⟨cs, h1, h2, h3⟩ := mapM_zipIdx_shows (fun (p : Nat × Nat) i => m.take2d cfg (known i) (some (.range p.1 p.2)) none)
    (fun p c => c.Shows (df.ilocRows p.1 p.2)) (sliceBounds rl) 0 (by
      intro p hpm i
      obtain ⟨j, hj, hpe⟩ := List.getElem_of_mem hpm
      have hj' : j < rl.length := by simpa [sliceBounds_length] using hj
      have hbd : p = (off rl j, off rl (j + 1)) := by
        rw [← hpe]
        simp [sliceBounds_eq]
      have hsu : off rl (j + 1) = off rl j + rl[j] := off_succ hj'
      have hpos : 0 < rl[j] := by
        rcases Nat.eq_zero_or_pos rl[j] with h4 | h4
        · exact absurd (h4 ▸ List.getElem_mem hj') hz
        · exact h4
      have hle : off rl (j + 1) ≤ df.nrows := by
        have := off_le_sum rl (j + 1)
        rw [hc.rl_sum] at this
        omega
      obtain ⟨c, e1, e2⟩ := take2d_shows cfg hp hmr hmc h (known := known i) (kn := true) (fun _ _ _ => rfl)
        (rows := some (.range p.1 p.2)) (cols := none)
        (by intro q hq; cases hq; subst hbd; exact ⟨by omega, hle⟩) (by simp)
        (by intro a b hab; cases hab; subst hbd; show off rl j < off rl (j + 1); omega) (by simp)
        (by intro _ q hq; cases hq; exact List.nodup_range') (by simp)
      refine ⟨c, e1, ?_⟩
      have e3 := takeRows_range' h.wf (a := p.1) (b := p.2) (by subst hbd; show off rl j ≤ off rl (j + 1); omega) (by subst hbd; exact hle)
      rw [← e3]
      exact e2)
  refine ⟨cs, h1, ?_, h3⟩
  rw [h2, hpt]
  simp [Frame.cut, sliceBounds_length]

theorem chunkLengths_sum {n k : Nat} (hk : 0 < k) : (chunkLengths n k).sum = n := by
  unfold chunkLengths
  rw [List.sum_append, List.sum_replicate_nat]
  simp only [List.sum_cons, List.sum_nil, Nat.add_zero]
  have h1 := Nat.div_add_mod n k
  obtain ⟨j, rfl⟩ : ∃ j, k = j + 1 := ⟨k - 1, by omega⟩
  simp only [Nat.add_sub_cancel]
  have h2 : (j + 1) * (n / (j + 1)) = j * (n / (j + 1)) + n / (j + 1) := by rw [Nat.add_mul, Nat.one_mul]
  omega

theorem chunkLengths_pos {n k : Nat} (hk : 0 < k) (hn : k ≤ n) : ∀ x ∈ chunkLengths n k, x ≠ 0 := by
  have h1 : 0 < n / k := Nat.div_pos hn hk
  intro x hx
  unfold chunkLengths at hx
  simp only [List.mem_append, List.mem_replicate, List.mem_singleton] at hx
  rcases hx with ⟨_, rfl⟩ | rfl <;> omega

theorem chunkLengths_length {n k : Nat} (hk : 0 < k) : (chunkLengths n k).length = k := by
  unfold chunkLengths
  simp
  omega

theorem redivided_shows [DecidableEq ι] [DecidableEq κ] (cfg : Cfg) (hp : 1 ≤ cfg.nPartitions) (hmr : 1 ≤ cfg.minRow) {m : LFrame ι κ α}
    {df : Frame ι κ α} (h : m.Shows df) (h1 : m.defIndex = false) (h2 : m.defColumns = false) {lens : List Nat} (hne : lens ≠ [])
    (hs : lens.sum = df.nrows) (hz : ∀ x ∈ lens, x ≠ 0) :
    ∃ r, m.redivided cfg lens = some r ∧ r.Shows df ∧ r.getRowLens = lens := by
  have hr := shows_represents h h1 h2
  obtain ⟨rl, cw, hcut, hpt, hrl, hcw⟩ := hr.blocks
  obtain ⟨lens', ⟨_, _, _, h4, _⟩, h5⟩ := mapAxis_rows_cut' cfg hp hmr (columnLocal_id (ι := ι) (κ := κ) (α := α)) h.wf hcut false none (by simp)
    (some lens) (by simp) (by intro l hl _; cases hl; exact hs)
  have h4 := h4 lens rfl hne
  subst h4
  have ecut : ((sliceBounds lens').map fun p => (sliceBounds cw).map fun q => (df.ilocCols q.1 q.2).ilocRows p.1 p.2) = df.cut lens' cw := by
    unfold Frame.cut
    apply List.map_congr_left
    intro p _
    apply List.map_congr_left
    intro q _
    exact ilocCols_ilocRows_comm df _ _ _ _
  rw [ecut] at h5
  have hcut' : df.IsCut lens' cw := ⟨hne, hcut.cw_ne, hs, hcut.cw_sum⟩
  have hrep : (MFrame.mk (df.cut lens' cw) (some df.index) (some df.columns) (some lens') (some cw)).Represents df :=
    ⟨h.wf, ⟨lens', cw, hcut', rfl, Or.inr rfl, Or.inr rfl⟩, Or.inr rfl, Or.inr rfl⟩
  obtain ⟨r, e1, e2⟩ := represents_mk' hrep
  have hlens : r.getRowLens = lens' := by
    have e3 : r = filterEmpties (MFrame.mk (df.cut lens' cw) (some df.index) (some df.columns) (some lens') (some cw)) := by
      rw [mk'_eq_filterEmpties e1]
    rw [e3]
    unfold filterEmpties MFrame.getRowLens
    have hf : lens'.filter (· ≠ 0) = lens' := by
      rw [List.filter_eq_self]
      intro x hx
      simpa using hz x hx
    simp only
    split
    · rfl
    · simp only [Option.getD_some]
      exact hf
  refine ⟨{ r with defIndex := false, defColumns := false }, ?_, represents_shows e2, hlens⟩
  unfold LFrame.redivided
  have hg : m.getIndex = df.index := h.getIndex
  have hg2 : m.getColumns = df.columns := h.getColumns
  have hgw : m.getColWidths = cw := getColWidths_cut hcut hpt hcw
  have hsome : (some : Frame ι κ α → Option (Frame ι κ α)) = fun b => some ((fun f => f) b) := rfl
  rw [hpt, hsome, h5, Option.bind_some, hg, hg2, hgw, e1]
  rfl


/-- the numbers of rows of the chunks -/
def chunkSizes (rl : List Nat) (n : Nat) : Option Nat → List Nat
  | none => rl
  | some k => if k = rl.length then rl else chunkLengths n k

/-- what `get_chunks` accepts -/
def ChunksOk (rl : List Nat) (n : Nat) : Option Nat → Prop
  | none => 0 ∉ rl
  | some k => if k = rl.length then 0 ∉ rl else 0 < k ∧ k % rl.length = 0 ∧ k ≤ n

theorem getChunks_shows [DecidableEq ι] [DecidableEq κ] (cfg : Cfg) (hp : 1 ≤ cfg.nPartitions) (hmr : 1 ≤ cfg.minRow) (hmc : 1 ≤ cfg.minCol)
    (known : Nat → Nat → Nat → Bool × Bool) {m : LFrame ι κ α} {df : Frame ι κ α} (h : m.Shows df) {n : Option Nat}
    (hn : ChunksOk m.getRowLens df.nrows n)
    (hd : n = none ∨ n = some m.getRowLens.length ∨ (m.defIndex = false ∧ m.defColumns = false)) :
    ∃ cs, m.getChunks cfg known n = some cs ∧ cs.length = (chunkSizes m.getRowLens df.nrows n).length ∧
      (chunkSizes m.getRowLens df.nrows n).sum = df.nrows ∧ 0 ∉ chunkSizes m.getRowLens df.nrows n ∧ chunkSizes m.getRowLens df.nrows n ≠ [] ∧
      ∀ (i : Nat) (p : Nat × Nat) (c : LFrame ι κ α), (sliceBounds (chunkSizes m.getRowLens df.nrows n))[i]? = some p → cs[i]? = some c →
        c.Shows (df.ilocRows p.1 p.2) := by
  obtain ⟨df0, rl, cw, h0, hr, hcl, hc, hpt, hrl, _, _, _⟩ := h.blocks
  have hl : df0.nrows = df.nrows := by
    have := h0.rows_len
    rw [hr, h.wf.rows_len] at this
    exact this.symm
  have erl := getRowLens_cut hc hpt hrl
  have elen : m.parts.length = m.getRowLens.length := by rw [hpt, erl]; simp [Frame.cut, sliceBounds_length]
  have esum : m.getRowLens.sum = df.nrows := by rw [erl, hc.rl_sum, hl]
  have ene : m.getRowLens ≠ [] := by rw [erl]; exact hc.rl_ne
  have same : 0 ∉ m.getRowLens → ∃ cs, m.bandChunks cfg known = some cs ∧ cs.length = m.getRowLens.length ∧ m.getRowLens.sum = df.nrows ∧
      0 ∉ m.getRowLens ∧ m.getRowLens ≠ [] ∧ ∀ (i : Nat) (p : Nat × Nat) (c : LFrame ι κ α), (sliceBounds m.getRowLens)[i]? = some p →
        cs[i]? = some c → c.Shows (df.ilocRows p.1 p.2) := by
    intro hz
    obtain ⟨cs, h1, h2, h3⟩ := bandChunks_shows cfg hp hmr hmc known h hz
    exact ⟨cs, h1, by rw [h2, elen], esum, hz, ene, h3⟩
  cases n with
  | none => exact same hn
  | some k =>
    unfold ChunksOk at hn
    unfold LFrame.getChunks chunkSizes
    by_cases hk : k = m.getRowLens.length
    · simp only [elen, hk, ↓reduceIte] at hn ⊢
      exact same hn
    · simp only [elen, hk, ↓reduceIte] at hn ⊢
      obtain ⟨h1, h2, h3⟩ := hn
      have hd : m.defIndex = false ∧ m.defColumns = false := by
        rcases hd with h4 | h4 | h4
        · cases h4
        · cases h4; exact absurd rfl hk
        · exact h4
      have hi : m.getIndex.length = df.nrows := by rw [h.getIndex]; rfl
      have hpos : m.getRowLens.length ≠ 0 := by simpa using ene
      rw [hi, if_neg (by simp [h2, hpos]), if_neg (by omega), if_neg (by omega)]
      have hz := chunkLengths_pos h1 h3
      have hlen := chunkLengths_length (n := df.nrows) h1
      have hne : chunkLengths df.nrows k ≠ [] := by
        intro h5
        rw [h5] at hlen
        simp at hlen
        omega
      obtain ⟨r, r1, r2, r3⟩ := redivided_shows cfg hp hmr h hd.1 hd.2 hne (chunkLengths_sum h1) hz
      have hz' : 0 ∉ chunkLengths df.nrows k := fun h5 => hz 0 h5 rfl
      obtain ⟨cs, c1, c2, c3⟩ := bandChunks_shows cfg hp hmr hmc known r2 (by rw [r3]; exact hz')
      rw [r1, Option.bind_some]
      rw [r3] at c3
      refine ⟨cs, c1, ?_, chunkLengths_sum h1, hz', hne, c3⟩
      obtain ⟨df1, rl1, cw1, _, _, _, hc1, hpt1, hrl1, _, _, _⟩ := r2.blocks
      rw [c2, hpt1, ← r3, getRowLens_cut hc1 hpt1 hrl1]
      simp [Frame.cut, sliceBounds_length]

theorem named_ilocRows {df : Frame ι κ α} (h : df.WF) (a b : Nat) :
    (df.ilocRows a b).named = df.named.map fun e => (e.1, pySlice e.2 a b) := by
  unfold Frame.named
  have : (df.ilocRows a b).cols = df.cols.map fun v => pySlice v a b := by
    unfold Frame.cols
    rw [List.map_map]
    apply List.map_congr_left
    intro j hj
    exact h.column_ilocRows (List.mem_range.1 hj) a b
  rw [this]
  show df.columns.zip _ = _
  rw [List.zip_map_right]
  rfl

theorem kind_slice {u : Utf8 α} {nan : α} {kind : ColKind α} {vs : List α} (h : kind.Holds u nan vs) (a b : Nat) :
    kind.Holds u nan (pySlice vs a b) := by
  have hsub : ∀ v ∈ pySlice vs a b, v ∈ vs := fun v hv => List.mem_of_mem_drop (List.mem_of_mem_take hv)
  cases kind with
  | primitive => trivial
  | string => exact fun v hv => h v (hsub v hv)
  | categorical cats strings => exact ⟨fun v hv => h.1 v (hsub v hv), h.2⟩

theorem mapM_zipIdx_eq {A B : Type} (F : A → Nat → Option B) : ∀ (l : List A) (s : Nat) (bs : List B), bs.length = l.length →
    (∀ (i : Nat) (a : A) (b : B), l[i]? = some a → bs[i]? = some b → ∀ j, F a j = some b) →
    (l.zipIdx s).mapM (fun (p : A × Nat) => F p.1 p.2) = some bs := by
  intro l
  induction l with
  | nil =>
    intro s bs hl _
    have : bs = [] := by simpa using hl
    subst this; rfl
  | cons a l ih =>
    intro s bs hl h
    cases bs with
    | nil => cases hl
    | cons b bs =>
      have h1 := h 0 a b rfl rfl s
      have h2 := ih (s + 1) bs (by simpa using hl) (fun i a' b' ha hb => h (i + 1) a' b' (by simpa using ha) (by simpa using hb))
      rw [List.zipIdx_cons, List.mapM_cons]
      simp only [h1, h2, Option.bind_eq_bind, Option.bind_some, Option.pure_def]

theorem fromInterchange_spec [DecidableEq ι] [DecidableEq κ] [DecidableEq α] (cfg : Cfg) (hp : 1 ≤ cfg.nPartitions) (hmr : 1 ≤ cfg.minRow)
    (hmc : 1 ≤ cfg.minCol) (known : Nat → Nat → Nat → Bool × Bool) (knownCol : Nat → κ → Nat → Nat → Bool × Bool) (u : Utf8 α)
    (isMinusOne : α → Bool) (nan : α) (isStr : κ → Bool) (kind : κ → ColKind α) {m : LFrame ι κ α} {df : Frame ι κ α} (h : m.Shows df)
    (hu : df.columns.Nodup) (hc : df.columns ≠ []) (hstr : ∀ c ∈ df.columns, isStr c = true)
    (hk : ∀ e ∈ df.named, (kind e.1).Holds u nan e.2 ∧ (∀ cats s, kind e.1 = .categorical cats s → ∀ v ∈ e.2, isMinusOne v = false))
    {n : Option Nat} (hn : ChunksOk m.getRowLens df.nrows n)
    (hd : n = none ∨ n = some m.getRowLens.length ∨ (m.defIndex = false ∧ m.defColumns = false)) :
    m.fromInterchange cfg known knownCol u isMinusOne nan isStr kind n = some df := by
  obtain ⟨cs, h1, h2, h3, h4, h5, h6⟩ := getChunks_shows cfg hp hmr hmc known h hn hd
  generalize chunkSizes m.getRowLens df.nrows n = lens at h2 h3 h4 h5 h6
  unfold LFrame.fromInterchange
  rw [h1, Option.bind_some]
  have hchunk : cs.zipIdx.mapM (fun (c : LFrame ι κ α × Nat) => c.1.chunkToPandas cfg (knownCol c.2) u isMinusOne nan isStr kind) =
      some ((sliceBounds lens).map fun p => Frame.mk (List.range (df.ilocRows p.1 p.2).nrows) df.columns (df.ilocRows p.1 p.2).rows) := by
    apply mapM_zipIdx_eq (fun (c : LFrame ι κ α) i => c.chunkToPandas cfg (knownCol i) u isMinusOne nan isStr kind)
    · simp [sliceBounds_length, h2]
    · intro i c f hci hfi j
      rw [List.getElem?_map] at hfi
      cases hb : (sliceBounds lens)[i]? with
      | none => rw [hb] at hfi; cases hfi
      | some p =>
        rw [hb, Option.map_some, Option.some.injEq] at hfi
        rw [← hfi]
        have hs := h6 i p c hb hci
        obtain ⟨hi, hpe⟩ := List.getElem?_eq_some_iff.1 hb
        have hi' : i < lens.length := by simpa [sliceBounds_length] using hi
        have hbd : p = (off lens i, off lens (i + 1)) := by
          rw [← hpe]
          simp [sliceBounds_eq]
        have hsu : off lens (i + 1) = off lens i + lens[i] := off_succ hi'
        have hpos : 0 < lens[i] := by
          rcases Nat.eq_zero_or_pos lens[i] with h7 | h7
          · exact absurd (h7 ▸ List.getElem_mem hi') h4
          · exact h7
        have hle := off_le_sum lens (i + 1)
        have hrows : 0 < (df.ilocRows p.1 p.2).nrows := by
          subst hbd
          simp only [Frame.nrows] at h3
          simp only [Frame.nrows, Frame.ilocRows, pySlice, List.length_take, List.length_drop]
          omega
        apply chunkToPandas_shows cfg hp hmr hmc (knownCol j) u isMinusOne nan isStr kind hs hrows hu hc hstr
        intro e he
        rw [named_ilocRows h.wf] at he
        obtain ⟨e0, he0, rfl⟩ := List.mem_map.1 he
        refine ⟨kind_slice (hk e0 he0).1 _ _, fun cats s hcs v hv => (hk e0 he0).2 cats s hcs v ?_⟩
        exact List.mem_of_mem_drop (List.mem_of_mem_take hv)
  rw [hchunk, Option.bind_some]
  have hflat : ((sliceBounds lens).map fun p => (df.ilocRows p.1 p.2).rows).flatten = df.rows :=
    covers_lens lens df.rows (h.wf.rows_len.trans h3.symm)
  obtain ⟨q, qs, hq⟩ := List.exists_cons_of_ne_nil (sliceBounds_ne_nil h5)
  have hv : ∃ I, Frame.vcat ((sliceBounds lens).map fun p => Frame.mk (List.range (df.ilocRows p.1 p.2).nrows) df.columns (df.ilocRows p.1 p.2).rows) =
      some (Frame.mk I df.columns df.rows) := by
    rw [hq] at hflat ⊢
    simp only [List.map_cons, Frame.vcat]
    rw [if_pos (by simp [List.all_eq_true])]
    simp only [List.map_cons, List.map_map, Function.comp_def] at hflat ⊢
    exact ⟨_, congrArg (fun R => some (Frame.mk _ df.columns R)) hflat⟩
  obtain ⟨I, hv⟩ := hv
  rw [hv, Option.bind_some, h.getIndex, if_pos h.wf.rows_len]

theorem readColumns_some [DecidableEq κ] (isStr : κ → Bool) (read : κ → Option (List α)) : ∀ (cols seen : List κ) (r : List (κ × List α)),
    readColumns isStr read seen cols = some r → (∀ c ∈ cols, isStr c = true ∧ c ∉ seen) ∧ cols.Nodup := by
  intro cols
  induction cols with
  | nil => intro seen r _; exact ⟨fun _ h => absurd h (by simp), List.nodup_nil⟩
  | cons c cs ih =>
    intro seen r h
    rw [readColumns] at h
    split at h
    · cases h
    · next hc =>
      obtain ⟨vs, _, h⟩ := Option.bind_eq_some_iff.1 h
      obtain ⟨rest, h, _⟩ := Option.map_eq_some_iff.1 h
      obtain ⟨h1, h2⟩ := ih _ _ h
      simp only [Bool.or_eq_true, Bool.not_eq_true', List.contains_eq_mem, decide_eq_true_eq, not_or, Bool.not_eq_false] at hc
      refine ⟨?_, ?_⟩
      · intro d hd
        rcases List.mem_cons.1 hd with rfl | hd
        · exact hc
        · exact ⟨(h1 d hd).1, fun hs => (h1 d hd).2 (List.mem_append_left _ hs)⟩
      · rw [List.nodup_cons]
        exact ⟨fun hm => (h1 c hm).2 (List.mem_append_right _ (by simp)), h2⟩

theorem mapM_zipIdx_first {A B : Type} (f : A × Nat → Option B) (a : A) (l : List A) (r : List B) (h : (a :: l).zipIdx.mapM f = some r) :
    (f (a, 0)).isSome = true := by
  rw [List.zipIdx_cons, List.mapM_cons] at h
  cases hf : f (a, 0) with
  | none => rw [hf] at h; simp at h
  | some b => rfl

theorem fromInterchange_names [DecidableEq ι] [DecidableEq κ] [DecidableEq α] (cfg : Cfg) (hp : 1 ≤ cfg.nPartitions) (hmr : 1 ≤ cfg.minRow)
    (hmc : 1 ≤ cfg.minCol) (known : Nat → Nat → Nat → Bool × Bool) (knownCol : Nat → κ → Nat → Nat → Bool × Bool) (u : Utf8 α)
    (isMinusOne : α → Bool) (nan : α) (isStr : κ → Bool) (kind : κ → ColKind α) {m : LFrame ι κ α} {df : Frame ι κ α} (h : m.Shows df)
    {n : Option Nat} (hn : ChunksOk m.getRowLens df.nrows n)
    (hd : n = none ∨ n = some m.getRowLens.length ∨ (m.defIndex = false ∧ m.defColumns = false)) {g : Frame ι κ α}
    (hr : m.fromInterchange cfg known knownCol u isMinusOne nan isStr kind n = some g) :
    df.columns.Nodup ∧ ∀ c ∈ df.columns, isStr c = true := by
  obtain ⟨cs, h1, h2, h3, h4, h5, h6⟩ := getChunks_shows cfg hp hmr hmc known h hn hd
  generalize chunkSizes m.getRowLens df.nrows n = lens at h2 h3 h4 h5 h6
  unfold LFrame.fromInterchange at hr
  rw [h1, Option.bind_some] at hr
  obtain ⟨fs, hfs, _⟩ := Option.bind_eq_some_iff.1 hr
  cases cs with
  | nil => exact absurd (List.length_eq_zero_iff.1 h2.symm) h5
  | cons c cs =>
    have hlen : 0 < (sliceBounds lens).length := by rw [sliceBounds_length, ← h2]; simp
    have hs := h6 0 _ c (List.getElem?_eq_getElem hlen) rfl
    obtain ⟨f, hf⟩ := Option.isSome_iff_exists.1 (mapM_zipIdx_first _ c cs fs hfs)
    unfold LFrame.chunkToPandas at hf
    obtain ⟨r, hread, _⟩ := Option.bind_eq_some_iff.1 hf
    have hnames := readColumns_some _ _ _ _ _ hread
    rw [hs.getColumns] at hnames
    exact ⟨hnames.2, fun c hc => (hnames.1 c hc).1⟩
