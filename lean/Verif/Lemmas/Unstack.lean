import Verif.Model.Unstack
import Verif.Lemmas.Dummies
import Verif.Lemmas.SetMask
import Verif.Lemmas.Interchange
import Verif.Lemmas.Describe
/-
Lemmas on `stack`, `unstack` and `pivot`.
-/

variable {ι ι' κ κ' α β A B : Type}

theorem mapAxis_bands' [DecidableEq ι] [DecidableEq κ] (cfg : Cfg) (func : Frame ι κ α → Option (Frame ι' κ' β)) (g : Grid ι κ α) :
    mapAxisPartitions cfg false func g true none none = applyRowBands cfg (fun _ => func) g true none := by
  unfold mapAxisPartitions applyRowBands
  simp only [Bool.true_and, Option.isSome_none, Bool.false_eq_true, ↓reduceIte, truthyLengths, Option.bind_eq_bind]
  rw [mapIdx_same]
  generalize axisNumSplits cfg true none none (gridWidth g) = k
  generalize hf : (fun parts => deployAxisFunc false func k true parts cfg.minCol none false) = f
  have : ∀ l : List (List (Frame ι κ α)), (l.mapM f).bind (fun b => pure b) = (l.map f).mapM id := by
    intro l
    rw [Option.bind_eq_bind.symm, bind_pure]
    induction l with
    | nil => rfl
    | cons x l ih => rw [List.mapM_cons, List.map_cons, List.mapM_cons, ih]; rfl
  exact this g

/-- row partitions one by one, with results of any number of rows: the row labels are read off the blocks -/
theorem applyFullLines_bands [DecidableEq ι] [DecidableEq κ] [DecidableEq ι'] [DecidableEq κ'] (cfg : Cfg) (hmc : 1 ≤ cfg.minCol)
    {m : LFrame ι κ α} {df : Frame ι κ α} (h : m.Shows df) (func : Frame ι κ α → Option (Frame ι' κ' β)) (K : List κ') :
    ∃ rl, rl ≠ [] ∧ rl.sum = df.nrows ∧
      (∀ F : Frame ι κ α → Frame ι' κ' β, (∀ b ∈ bandsOf rl df, func b = some (F b) ∧ (F b).WF ∧ (F b).columns = K) →
        ∃ m', m.applyFullLines cfg func none (some K) = some m' ∧ m'.Shows (Frame.stackRows K ((bandsOf rl df).map F))) ∧
      ((∃ b ∈ bandsOf rl df, func b = none) → m.applyFullLines cfg func none (some K) = none) := by
  obtain ⟨m1, e1, h1⟩ := synced_spec h
  obtain ⟨rl, cw, hc, hpp, hrl, hcw⟩ := h1.blocks
  refine ⟨rl, hc.rl_ne, hc.rl_sum, ?_, ?_⟩
  · intro F hF
    have hk : 1 ≤ axisNumSplits cfg true none none cw.length := by
      have : 0 < cw.length := List.length_pos_iff.2 hc.cw_ne
      simp [axisNumSplits]; omega
    obtain ⟨lens, h2, h3, h4, h5⟩ := applyRowBands_cut cfg hmc (fun _ => F) h.wf hc (fun _ => func) K
      (fun i b hb => hF b (List.mem_of_getElem? hb)) true none hk
    rw [mapIdx_same] at h5
    have hne : (bandsOf rl df).map F ≠ [] := by simpa using bandsOf_ne hc.rl_ne df
    have hcut := stackRows_isCut K hne h2 h3
    have hwf : (Frame.stackRows K ((bandsOf rl df).map F)).WF := by
      apply stackRows_wf
      intro f hf
      obtain ⟨b, hb, rfl⟩ := List.mem_map.1 hf
      exact (hF b hb).2
    unfold LFrame.applyFullLines
    rw [e1, Option.bind_some, hpp, mapAxis_bands', h5, Option.bind_some]
    have hs : LFrame.Shows ⟨⟨(Frame.stackRows K ((bandsOf rl df).map F)).cut (((bandsOf rl df).map F).map (·.nrows)) lens, none, some K,
        none, (some K).bind fun c => m1.colWidths.bind fun w => if c.length = w.sum ∧ w.all (· != 0) then some w else none⟩, false, true⟩
        (Frame.stackRows K ((bandsOf rl df).map F)) := by
      refine ⟨hwf, ⟨_, _, _, hwf, rfl, rfl, hcut, rfl, Or.inl rfl, ?_, fun _ => rfl, fun _ => rfl⟩, Or.inl ⟨rfl, rfl⟩, Or.inr rfl⟩
      rcases hcw with e | e
      · left; simp [e]
      · simp only [e, Option.bind_some]
        split
        · rename_i hcond
          right
          have hax : axisNumSplits cfg true none none cw.length = cw.length := by simp [axisNumSplits]
          rw [hax] at h4
          rw [deployLens_same rfl h4 hcond.1]
        · exact Or.inl rfl
    obtain ⟨r, e3, e4⟩ := mk'_shows hs
    refine ⟨_, ?_, e4⟩
    show (MFrame.mk' ⟨_, none, _, none, _⟩).map _ = _
    rw [e3]
    rfl
  · rintro ⟨b, hb, hn⟩
    obtain ⟨i, hi⟩ := List.getElem?_of_mem hb
    unfold LFrame.applyFullLines
    rw [e1, Option.bind_some, hpp, mapAxis_bands', applyRowBands_none cfg (fun _ => func) h.wf hc hi hn]
    rfl

/-- a function of whole columns that makes any number of columns of each: all labels are read off the blocks -/
theorem applyFullColumns_labels_shows [DecidableEq ι] [DecidableEq κ] [DecidableEq ι'] [DecidableEq κ'] (cfg : Cfg)
    (hp : 1 ≤ cfg.nPartitions) (hr : 1 ≤ cfg.minRow) {m : LFrame ι κ α} {df : Frame ι κ α} (h : m.Shows df)
    {func : Frame ι κ α → Option (Frame ι' κ' β)} {F : Frame ι κ α → Frame ι' κ' β} (hF : ColumnLocal F)
    (hfunc : ∀ a b, func (df.ilocCols a b) = some (F (df.ilocCols a b))) :
    ∃ m', m.applyFullColumns cfg func none none = some m' ∧ m'.Shows (F df) := by
  obtain ⟨m1, e1, h1⟩ := synced_spec h
  obtain ⟨rl, cw, hc, hpp, hrl, hcw⟩ := h1.blocks
  obtain ⟨lens, ⟨h2, h3, h4, _, _⟩, h5⟩ := mapAxis_rows_cut' cfg hp hr hF h.wf hc true none (by simp) none (by simp) (by simp)
  rw [← mapAxis_rows_congr cfg h.wf hc true none none hfunc] at h5
  have hwf' := hF.1 df h.wf
  have hcat : Frame.hcat (((sliceBounds cw).map fun q => df.ilocCols q.1 q.2).map F) = some (F df) :=
    hF.2 _ _ (by intro x hx; simp only [List.mem_map] at hx; obtain ⟨q, _, rfl⟩ := hx; exact h.wf.ilocCols _ _)
      (hcat_cols_cut h.wf hc)
  obtain ⟨hne, hidx, hst⟩ := hcat_parts hcat
  have hwfq : ∀ q : Nat × Nat, (F (df.ilocCols q.1 q.2)).WF := fun q => hF.1 _ (h.wf.ilocCols _ _)
  have h6 : ((sliceBounds lens).map fun p => (sliceBounds cw).map fun q => (F (df.ilocCols q.1 q.2)).ilocRows p.1 p.2)
      = (F df).cut lens ((sliceBounds cw).map fun q => (F (df.ilocCols q.1 q.2)).ncols) := by
    have hb := colBlocks_bands (F df).index lens h2 (((sliceBounds cw).map fun q => df.ilocCols q.1 q.2).map F) hne
      (fun R hR => ⟨by
        obtain ⟨b, hb, rfl⟩ := List.mem_map.1 hR
        obtain ⟨q, _, rfl⟩ := List.mem_map.1 hb
        exact hwfq q, hidx R hR⟩)
    rw [colBlocks_matrix _ (sliceBounds lens) (fun R p => R.ilocRows p.1 p.2) hne, ← hst] at hb
    simpa [List.map_map, Function.comp_def] using hb
  rw [h6] at h5
  have hc' : (F df).IsCut lens ((sliceBounds cw).map fun q => (F (df.ilocCols q.1 q.2)).ncols) := by
    have := stackCols_isCut (F df).index lens h2 h3 _ hne
    rw [← hst] at this
    simpa [List.map_map, Function.comp_def] using this
  unfold LFrame.applyFullColumns
  rw [e1, Option.bind_some, hpp, h5, Option.bind_some]
  have hs : LFrame.Shows ⟨⟨(F df).cut lens ((sliceBounds cw).map fun q => (F (df.ilocCols q.1 q.2)).ncols), none, none, none, none⟩,
      false, false⟩ (F df) :=
    ⟨hwf', ⟨F df, lens, _, hwf', rfl, rfl, hc', rfl, Or.inl rfl, Or.inl rfl, fun _ => rfl, fun _ => rfl⟩, Or.inl ⟨rfl, rfl⟩,
      Or.inl ⟨rfl, rfl⟩⟩
  obtain ⟨r, e3, e4⟩ := mk'_shows hs
  refine ⟨_, ?_, e4⟩
  show (MFrame.mk' ⟨_, none, none, none, none⟩).map _ = _
  rw [e3]
  rfl

/-- a function that fails on every column partition -/
theorem applyFullColumns_refused [DecidableEq ι] [DecidableEq κ] (cfg : Cfg) {m : LFrame ι κ α} {df : Frame ι κ α} (h : m.Shows df)
    {func : Frame ι κ α → Option (Frame ι' κ' β)} (hf : ∀ a b, func (df.ilocCols a b) = none) (newIndex : Option (List ι'))
    (newColumns : Option (List κ')) : m.applyFullColumns cfg func newIndex newColumns = none := by
  rw [← applyFullColumns_none cfg h (func := fun _ => none) (fun _ => rfl) newIndex newColumns]
  obtain ⟨m1, e1, h1⟩ := synced_spec h
  obtain ⟨rl, cw, hc, hpp, hrl, hcw⟩ := h1.blocks
  unfold LFrame.applyFullColumns
  rw [e1, Option.bind_some, Option.bind_some, hpp, mapAxis_rows_congr cfg h.wf hc true none none (func' := fun _ => none) hf]

/-! ### stack -/

theorem seriesOf_wf (cells : List (ι × α)) : (seriesOf cells).WF :=
  ⟨by simp [seriesOf], by
    intro r hr
    simp only [seriesOf, List.mem_map] at hr
    obtain ⟨c, _, rfl⟩ := hr
    rfl⟩

theorem stackRows_seriesOf {T : Type} (l : List T) (f : T → List (ι × α)) :
    Frame.stackRows [()] (l.map fun b => seriesOf (f b)) = seriesOf (l.flatMap f) := by
  unfold Frame.stackRows seriesOf
  simp [List.map_flatMap, List.flatMap_def, List.map_map, Function.comp_def]

/-- the labelled rows of the row partitions, one after the other, are those of the frame -/
theorem bandsOf_zip {df : Frame ι κ α} (h : df.WF) {rl : List Nat} (hs : rl.sum = df.nrows) :
    ((bandsOf rl df).flatMap fun b => b.index.zip b.rows) = df.index.zip df.rows := by
  have := covers_lens rl (df.index.zip df.rows) (by rw [List.length_zip, h.rows_len, Nat.min_self]; exact hs.symm)
  rw [← this]
  simp [bandsOf, List.flatMap_def, List.map_map, Function.comp_def, Frame.ilocRows, pySlice_zip]

theorem stack_shows [DecidableEq ι] [DecidableEq κ] (cfg : Cfg) (hmc : 1 ≤ cfg.minCol) (isna : α → Bool) (drop : Bool)
    {m : LFrame ι κ α} {df : Frame ι κ α} (h : m.Shows df) :
    ∃ m', m.stack cfg isna drop = some m' ∧ m'.Shows (df.stack isna drop) := by
  obtain ⟨rl, _, hs, hok, _⟩ := applyFullLines_bands cfg hmc h (fun b => some (b.stack isna drop)) [()]
  obtain ⟨m', e1, e2⟩ := hok (fun b => b.stack isna drop) (fun b _ => ⟨rfl, seriesOf_wf _, rfl⟩)
  refine ⟨m', e1, ?_⟩
  have hb : (bandsOf rl df).map (fun b => b.stack isna drop) = (bandsOf rl df).map fun b => seriesOf ((b.index.zip b.rows).flatMap fun r =>
      ((df.columns.zip r.2).filter fun c => !(drop && isna c.2)).map fun c => ((r.1, c.1), c.2)) := by
    apply List.map_congr_left
    intro b hb
    unfold Frame.stack
    rw [(bandsOf_wf h.wf rl b hb).2]
  rw [hb, stackRows_seriesOf, ← List.flatMap_assoc, bandsOf_zip h.wf hs] at e2
  exact e2

/-! ### unstack, one level of row labels -/

theorem flatMap_append_perm' {X Y : Type} (l : List X) (f g : X → List Y) :
    (l.flatMap fun x => f x ++ g x).Perm (l.flatMap f ++ l.flatMap g) := by
  induction l with
  | nil => exact List.Perm.refl _
  | cons x l ih =>
    simp only [List.flatMap_cons]
    have h1 : ((f x ++ g x) ++ l.flatMap fun x => f x ++ g x).Perm ((f x ++ g x) ++ (l.flatMap f ++ l.flatMap g)) := ih.append_left _
    refine h1.trans ?_
    simp only [List.append_assoc]
    refine List.Perm.append_left _ ?_
    rw [← List.append_assoc, ← List.append_assoc]
    exact List.perm_append_comm.append_right _

theorem flatMap_swap_perm {X Y Z : Type} (l : List X) (r : List Y) (f : X → Y → List Z) :
    (l.flatMap fun x => r.flatMap (f x)).Perm (r.flatMap fun y => l.flatMap fun x => f x y) := by
  induction r with
  | nil => simp
  | cons y r ih =>
    simp only [List.flatMap_cons]
    exact (flatMap_append_perm' l (fun x => f x y) (fun x => r.flatMap (f x))).trans (ih.append_left _)

theorem byColumn_band {df : Frame ι κ α} (h : df.WF) (a b : Nat) :
    (df.ilocRows a b).byColumn = df.named.flatMap fun c => (pySlice (df.index.zip c.2) a b).map fun p => ((c.1, p.1), p.2) := by
  unfold Frame.byColumn
  rw [named_ilocRows h, List.flatMap_map]
  simp only [pySlice_zip]
  rfl

/-- the cells of the row partitions are those of the frame in another order -/
theorem byColumn_perm {df : Frame ι κ α} (h : df.WF) {rl : List Nat} (hs : rl.sum = df.nrows) :
    ((bandsOf rl df).flatMap Frame.byColumn).Perm df.byColumn := by
  have h1 : (bandsOf rl df).flatMap Frame.byColumn = (sliceBounds rl).flatMap fun p => df.named.flatMap fun c =>
      (pySlice (df.index.zip c.2) p.1 p.2).map fun q => ((c.1, q.1), q.2) := by
    unfold bandsOf
    rw [List.flatMap_map]
    simp only [byColumn_band h]
  have h2 : df.byColumn = df.named.flatMap fun c => (sliceBounds rl).flatMap fun p =>
      (pySlice (df.index.zip c.2) p.1 p.2).map fun q => ((c.1, q.1), q.2) := by
    unfold Frame.byColumn
    apply flatMap_congr_mem
    intro c hc
    have hl : (df.index.zip c.2).length = rl.sum := by
      rw [List.length_zip, Frame.named_sized h c hc, Nat.min_self, hs]
      rfl
    have := covers_lens rl (df.index.zip c.2) hl
    conv => lhs; rw [← this]
    rw [List.map_flatten, List.flatMap_def, List.map_map]
    rfl
  rw [h1, h2]
  exact flatMap_swap_perm _ _ _

theorem byColumn_labels {df : Frame ι κ α} (h : df.WF) : df.byColumn.map (·.1) = productLabels df.columns df.index := by
  unfold Frame.byColumn productLabels
  rw [List.map_flatMap, ← named_labels df, List.flatMap_map]
  apply flatMap_congr_mem
  intro c hc
  rw [List.map_map]
  have hl := Frame.named_sized h c hc
  have : (df.index.zip c.2).map (·.1) = df.index := List.map_fst_zip (by omega)
  conv => rhs; rw [← this]
  rw [List.map_map]
  rfl

theorem productLabels_nodup {columns : List κ} {index : List ι} (hc : columns.Nodup) (hi : index.Nodup) :
    (productLabels columns index).Nodup := by
  unfold productLabels
  induction columns with
  | nil => exact List.nodup_nil
  | cons c cs ih =>
    rw [List.nodup_cons] at hc
    rw [List.flatMap_cons, List.nodup_append]
    refine ⟨?_, ih hc.2, ?_⟩
    · have := List.pairwise_map.2 (hi.imp (R := fun a b : ι => a ≠ b) (S := fun a b => ((c, a) : κ × ι) ≠ (c, b)) (fun hab e => hab (Prod.mk.inj e).2))
      exact this
    · intro x hx y hy e
      obtain ⟨i, _, rfl⟩ := List.mem_map.1 hx
      obtain ⟨d, hd, hy⟩ := List.mem_flatMap.1 hy
      obtain ⟨j, _, rfl⟩ := List.mem_map.1 hy
      exact hc.1 ((Prod.mk.inj e).1 ▸ hd)

theorem keys_determine {X Y : Type} {P : List (X × Y)} (h : (P.map (·.1)).Nodup) {e e' : X × Y} (he : e ∈ P) (he' : e' ∈ P) (hk : e.1 = e'.1) :
    e = e' := by
  induction P with
  | nil => cases he
  | cons p P ih =>
    rw [List.map_cons, List.nodup_cons] at h
    rcases List.mem_cons.1 he with h1 | h1
    · rcases List.mem_cons.1 he' with h2 | h2
      · rw [h1, h2]
      · refine absurd ?_ h.1
        rw [← h1, hk]
        exact List.mem_map_of_mem h2
    · rcases List.mem_cons.1 he' with h2 | h2
      · refine absurd ?_ h.1
        rw [← h2, ← hk]
        exact List.mem_map_of_mem h1
      · exact ih h.2 h1 h2

theorem find_key {X Y : Type} [DecidableEq X] {P : List (X × Y)} (h : (P.map (·.1)).Nodup) {e : X × Y} (he : e ∈ P) :
    P.find? (fun p => p.1 == e.1) = some e := by
  cases hf : P.find? (fun p => p.1 == e.1) with
  | none => exact absurd (List.find?_eq_none.1 hf e he) (by simp)
  | some p =>
    have h1 := List.find?_some hf
    have h2 := List.mem_of_find?_eq_some hf
    rw [keys_determine h h2 he (by simpa using h1)]

/-- a Series relabelled to the labels of another order of its cells -/
theorem reindex_seriesOf [DecidableEq ι] (fill : α) {P Q : List (ι × α)} (hp : P.Perm Q) (hn : (Q.map (·.1)).Nodup) :
    (seriesOf P).reindexIndex fill (Q.map (·.1)) = some (seriesOf Q) := by
  have hnP : (P.map (·.1)).Nodup := (hp.map (·.1)).nodup_iff.2 hn
  unfold Frame.reindexIndex
  by_cases h1 : (seriesOf P).index = Q.map (·.1)
  · rw [if_pos h1]
    have h2 : P.map (·.1) = Q.map (·.1) := h1
    have : P = Q := by
      apply List.ext_getElem
      · exact hp.length_eq
      · intro i hi hj
        apply keys_determine hn (hp.mem_iff.1 (List.getElem_mem hi)) (List.getElem_mem hj)
        have := congrArg (·[i]?) h2
        simpa [hi, hj] using this
    rw [this]
  · rw [if_neg h1, if_pos (show (seriesOf P).index.Nodup from hnP)]
    unfold seriesOf
    simp only [List.map_map, Function.comp_def]
    congr 2
    apply List.map_congr_left
    intro e he
    have hz : (P.map (·.1)).zip (P.map fun c => [c.2]) = P.map fun c => (c.1, [c.2]) := by
      rw [List.zip_map']
    rw [hz, List.find?_map]
    have := find_key hnP (hp.mem_iff.2 he)
    simp only [Function.comp_def]
    rw [this]
    rfl

theorem unstackFlat_shows [DecidableEq ι] [DecidableEq κ] (cfg : Cfg) (hp : 1 ≤ cfg.nPartitions) (hmr : 1 ≤ cfg.minRow)
    (hmc : 1 ≤ cfg.minCol) (nan : α) {m : LFrame ι κ α} {df : Frame ι κ α} (h : m.Shows df) (hc : df.columns.Nodup) (hi : df.index.Nodup) :
    ∃ m', m.unstackFlat cfg nan = some m' ∧ m'.Shows (seriesOf df.byColumn) := by
  obtain ⟨rl, _, hs, hok, _⟩ := applyFullLines_bands cfg hmc h (fun b => b.unstackFlat) [()]
  obtain ⟨r, e1, e2⟩ := hok (fun b => seriesOf b.byColumn) (fun b hb => ⟨if_pos (by
    obtain ⟨p, _, rfl⟩ := List.mem_map.1 hb
    exact hi.sublist (by
      show (pySlice df.index p.1 p.2).Sublist df.index
      unfold pySlice
      exact (List.take_sublist _ _).trans (List.drop_sublist _ _))), seriesOf_wf _, rfl⟩)
  rw [stackRows_seriesOf] at e2
  unfold LFrame.unstackFlat
  rw [e1, Option.bind_some, h.getIndex, h.getColumns, ← byColumn_labels h.wf]
  exact reindexRowsTo_some cfg hp hmr nan e2 (reindex_seriesOf nan (byColumn_perm h.wf hs) (by
    rw [byColumn_labels h.wf]; exact productLabels_nodup hc hi))

theorem product_bands_ne {c1 c2 : κ} (hc : c1 ≠ c2) (cs : List κ) (Is : List (List ι)) (hI : ∀ I ∈ Is, I.Nodup) (hn : ¬Is.flatten.Nodup) :
    (Is.flatMap fun I => productLabels (c1 :: c2 :: cs) I) ≠ productLabels (c1 :: c2 :: cs) Is.flatten := by
  induction Is with
  | nil => exact absurd List.nodup_nil hn
  | cons I Is ih =>
    cases I with
    | nil =>
      have h0 : productLabels (c1 :: c2 :: cs) ([] : List ι) = [] := by simp [productLabels]
      rw [List.flatMap_cons, h0, List.nil_append, List.flatten_cons, List.nil_append]
      exact ih (fun J hJ => hI J (List.mem_cons_of_mem _ hJ)) (by simpa using hn)
    | cons i I =>
      intro e
      cases hf : Is.flatten with
      | nil =>
        rw [List.flatten_cons, hf, List.append_nil] at hn
        exact hn (hI _ (List.mem_cons_self ..))
      | cons j J =>
        rw [List.flatMap_cons, List.flatten_cons, hf] at e
        unfold productLabels at e
        simp only [List.flatMap_cons, List.map_append, List.append_assoc] at e
        have e := List.append_cancel_left e
        simp only [List.map_cons, List.cons_append, List.cons.injEq, Prod.mk.injEq] at e
        exact hc e.1.1.symm

theorem unstackFlat_refused [DecidableEq ι] [DecidableEq κ] (cfg : Cfg) (hmc : 1 ≤ cfg.minCol) (nan : α) {m : LFrame ι κ α}
    {df : Frame ι κ α} (h : m.Shows df) (hc : df.columns.Nodup) (h2 : 2 ≤ df.columns.length) (hi : ¬df.index.Nodup) :
    m.unstackFlat cfg nan = none := by
  obtain ⟨rl, hne, hs, hok, hno⟩ := applyFullLines_bands cfg hmc h (fun b => b.unstackFlat) [()]
  by_cases hb : ∃ b ∈ bandsOf rl df, ¬b.index.Nodup
  · obtain ⟨b, hb, hbn⟩ := hb
    unfold LFrame.unstackFlat
    rw [hno ⟨b, hb, if_neg hbn⟩]
    rfl
  · have hb : ∀ b ∈ bandsOf rl df, b.index.Nodup := fun b hbm => Classical.byContradiction fun hbn => hb ⟨b, hbm, hbn⟩
    obtain ⟨r, e1, e2⟩ := hok (fun b => seriesOf b.byColumn) (fun b hbm => ⟨if_pos (hb b hbm), seriesOf_wf _, rfl⟩)
    rw [stackRows_seriesOf] at e2
    unfold LFrame.unstackFlat
    rw [e1, Option.bind_some, h.getIndex, h.getColumns]
    apply reindexRowsTo_none cfg nan e2
    unfold Frame.reindexIndex
    have hidx : ((bandsOf rl df).map (·.index)).flatten = df.index := by
      have := covers_lens rl df.index (by rw [hs]; rfl)
      simpa [bandsOf, List.map_map, Function.comp_def, Frame.ilocRows] using this
    have hlab : (seriesOf ((bandsOf rl df).flatMap Frame.byColumn)).index =
        ((bandsOf rl df).map (·.index)).flatMap fun I => productLabels df.columns I := by
      show ((bandsOf rl df).flatMap Frame.byColumn).map (·.1) = _
      rw [List.map_flatMap, List.flatMap_map]
      apply flatMap_congr_mem
      intro b hbm
      obtain ⟨w1, w2⟩ := bandsOf_wf h.wf rl b hbm
      rw [byColumn_labels w1, w2]
    obtain ⟨c1, c2, cs, hcs⟩ : ∃ c1 c2 cs, df.columns = c1 :: c2 :: cs := by
      match hd : df.columns, h2 with
      | c1 :: c2 :: cs, _ => exact ⟨c1, c2, cs, rfl⟩
    rw [if_neg, if_neg]
    · intro hn
      have hn : (((bandsOf rl df).flatMap Frame.byColumn).map (·.1)).Nodup := hn
      have := ((byColumn_perm h.wf hs).map (·.1)).nodup_iff.1 hn
      rw [byColumn_labels h.wf, hcs] at this
      unfold productLabels at this
      rw [List.flatMap_cons, List.nodup_append] at this
      exact hi ((List.pairwise_map.1 this.1).imp fun hab e => hab (by rw [e]))
    · rw [hlab, hcs]
      have := product_bands_ne (c1 := c1) (c2 := c2) (by
        rw [hcs] at hc
        rw [List.nodup_cons] at hc
        intro e
        exact hc.1 (e ▸ List.mem_cons_self ..)) cs ((bandsOf rl df).map (·.index)) (by
          intro I hI
          obtain ⟨b, hbm, rfl⟩ := List.mem_map.1 hI
          exact hb b hbm) (by rw [hidx]; exact hi)
      rwa [hidx] at this

/-! ### unstack, two levels of row labels -/

/-- `df.unstack(level=1)` of a frame whose row labels do not repeat -/
def Frame.unstacked [DecidableEq A] [DecidableEq B] (leA : A → A → Bool) (leB : B → B → Bool) (fill : α) (lab : κ → B → κ')
    (df : Frame (A × B) κ α) : Frame A κ' α :=
  Frame.ofCols (levelValues leA (df.index.map (·.1))) (df.named.flatMap (unstackColumn leA leB fill lab df.index))

theorem unstackColumns_sized [DecidableEq A] [DecidableEq B] (leA : A → A → Bool) (leB : B → B → Bool) (fill : α) (lab : κ → B → κ')
    (index : List (A × B)) (cs : List (κ × List α)) :
    Sized (levelValues leA (index.map (·.1))).length (cs.flatMap (unstackColumn leA leB fill lab index)) := by
  intro c hc
  obtain ⟨d, _, hc⟩ := List.mem_flatMap.1 hc
  obtain ⟨b, _, rfl⟩ := List.mem_map.1 hc
  simp

theorem unstacked_local [DecidableEq A] [DecidableEq B] (leA : A → A → Bool) (leB : B → B → Bool) (fill : α) (lab : κ → B → κ') :
    ColumnLocal (Frame.unstacked (κ := κ) leA leB fill lab) := by
  refine ⟨fun f _ => ofCols_wf (unstackColumns_sized leA leB fill lab f.index f.named), fun fs f hwf h => ?_⟩
  obtain ⟨hne, hidx⟩ := Frame.hcat_index h
  have hn := named_hcat hwf h
  have hmap : fs.map (Frame.unstacked leA leB fill lab) = fs.map fun b => Frame.ofCols (levelValues leA (f.index.map (·.1)))
      (b.named.flatMap (unstackColumn leA leB fill lab f.index)) := by
    apply List.map_congr_left
    intro b hb
    unfold Frame.unstacked
    rw [hidx b hb]
  rw [hmap, Frame.hcat_eq (r := levelValues leA (f.index.map (·.1))) (by simpa using hne) (by
    intro x hx
    obtain ⟨b, _, rfl⟩ := List.mem_map.1 hx
    rfl)]
  have := stackCols_ofCols (levelValues leA (f.index.map (·.1)))
    (fun b : Frame (A × B) κ α => b.named.flatMap (unstackColumn leA leB fill lab f.index)) fs
  unfold Frame.stackCols at this
  rw [this]
  unfold Frame.unstacked
  rw [hn, ← List.flatMap_def, List.flatMap_assoc]

theorem unstackInner_shows [DecidableEq A] [DecidableEq B] [DecidableEq κ] [DecidableEq κ'] (cfg : Cfg) (hp : 1 ≤ cfg.nPartitions)
    (hr : 1 ≤ cfg.minRow) (leA : A → A → Bool) (leB : B → B → Bool) (fill : α) (lab : κ → B → κ') {m : LFrame (A × B) κ α}
    {df : Frame (A × B) κ α} (h : m.Shows df) (hn : df.index.Nodup) :
    ∃ m', m.unstackInner cfg leA leB fill lab = some m' ∧ m'.Shows (df.unstacked leA leB fill lab) :=
  applyFullColumns_labels_shows cfg hp hr h (unstacked_local leA leB fill lab) (fun _ _ => if_pos hn)

theorem unstackInner_refused [DecidableEq A] [DecidableEq B] [DecidableEq κ] (cfg : Cfg) (leA : A → A → Bool)
    (leB : B → B → Bool) (fill : α) (lab : κ → B → κ') {m : LFrame (A × B) κ α} {df : Frame (A × B) κ α} (h : m.Shows df)
    (hn : ¬df.index.Nodup) : m.unstackInner cfg leA leB fill lab = none :=
  applyFullColumns_refused cfg h (fun _ _ => if_neg hn) none none

/-- the two levels of row labels exchanged -/
def Frame.swapped (df : Frame (A × B) κ α) : Frame (B × A) κ α :=
  { index := df.index.map fun l => (l.2, l.1), columns := df.columns, rows := df.rows }

theorem swapped_local [DecidableEq A] [DecidableEq B] : ColumnLocal (Frame.swapped (A := A) (B := B) (κ := κ) (α := α)) := by
  refine ⟨fun f hf => ⟨by simp [Frame.swapped, hf.rows_len], hf.row_width⟩, fun fs f hwf h => ?_⟩
  obtain ⟨hne, hidx⟩ := Frame.hcat_index h
  rw [Frame.hcat_eq hne hidx] at h
  simp only [Option.some.injEq] at h
  rw [Frame.hcat_eq (r := f.swapped.index) (by simpa using hne) (by
    intro x hx
    obtain ⟨b, hb, rfl⟩ := List.mem_map.1 hx
    simp [Frame.swapped, hidx b hb])]
  rw [← h]
  simp [Frame.swapped, List.map_map, Function.comp_def]

theorem swapped_nodup {df : Frame (A × B) κ α} : df.swapped.index.Nodup ↔ df.index.Nodup := by
  unfold Frame.swapped List.Nodup
  rw [List.pairwise_map]
  constructor
  · intro h
    exact h.imp fun hab e => hab (by rw [e])
  · intro h
    exact h.imp fun hab e => hab (Prod.ext (Prod.mk.inj e).2 (Prod.mk.inj e).1)

theorem unstackOuter_shows [DecidableEq A] [DecidableEq B] [DecidableEq κ] [DecidableEq κ'] (cfg : Cfg) (hp : 1 ≤ cfg.nPartitions)
    (hr : 1 ≤ cfg.minRow) (leA : A → A → Bool) (leB : B → B → Bool) (fill : α) (lab : κ → A → κ') {m : LFrame (A × B) κ α}
    {df : Frame (A × B) κ α} (h : m.Shows df) (hn : df.index.Nodup) :
    ∃ m', m.unstackOuter cfg leA leB fill lab = some m' ∧ m'.Shows (df.swapped.unstacked leB leA fill lab) := by
  have hloc : ColumnLocal fun f : Frame (A × B) κ α => f.swapped.unstacked leB leA fill lab := by
    refine ⟨fun f hf => (unstacked_local leB leA fill lab).1 _ (swapped_local.1 f hf), fun fs f hwf hcat => ?_⟩
    have := (unstacked_local leB leA fill lab).2 _ _ (by
      intro x hx
      obtain ⟨b, hb, rfl⟩ := List.mem_map.1 hx
      exact swapped_local.1 b (hwf b hb)) (swapped_local.2 fs f hwf hcat)
    rwa [List.map_map] at this
  exact applyFullColumns_labels_shows cfg hp hr h hloc (fun a b => if_pos (swapped_nodup.2 hn))

theorem unstackOuter_refused [DecidableEq A] [DecidableEq B] [DecidableEq κ] (cfg : Cfg) (leA : A → A → Bool)
    (leB : B → B → Bool) (fill : α) (lab : κ → A → κ') {m : LFrame (A × B) κ α} {df : Frame (A × B) κ α} (h : m.Shows df)
    (hn : ¬df.index.Nodup) : m.unstackOuter cfg leA leB fill lab = none :=
  applyFullColumns_refused cfg h (fun _ _ => if_neg (fun e => hn (swapped_nodup.1 e))) none none

/-! ### pivot -/

theorem named_nodup {df : Frame ι κ α} (h : df.columns.Nodup) : (df.named.map (·.1)).Nodup := by rwa [named_labels]

theorem onlyColumn_mem [DecidableEq κ] {df : Frame ι κ α} (hn : df.columns.Nodup) {e : κ × List α} (he : e ∈ df.named) :
    df.onlyColumn e.1 = some e.2 := by
  unfold Frame.onlyColumn
  rw [unique_of_nodup (named_nodup hn) he]

theorem mem_named_of_label {df : Frame ι κ α} {k : κ} (hk : k ∈ df.columns) : ∃ cells, (k, cells) ∈ df.named := by
  rw [← named_labels df] at hk
  obtain ⟨⟨a, b⟩, he, rfl⟩ := List.mem_map.1 hk
  exact ⟨b, he⟩

theorem ofCols_ilocRows {I : List ι} {cs : List (κ × List α)} (h : Sized I.length cs) (a b : Nat) :
    (Frame.ofCols I cs).ilocRows a b = Frame.ofCols (pySlice I a b) (cs.map fun e => (e.1, pySlice e.2 a b)) := by
  have hwf := ofCols_wf h
  have h1 := ofCols_named (hwf.ilocRows a b)
  rw [named_ilocRows hwf, named_ofCols h] at h1
  exact h1.symm

theorem onlyColumn_band [DecidableEq κ] {df : Frame ι κ α} (h : df.WF) {k : κ} {cells : List α} (hk : df.onlyColumn k = some cells) (a b : Nat) :
    (df.ilocRows a b).onlyColumn k = some (pySlice cells a b) := by
  unfold Frame.onlyColumn at hk ⊢
  rw [named_ilocRows h, List.filter_map]
  simp only [Function.comp_def]
  split at hk
  · rename_i c hc
    cases hk
    rw [hc]
    rfl
  · cases hk

theorem onlyColumn_length [DecidableEq κ] {df : Frame ι κ α} (h : df.WF) {k : κ} {cells : List α} (hk : df.onlyColumn k = some cells) :
    cells.length = df.index.length := by
  unfold Frame.onlyColumn at hk
  split at hk
  · rename_i c hc
    cases hk
    have : c ∈ df.named.filter fun c => decide (c.1 = k) := by rw [hc]; exact List.mem_singleton.2 rfl
    exact Frame.named_sized h c (List.mem_filter.1 this).1
  · cases hk

theorem indexedBy_lines [DecidableEq ι] [DecidableEq κ] [DecidableEq α] (cfg : Cfg) (hmc : 1 ≤ cfg.minCol) {m : LFrame ι κ α}
    {df : Frame ι κ α} (h : m.Shows df) {i c : κ} {ci cc : List α} (hi : df.onlyColumn i = some ci) (hc : df.onlyColumn c = some cc) :
    ∃ m', m.applyFullLines cfg (Frame.indexedBy i c) none (some (df.columns.filter fun k => decide (k ∉ [i, c]))) = some m' ∧
      m'.Shows (Frame.ofCols (ci.zip cc) (df.named.filter fun e => decide (e.1 ∉ [i, c]))) := by
  obtain ⟨rl, hne, hs, hok, _⟩ := applyFullLines_bands cfg hmc h (Frame.indexedBy i c)
    (df.columns.filter fun k => decide (k ∉ [i, c]))
  have hil : (ci.zip cc).length = df.index.length := by
    rw [List.length_zip, onlyColumn_length h.wf hi, onlyColumn_length h.wf hc, Nat.min_self]
  have hsz : Sized (ci.zip cc).length (df.named.filter fun e => decide (e.1 ∉ [i, c])) := by
    intro e he
    rw [hil]
    exact Frame.named_sized h.wf e (List.mem_filter.1 he).1
  have hR := ofCols_wf hsz
  have hcols : (df.named.filter fun e => decide (e.1 ∉ [i, c])).map (·.1) = df.columns.filter fun k => decide (k ∉ [i, c]) := by
    rw [← named_labels df, List.filter_map]
    rfl
  have hband : ∀ p : Nat × Nat, (df.ilocRows p.1 p.2).indexedBy i c =
      some ((Frame.ofCols (ci.zip cc) (df.named.filter fun e => decide (e.1 ∉ [i, c]))).ilocRows p.1 p.2) := by
    intro p
    unfold Frame.indexedBy
    rw [onlyColumn_band h.wf hi, onlyColumn_band h.wf hc, Option.bind_some, Option.bind_some, ofCols_ilocRows hsz, pySlice_zip,
      named_ilocRows h.wf, List.filter_map]
    rfl
  obtain ⟨m', e1, e2⟩ := hok (fun b => (b.indexedBy i c).getD (Frame.ofCols [] [])) (by
    intro b hb
    obtain ⟨p, _, rfl⟩ := List.mem_map.1 hb
    rw [hband p]
    exact ⟨rfl, hR.ilocRows _ _, hcols⟩)
  refine ⟨m', e1, ?_⟩
  have hmap : (bandsOf rl df).map (fun b => (b.indexedBy i c).getD (Frame.ofCols [] [])) =
      bandsOf rl (Frame.ofCols (ci.zip cc) (df.named.filter fun e => decide (e.1 ∉ [i, c]))) := by
    unfold bandsOf
    rw [List.map_map]
    apply List.map_congr_left
    intro p _
    simp only [Function.comp_def, hband p, Option.getD_some]
  rw [hmap, ← hcols] at e2
  have := stackRows_bandsOf hR (rl := rl) (cw := [(Frame.ofCols (ci.zip cc) (df.named.filter fun e => decide (e.1 ∉ [i, c]))).ncols])
    ⟨hne, by simp, by rw [hs]; exact hil.symm, by simp⟩
  rw [show (Frame.ofCols (ci.zip cc) (df.named.filter fun e => decide (e.1 ∉ [i, c]))).columns =
    (df.named.filter fun e => decide (e.1 ∉ [i, c])).map (·.1) from rfl] at this
  rwa [this] at e2

/-- the column labels of an unstacked frame changed one by one -/
theorem unstacked_relabel [DecidableEq A] [DecidableEq B] {κ'' : Type} (leA : A → A → Bool) (leB : B → B → Bool) (fill : α) (lab : κ → B → κ')
    (g : κ' → κ'') (df : Frame (A × B) κ α) :
    (⟨(df.unstacked leA leB fill lab).index, (df.unstacked leA leB fill lab).columns.map g, (df.unstacked leA leB fill lab).rows⟩ :
      Frame A κ'' α) = df.unstacked leA leB fill (fun k b => g (lab k b)) := by
  have hcs : df.named.flatMap (unstackColumn leA leB fill (fun k b => g (lab k b)) df.index) =
      (df.named.flatMap (unstackColumn leA leB fill lab df.index)).map fun e => (g e.1, e.2) := by
    rw [List.map_flatMap]
    unfold unstackColumn
    simp only [List.map_map, Function.comp_def]
  unfold Frame.unstacked
  rw [hcs]
  unfold Frame.ofCols
  simp only [List.map_map, Function.comp_def, List.filterMap_map]

/-- the column labels `pivot` ends up with when `n` columns are spread out -/
def spreadLabel (n : Nat) : κ → α → Option κ × α := fun k b => if n = 1 then (none, b) else (some k, b)

/-- the part of `pivot` behind the choice of columns -/
theorem pivot_core [DecidableEq ι] [DecidableEq κ] [DecidableEq α] (cfg : Cfg) (hp : 1 ≤ cfg.nPartitions) (hmr : 1 ≤ cfg.minRow)
    (hmc : 1 ≤ cfg.minCol) (le : α → α → Bool) (nan : α) {m : LFrame ι κ α} {df : Frame ι κ α} (h : m.Shows df) {i c : κ}
    {ci cc : List α} (hi : df.onlyColumn i = some ci) (hc : df.onlyColumn c = some cc) {rest : List (κ × List α)}
    (hrest : df.named.filter (fun e => decide (e.1 ∉ [i, c])) = rest) :
    ((m.applyFullLines cfg (Frame.indexedBy i c) none (some (m.getColumns.filter fun k => decide (k ∉ [i, c])))).bind fun r =>
      (r.unstackInner cfg le le nan fun k v => (some k, v)).bind fun u =>
      if r.getColumns.length = 1 then u.setColumns (u.getColumns.map fun l => (none, l.2)) else some u).bind (·.toPandas nan) =
    (Frame.ofCols (ci.zip cc) rest).unstackInner le le nan (spreadLabel rest.length) := by
  obtain ⟨r, e1, e2⟩ := indexedBy_lines cfg hmc h hi hc
  rw [hrest] at e2
  rw [h.getColumns, e1, Option.bind_some, e2.getColumns]
  by_cases hn : (ci.zip cc).Nodup
  · obtain ⟨u, e3, e4⟩ := unstackInner_shows cfg hp hmr le le nan (fun k v => ((some k, v) : Option κ × α)) e2 hn
    rw [e3, Option.bind_some]
    have hspec : (Frame.ofCols (ci.zip cc) rest).unstackInner le le nan (spreadLabel rest.length) =
        some ((Frame.ofCols (ci.zip cc) rest).unstacked le le nan (spreadLabel rest.length)) := if_pos hn
    rw [hspec]
    have hlen : (Frame.ofCols (ci.zip cc) rest).columns.length = rest.length := by simp [Frame.ofCols]
    rw [hlen]
    by_cases h1 : rest.length = 1
    · rw [if_pos h1, e4.getColumns]
      obtain ⟨u', e5, e6⟩ := setColumns_shows e4 _ (show Frame.setColumns (((Frame.ofCols (ci.zip cc) rest).unstacked le le nan
        fun k v => ((some k, v) : Option κ × α)).columns.map fun l => (none, l.2)) _ = some _ from if_pos (List.length_map ..))
      rw [e5, Option.bind_some, (e6.observed nan).1]
      congr 1
      have := unstacked_relabel le le nan (fun k v => ((some k, v) : Option κ × α)) (fun l => ((none, l.2) : Option κ × α))
        (Frame.ofCols (ci.zip cc) rest)
      rw [show (spreadLabel rest.length : κ → α → Option κ × α) = fun _ b => (none, b) by
        funext k b; unfold spreadLabel; rw [if_pos h1]]
      exact this
    · rw [if_neg h1, Option.bind_some, (e4.observed nan).1]
      rw [show (spreadLabel rest.length : κ → α → Option κ × α) = fun k b => (some k, b) by
        funext k b; unfold spreadLabel; rw [if_neg h1]]
  · rw [unstackInner_refused cfg le le nan _ e2 hn]
    exact (if_neg hn).symm

/-- the cells of the column called `k` -/
def Frame.cellsOf [DecidableEq κ] (df : Frame ι κ α) (k : κ) : List α := (df.onlyColumn k).getD []

theorem onlyColumn_cellsOf [DecidableEq κ] {df : Frame ι κ α} (hn : df.columns.Nodup) {k : κ} (hk : k ∈ df.columns) :
    df.onlyColumn k = some (df.cellsOf k) ∧ (df.named.filter fun e => decide (e.1 = k)) = [(k, df.cellsOf k)] := by
  obtain ⟨cells, he⟩ := mem_named_of_label hk
  have h1 := onlyColumn_mem hn he
  have h2 : df.cellsOf k = cells := by unfold Frame.cellsOf; rw [h1]; rfl
  rw [h2]
  exact ⟨h1, unique_of_nodup (named_nodup hn) he⟩

/-- columns taken by their labels -/
theorem named_takeLabels [DecidableEq κ] {df : Frame ι κ α} (h : df.WF) (hn : df.columns.Nodup) {labels : List κ}
    (hl : ∀ k ∈ labels, k ∈ df.columns) :
    (df.takeCols (labels.flatMap (positionsOf df.columns))).named = labels.map fun k => (k, df.cellsOf k) := by
  rw [named_takeCols h, List.flatMap_def, takeList_flatten, List.map_map, ← List.flatMap_def, List.map_eq_flatMap]
  apply flatMap_congr_mem
  intro k hk
  rw [Function.comp_apply, ← named_labels df, takeList_positions, (onlyColumn_cellsOf hn (hl k hk)).2]

theorem filterPy_some {p : κ → Option Bool} {q : κ → Bool} {l : List κ} (h : ∀ v ∈ l, p v = some (q v)) :
    filterPy p l = some (l.filter q) := by
  unfold filterPy
  have : (l.mapM fun v => (p v).map fun b => (v, b)) = some (l.map fun v => (v, q v)) := by
    induction l with
    | nil => rfl
    | cons v l ih =>
      rw [List.mapM_cons, h v (List.mem_cons_self ..), ih (fun w hw => h w (List.mem_cons_of_mem _ hw))]
      rfl
  rw [this, Option.map_some, List.filter_map, List.map_map]
  congr 1
  show (l.filter q).map id = _
  rw [List.map_id]

theorem pivotCompiled_spec [DecidableEq ι] [DecidableEq κ] [DecidableEq α] (cfg : Cfg) (hp : 1 ≤ cfg.nPartitions) (hmr : 1 ≤ cfg.minRow)
    (hmc : 1 ≤ cfg.minCol) (known : Nat → Nat → Bool × Bool) (le : α → α → Bool) (nan : α) {m : LFrame ι κ α} {df : Frame ι κ α}
    (h : m.Shows df) (hn : df.columns.Nodup) {i c : κ} (hi : i ∈ df.columns) (hc : c ∈ df.columns) (hic : i ≠ c) {vs : List κ}
    (hvs : vs.Nodup) (hv : ∀ v ∈ vs, v ∈ df.columns ∧ v ≠ i ∧ v ≠ c)
    (h0 : vs = [] → (df.columns.filter fun k => decide (k ≠ i) && decide (k ≠ c)) = []) :
    (m.pivotCompiled cfg known le nan i c vs).bind (·.toPandas nan) =
      (Frame.ofCols ((df.cellsOf i).zip (df.cellsOf c)) (vs.map fun k => (k, df.cellsOf k))).unstackInner le le nan
        (spreadLabel vs.length) := by
  unfold LFrame.pivotCompiled
  rw [if_neg hic]
  by_cases he : vs = []
  · rw [if_neg (by simpa using he), Option.bind_some]
    have hrest : df.named.filter (fun e => decide (e.1 ∉ [i, c])) = [] := by
      have := h0 he
      rw [← named_labels df, List.filter_map] at this
      rw [List.map_eq_nil_iff] at this
      rw [← this]
      apply List.filter_congr
      intro e _
      simp
    rw [pivot_core cfg hp hmr hmc le nan h (onlyColumn_cellsOf hn hi).1 (onlyColumn_cellsOf hn hc).1 hrest]
    subst he
    rfl
  · rw [if_pos he]
    have hl : ∀ k ∈ [i, c] ++ vs, k ∈ df.columns := by
      intro k hk
      simp only [List.mem_append, List.mem_cons, List.not_mem_nil, or_false] at hk
      rcases hk with (rfl | rfl) | hk
      · exact hi
      · exact hc
      · exact (hv k hk).1
    have hlab : ([i, c] ++ vs).Nodup := by
      rw [List.nodup_append]
      refine ⟨by simp [hic], hvs, ?_⟩
      intro a ha b hb e
      subst e
      simp only [List.mem_cons, List.not_mem_nil, or_false] at ha
      rcases ha with ha | ha
      · exact (hv a hb).2.1 ha
      · exact (hv a hb).2.2 ha
    obtain ⟨m1, e1, e2⟩ := takeColLabels_shows cfg hp hmr hmc known h hl hlab
    rw [e1, Option.bind_some]
    have hnm := named_takeLabels h.wf hn hl
    have hcols : (df.takeCols (([i, c] ++ vs).flatMap (positionsOf df.columns))).columns = [i, c] ++ vs := by
      rw [← named_labels, hnm, List.map_map]
      show List.map id _ = _
      rw [List.map_id]
    have hon : ∀ k ∈ [i, c] ++ vs, (df.takeCols (([i, c] ++ vs).flatMap (positionsOf df.columns))).onlyColumn k = some (df.cellsOf k) := by
      intro k hk
      exact onlyColumn_mem (e := (k, df.cellsOf k)) (by rw [hcols]; exact hlab) (by rw [hnm]; exact List.mem_map_of_mem hk)
    have hrest : (df.takeCols (([i, c] ++ vs).flatMap (positionsOf df.columns))).named.filter (fun e => decide (e.1 ∉ [i, c])) =
        vs.map fun k => (k, df.cellsOf k) := by
      rw [hnm, List.filter_map, List.filter_append]
      have h2 : ([i, c].filter ((fun e : κ × List α => decide (e.1 ∉ [i, c])) ∘ fun k => (k, df.cellsOf k))) = [] := by
        simp
      have h3 : (vs.filter ((fun e : κ × List α => decide (e.1 ∉ [i, c])) ∘ fun k => (k, df.cellsOf k))) = vs := by
        rw [List.filter_eq_self]
        intro v hv'
        have := hv v hv'
        simp [this.2.1, this.2.2]
      rw [h2, h3, List.nil_append]
    rw [pivot_core cfg hp hmr hmc le nan e2 (hon i (by simp)) (hon c (by simp)) hrest, List.length_map]

theorem mapM_onlyColumn [DecidableEq κ] {df : Frame ι κ α} (hn : df.columns.Nodup) {vs : List κ} (hv : ∀ v ∈ vs, v ∈ df.columns) :
    (vs.mapM fun v => (df.onlyColumn v).map fun cells => (v, cells)) = some (vs.map fun k => (k, df.cellsOf k)) := by
  induction vs with
  | nil => rfl
  | cons v vs ih =>
    rw [List.mapM_cons, (onlyColumn_cellsOf hn (hv v (List.mem_cons_self ..))).1, ih (fun w hw => hv w (List.mem_cons_of_mem _ hw))]
    rfl

theorem pivot_eq [DecidableEq κ] [DecidableEq α] (le : α → α → Bool) (nan : α) {df : Frame ι κ α} (hn : df.columns.Nodup) {i c : κ}
    (hi : i ∈ df.columns) (hc : c ∈ df.columns) (hic : i ≠ c) (values : PivotValues κ)
    (hv : ∀ v ∈ values.labels i c df.columns, v ∈ df.columns) :
    df.pivot le nan i c values = (Frame.ofCols ((df.cellsOf i).zip (df.cellsOf c))
      ((values.labels i c df.columns).map fun k => (k, df.cellsOf k))).unstackInner le le nan values.label := by
  unfold Frame.pivot
  rw [if_neg hic, (onlyColumn_cellsOf hn hi).1, (onlyColumn_cellsOf hn hc).1, Option.bind_some, Option.bind_some, mapM_onlyColumn hn hv,
    Option.bind_some]
