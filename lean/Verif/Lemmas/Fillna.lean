import Verif.Lemmas.CellsL
import Verif.Lemmas.Reindex
import Verif.Model.Fillna

variable {ι κ α β : Type}

/-! ### functions of a cell and its labels -/

theorem cellsL_every_plan [DecidableEq ι] [DecidableEq κ] (cfg : Cfg) (dyn : Bool) (cpu : Nat) (f : ι → κ → α → β)
    (df : Frame ι κ α) (hwf : df.WF) (rl cw : List Nat) (hcut : df.IsCut rl cw) :
    mapPartitions cfg dyn cpu (fun b => some (b.mapCellsL f)) (df.cut rl cw) = some ((df.mapCellsL f).cut rl cw) := by
  unfold mapPartitions
  cases dyn with
  | false =>
    simp only [Bool.not_false, ↓reduceIte, baseMapPartitions]
    rw [mapM_congr_some (g := fun row => row.map (·.mapCellsL f)) (fun row _ => mapM_some _ row),
      Frame.cut_mapCellsL]
  | true =>
    have hw : gridWidth (df.cut rl cw) = (sliceBounds cw).length :=
      gridWidth_matrix _ _ _ (sliceBounds_ne_nil hcut.rl_ne)
    have hpos : gridWidth (df.cut rl cw) ≠ 0 := by
      rw [hw, sliceBounds_length]
      exact fun h => hcut.cw_ne (List.eq_nil_of_length_eq_zero h)
    simp only [Bool.not_true, Bool.false_eq_true, ↓reduceIte, hpos]
    split
    · rename_i h
      simp only [Bool.and_eq_true, decide_eq_true_eq] at h
      exact mapJoined_cutL cfg f _ (by omega) hwf hcut
    · exact mapAxis_keep_cutL cfg _ f hwf hcut

theorem zipWith_left_irrel {A B C : Type} {f : A → B → C} (hf : ∀ a a', f a = f a') (l l' : List A) (r : List B) (h : l.length = l'.length) :
    List.zipWith f l r = List.zipWith f l' r := by
  induction l generalizing l' r with
  | nil => cases l' with
    | nil => rfl
    | cons _ _ => simp at h
  | cons a l ih => cases l' with
    | nil => simp at h
    | cons a' l' => cases r with
      | nil => rfl
      | cons b r =>
        simp only [List.zipWith_cons_cons]
        rw [ih l' r (by simpa using h), hf a a']

theorem mapCellsL_shows [DecidableEq ι] [DecidableEq κ] (cfg : Cfg) (dyn : Bool) (cpu : Nat) (g : ι → κ → α → β) {m : LFrame ι κ α}
    {df : Frame ι κ α} (h : m.Shows df) (hi : m.defIndex = false ∨ ∀ i i', g i = g i')
    (hk : m.defColumns = false ∨ ∀ i k k', g i k = g i k') :
    ∃ m', m.mapBlocks cfg dyn cpu (Frame.mapCellsL g) = some m' ∧ m'.Shows (df.mapCellsL g) := by
  obtain ⟨df0, rl, cw, hwf0, hrows, hcolsl, hc, hp, hrl, hcw, hI, hC⟩ := h.blocks
  have hm := cellsL_every_plan cfg dyn cpu g df0 hwf0 rl cw hc
  have hil : df0.index.length = df.index.length := by rw [← hwf0.rows_len, hrows, h.wf.rows_len]
  have hs : LFrame.Shows (LFrame.mk (MFrame.mk ((df0.mapCellsL g).cut rl cw) m.index m.columns m.rowLens m.colWidths) m.defIndex m.defColumns)
      (df.mapCellsL g) := by
    refine ⟨h.wf.mapCellsL g, ⟨df0.mapCellsL g, rl, cw, hwf0.mapCellsL g, ?_, hcolsl, isCut_congr hc rfl rfl, rfl, hrl, hcw, hI, hC⟩,
      h.index, h.columns⟩
    have e1 : ∀ (i : ι) (r : List α), List.zipWith (g i) df0.columns r = List.zipWith (g i) df.columns r := by
      intro i r
      rcases hk with hk | hk
      · rw [hC hk]
      · exact zipWith_left_irrel (hk i) _ _ _ hcolsl
    simp only [Frame.mapCellsL, hrows]
    simp only [e1]
    rcases hi with hi | hi
    · rw [hI hi]
    · exact zipWith_left_irrel (fun i i' => by rw [hi i i']) _ _ _ hil
  obtain ⟨r, e1, e2⟩ := mk'_shows hs
  refine ⟨_, ?_, e2⟩
  unfold LFrame.mapBlocks
  rw [hp, hm, Option.bind_some, e1]
  rfl

/-! ### functions of a column and its name -/

theorem zip_flatten_pairs {A B X : Type} (f : X → List A) (g : X → List B) (xs : List X) (h : ∀ x ∈ xs, (f x).length = (g x).length) :
    (xs.map f).flatten.zip (xs.map g).flatten = (xs.map fun x => (f x).zip (g x)).flatten := by
  induction xs with
  | nil => rfl
  | cons x xs ih =>
    simp only [List.map_cons, List.flatten_cons]
    rw [List.zip_append (h x (by simp)), ih fun y hy => h y (by simp [hy])]

theorem Frame.cols_len (f : Frame ι κ α) : f.columns.length = f.cols.length := by
  simp [Frame.cols, Frame.ncols]

theorem Frame.WF.mapNamed {f : Frame ι κ α} (hwf : f.WF) {h : κ → List α → List β} (hl : ∀ k c, (h k c).length = c.length) :
    (f.mapNamed h).WF := by
  constructor
  · simp [Frame.mapNamed, Frame.nrows]
  · intro r hr
    simp only [Frame.mapNamed, List.mem_map, List.mem_range] at hr ⊢
    obtain ⟨i, hi, rfl⟩ := hr
    rw [filterMap_length_of_some]
    · simp [Frame.cols, Frame.ncols]
    · intro c hc
      have hc := (List.of_mem_zip hc).2
      simp only [Frame.cols, List.mem_map, List.mem_range] at hc
      obtain ⟨j, hj, e⟩ := hc
      have := hl c.1 c.2
      rw [← e, hwf.column_length hj] at this
      rw [List.getElem?_eq_getElem (by rw [← e, this]; exact hi)]
      rfl

theorem columnLocal_mapNamed [DecidableEq ι] {h : κ → List α → List β} (hl : ∀ k c, (h k c).length = c.length) :
    ColumnLocal (fun f : Frame ι κ α => f.mapNamed h) := by
  refine ⟨fun f hwf => hwf.mapNamed hl, ?_⟩
  intro fs f hwf hcat
  obtain ⟨hne, hidx⟩ := Frame.hcat_index hcat
  have hcols := Frame.cols_hcat hwf hcat
  rw [Frame.hcat_eq (r := f.index) (by simpa using hne)]
  · rw [Frame.hcat_eq hne hidx] at hcat
    simp only [Option.some.injEq] at hcat
    have hcc : f.columns = (fs.map (·.columns)).flatten := by rw [← hcat]
    congr 1
    simp only [Frame.mapNamed, Frame.mk.injEq, true_and]
    refine ⟨?_, ?_⟩
    · rw [hcc]; simp only [List.map_map]; rfl
    · rw [hcols, hcc, zip_flatten_pairs _ _ _ fun b _ => b.cols_len]
      have hmap : (fs.map fun f => f.mapNamed h).map (·.rows)
          = (fs.map fun b => fun i : Nat => (b.columns.zip b.cols).filterMap fun p => (h p.1 p.2)[i]?).map
              fun k => (List.range f.index.length).map k := by
        simp only [List.map_map]
        apply List.map_congr_left
        intro b hb
        simp only [Function.comp, Frame.mapNamed, Frame.nrows, hidx b hb]
      have := hrows_map (List.range f.index.length)
        (fs.map fun b => fun i : Nat => (b.columns.zip b.cols).filterMap fun p => (h p.1 p.2)[i]?)
      rw [List.length_range, ← hmap] at this
      simp only [List.map_map] at this
      simp only [List.map_map]
      refine Eq.trans this ?_
      apply List.map_congr_left
      intro i _
      rw [List.filterMap_flatten, List.map_map]
      rfl
  · intro x hx
    simp only [List.mem_map] at hx
    obtain ⟨y, hy, rfl⟩ := hx
    simp [Frame.mapNamed, hidx y hy]

theorem pySlice_zip {A B : Type} (l : List A) (l' : List B) (i j : Nat) :
    pySlice (l.zip l') i j = (pySlice l i j).zip (pySlice l' i j) := pySlice_zipWith _ _ _ _ _

theorem Frame.WF.mapNamed_ilocCols {f : Frame ι κ α} (hwf : f.WF) {h : κ → List α → List β} (hl : ∀ k c, (h k c).length = c.length)
    (a b : Nat) : (f.ilocCols a b).mapNamed h = (f.mapNamed h).ilocCols a b := by
  simp only [Frame.mapNamed, hwf.cols_ilocCols]
  simp only [Frame.ilocCols, Frame.mk.injEq, true_and, List.map_map, Frame.nrows]
  apply List.map_congr_left
  intro i hi
  rw [Function.comp, pySlice_filterMap_some, pySlice_zip]
  intro c hc
  have hc := (List.of_mem_zip hc).2
  unfold Frame.cols at hc
  simp only [List.mem_map, List.mem_range] at hc hi
  obtain ⟨j, hj, e⟩ := hc
  have := hl c.1 c.2
  rw [← e, hwf.column_length hj] at this
  rw [List.getElem?_eq_getElem (by rw [← e, this]; exact hi)]
  rfl

theorem fillFirst_length (isna : α → Bool) (v : α) (n : Nat) (c : List α) : (fillFirst isna v n c).length = c.length := by
  induction c generalizing n with
  | nil => cases n <;> rfl
  | cons x xs ih =>
    cases n with
    | zero => rfl
    | succ n =>
      unfold fillFirst
      split <;> simp [ih]

/-! ### a frame as the value -/

theorem Frame.WF.rowsFor_eq [DecidableEq ι] {kf : Frame ι κ α} (hk : kf.WF) (idx : List ι) :
    kf.rowsFor idx = (maskIndexer idx kf.index).map fun o => o.bind fun p => kf.rows[p]? := by
  unfold Frame.rowsFor maskIndexer
  split
  · rename_i e
    rw [List.map_map]
    apply List.ext_getElem?
    intro n
    simp only [List.getElem?_map]
    by_cases hn : n < idx.length
    · rw [List.getElem?_range hn]
      have : n < kf.rows.length := by rw [hk.rows_len, e]; exact hn
      simp [this]
    · rw [List.getElem?_eq_none (by rw [hk.rows_len, e]; omega), List.getElem?_eq_none (by simp; omega)]
      rfl
  · rw [List.map_map]; rfl

theorem fillFrame_reindexed [DecidableEq ι] [DecidableEq κ] (nan : α) (isna : α → Bool) {df kf : Frame ι κ α} (hk : kf.WF) :
    df.fillFrame nan isna (kf.reindexRows nan df.index (maskIndexer df.index kf.index)) = df.fillFrame nan isna kf := by
  unfold Frame.fillFrame
  rw [hk.rowsFor_eq]
  have e : (kf.reindexRows nan df.index (maskIndexer df.index kf.index)).rowsFor df.index
      = ((maskIndexer df.index kf.index).map fun o => (o.bind (kf.rows[·]?)).getD (List.replicate kf.ncols nan)).map some := by
    unfold Frame.rowsFor
    rw [if_pos (show (kf.reindexRows nan df.index (maskIndexer df.index kf.index)).index = df.index from rfl),
      reindexRows_rows (maskIndexer_length _ _) hk]
  rw [e, List.map_map, List.zipWith_map_right, List.zipWith_map_right]
  congr 1
  congr 1
  funext r o
  congr 1
  funext k x
  show (if isna x then ((some ((o.bind (kf.rows[·]?)).getD (List.replicate kf.ncols nan))).bind fun row =>
    (kf.columns.findIdx? (· == k)).bind fun p => row[p]?).getD nan else x) = _
  cases o.bind (kf.rows[·]?) with
  | some row => rfl
  | none =>
    split
    · simp only [Option.getD_none, Option.bind_some, Option.bind_none]
      cases kf.columns.findIdx? (· == k) with
      | none => rfl
      | some p =>
        rw [Option.bind_some, List.getElem?_replicate]
        split <;> rfl
    · rfl

theorem fillFrame_block [DecidableEq ι] [DecidableEq κ] (nan : α) (isna : α → Bool) {df kf : Frame ι κ α} (h : kf.index = df.index)
    (a b c d : Nat) :
    ((df.ilocRows a b).ilocCols c d).fillFrame nan isna (kf.ilocRows a b) = ((df.fillFrame nan isna kf).ilocRows a b).ilocCols c d := by
  have e1 : kf.rowsFor df.index = kf.rows.map some := if_pos h
  have e2 : (kf.ilocRows a b).rowsFor (pySlice df.index a b) = (pySlice kf.rows a b).map some :=
    if_pos (by show pySlice kf.index a b = _; rw [h])
  unfold Frame.fillFrame
  show Frame.mk _ _ _ = Frame.mk _ _ _
  simp only [Frame.ilocCols, Frame.ilocRows, Frame.mk.injEq, true_and]
  rw [e1, show (Frame.mk (pySlice kf.index a b) kf.columns (pySlice kf.rows a b)).rowsFor (pySlice df.index a b) = _ from e2,
    pySlice_zipWith, pySlice_map', List.zipWith_map_left, List.map_zipWith]
  congr 1
  funext r o
  rw [pySlice_zipWith]

theorem fillFrame_wf [DecidableEq ι] [DecidableEq κ] (nan : α) (isna : α → Bool) {df kf : Frame ι κ α} (h : df.WF) (hk : kf.WF) :
    (df.fillFrame nan isna kf).WF := by
  have hl : (kf.rowsFor df.index).length = df.rows.length := by
    rw [hk.rowsFor_eq, List.length_map, maskIndexer_length, h.rows_len]
  constructor
  · simp [Frame.fillFrame, hl, h.rows_len]
  · intro r hr
    simp only [Frame.fillFrame] at hr
    obtain ⟨i, hi, rfl⟩ := List.mem_iff_getElem.1 hr
    simp only [List.getElem_zipWith, List.length_zipWith, Frame.fillFrame]
    rw [h.row_width _ (List.getElem_mem _)]
    simp

theorem fillFrame_shows [DecidableEq ι] [DecidableEq κ] (le : ι → ι → Bool) (cfg : Cfg)
    (hp : 1 ≤ cfg.nPartitions) (hr : 1 ≤ cfg.minRow) (nan : α) (isna : α → Bool) {m v : LFrame ι κ α} {df kf : Frame ι κ α}
    (h : m.Shows df) (hk : v.Shows kf) (hl : kf.index = df.index ∨ (df.index.Pairwise (le · ·) ∧ kf.index.Nodup)) :
    ∃ m', m.fillFrame le cfg false nan isna v = some m' ∧ m'.Shows (df.fillFrame nan isna kf) := by
  obtain ⟨v1, hv1, hv2⟩ := synced_spec hk
  unfold LFrame.fillFrame
  rw [hv1, Option.bind_some]
  apply operation_shows h
  intro m1 h1
  obtain ⟨e0, e1⟩ := leftJoin_indexer hl
  obtain ⟨lens, cw, cwk, c1, c2, c3, c4, c5⟩ := copartitionRows_spec (leftJoinSorted le) cfg hp hr nan nan h1 hv2
    (leftJoin_labels hl) e0 (by simp) e1 (maskIndexer_length _ _)
  rw [reindexRows_id h.wf] at c1 c5
  have hwk := reindexRows_wf (nan := nan) (maskIndexer_length df.index kf.index) hk.wf
  unfold MFrame.broadcastApplyRows
  rw [c5]
  simp only [Option.bind_some, Bool.false_eq_true, ↓reduceIte]
  rw [broadcastRowsApply_cut _ _ hwk c2]
  simp only [fillFrame_block nan isna (kf := kf.reindexRows nan df.index (maskIndexer df.index kf.index)) (df := df) rfl,
    fillFrame_reindexed nan isna hk.wf]
  rw [mapM_congr_some (f := fun p : Nat × Nat => (sliceBounds cw).mapM fun q =>
    some (((df.fillFrame nan isna kf).ilocRows p.1 p.2).ilocCols q.1 q.2)) (g := fun p => (sliceBounds cw).map fun q => ((df.fillFrame nan isna kf).ilocRows p.1 p.2).ilocCols q.1 q.2)
    (fun p _ => mapM_some _ _), Option.bind_some]
  exact represents_mk' ⟨fillFrame_wf nan isna h.wf hk.wf, ⟨lens, cw, isCut_congr c1 rfl rfl, rfl, c4 rfl, c3⟩, h1.index, h1.columns⟩
