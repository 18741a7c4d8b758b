import Verif.Model.Ranks
import Verif.Lemmas.Fold
import Verif.Lemmas.Reindex
import Verif.Lemmas.Dropna
import Verif.Lemmas.Where

variable {ι κ ι' κ' α β Q : Type}

theorem padTo_length (nan : α) (n : Nat) (c : List α) : (padTo nan n c).length = n := by simp [padTo]

theorem length_eraseDups_le [DecidableEq α] (l : List α) : l.eraseDups.length ≤ l.length := by
  induction h : l.length using Nat.strongRecOn generalizing l with
  | ind n ih =>
    cases l with
    | nil => simp [List.eraseDups_nil] at *
    | cons a l =>
      rw [List.eraseDups_cons, List.length_cons]
      have h1 : (l.filter fun b => !b == a).length ≤ l.length := List.length_filter_le _ _
      have := ih _ (by rw [← h, List.length_cons]; omega) (l.filter fun b => !b == a) rfl
      rw [← h, List.length_cons]
      omega

theorem modesOf_length [DecidableEq α] (le : α → α → Bool) (isna : α → Bool) (dropna : Bool) (c : List α) :
    (modesOf le isna dropna c).length ≤ c.length := by
  unfold modesOf
  rw [sortBy_length]
  refine Nat.le_trans (List.length_filter_le _ _) (Nat.le_trans (length_eraseDups_le _) ?_)
  split
  · exact List.length_filter_le _ _
  · exact Nat.le_refl _

theorem modesOf_notna [DecidableEq α] (le : α → α → Bool) (isna : α → Bool) {c : List α} {v : α} (h : v ∈ modesOf le isna true c) :
    isna v = false := by
  unfold modesOf at h
  rw [mem_sortBy] at h
  have h1 := List.mem_eraseDups.1 (List.mem_filter.1 h).1
  simp only [↓reduceIte, List.mem_filter, Bool.not_eq_eq_eq_not, Bool.not_true] at h1
  exact h1.2

theorem le_foldr_max {l : List Nat} {x : Nat} (h : x ∈ l) : x ≤ l.foldr max 0 := by
  induction l with
  | nil => cases h
  | cons a l ih =>
    rw [List.foldr_cons]
    rcases List.mem_cons.1 h with rfl | h
    · exact Nat.le_max_left _ _
    · exact Nat.le_trans (ih h) (Nat.le_max_right _ _)

theorem foldr_max_attained {l : List Nat} (h : 0 < l.foldr max 0) : l.foldr max 0 ∈ l := by
  induction l with
  | nil => simp at h
  | cons a l ih =>
    rw [List.foldr_cons] at h ⊢
    by_cases hl : l.foldr max 0 ≤ a
    · rw [Nat.max_eq_left hl]; exact List.mem_cons_self
    · have : max a (l.foldr max 0) = l.foldr max 0 := Nat.max_eq_right (by omega)
      rw [this]
      exact List.mem_cons_of_mem _ (ih (by omega))

theorem modeRows_ge {md : List α → List α} {f : Frame ι κ α} {c : List α} (h : c ∈ f.cols) : (md c).length ≤ f.modeRows md :=
  le_foldr_max (List.mem_map.2 ⟨c, h, rfl⟩)

theorem foldr_max_le {l : List Nat} {n : Nat} (h : ∀ x ∈ l, x ≤ n) : l.foldr max 0 ≤ n := by
  induction l with
  | nil => simp
  | cons a l ih =>
    rw [List.foldr_cons]
    exact Nat.max_le.2 ⟨h a List.mem_cons_self, ih fun x hx => h x (List.mem_cons_of_mem _ hx)⟩

/-- only the columns of the frame matter -/
theorem mapColumns_congr {f : Frame ι κ α} {g g' : List ι → List ι'} {h h' : List α → List β} (hg : g f.index = g' f.index)
    (hh : ∀ c ∈ f.cols, h c = h' c) : f.mapColumns g h = f.mapColumns g' h' := by
  unfold Frame.mapColumns
  rw [hg]
  congr 1
  apply List.map_congr_left
  intro i _
  exact filterMap_congr' fun c hc => by rw [hh c hc]

theorem padTo_self (nan : α) {c : List α} {n : Nat} (h : c.length = n) : padTo nan n c = c := by
  apply List.ext_getElem (by rw [padTo_length, h])
  intro i h1 h2
  simp [padTo, List.getElem?_eq_getElem h2]

/-- the frame of modes filled up to as many rows as there are -/
def Frame.modePadded (nan : α) (md : List α → List α) (f : Frame ι κ α) : Frame Nat κ α :=
  f.mapColumns (fun idx => List.range idx.length) fun c => padTo nan c.length (md c)

theorem modePadded_local [DecidableEq ι] (nan : α) (md : List α → List α) : ColumnLocal (fun f : Frame ι κ α => f.modePadded nan md) :=
  columnLocal_mapColumns _ _ fun idx c e => by rw [padTo_length, List.length_range, e]

theorem mode_wf {f : Frame ι κ α} (h : f.WF) (nan : α) (md : List α → List α) : (f.mode nan md).WF :=
  h.mapColumns _ _ fun idx c _ => by rw [padTo_length, List.length_range]

theorem findIdx?_range (k i : Nat) : (List.range k).findIdx? (· == i) = if i < k then some i else none := by
  by_cases h : i < k
  · rw [if_pos h, List.findIdx?_eq_some_iff_getElem]
    refine ⟨by simpa using h, by simp, ?_⟩
    intro j hj
    simp
    omega
  · rw [if_neg h, List.findIdx?_eq_none_iff]
    intro x hx
    have := List.mem_range.1 hx
    simp
    omega

theorem pick_padTo (nan : α) {k : Nat} (n : Nat) {c : List α} (h : c.length ≤ k) :
    pick nan (firstPositions (List.range k) (List.range n)) (padTo nan k c) = padTo nan n c := by
  unfold pick firstPositions
  rw [List.map_map]
  unfold padTo
  apply List.map_congr_left
  intro i _
  simp only [Function.comp, findIdx?_range]
  by_cases hi : i < k
  · simp [hi]
  · simp [hi, List.getElem?_eq_none (show c.length ≤ i by omega)]

theorem mapColumns_mapColumns {ι'' : Type} {γ : Type} {f : Frame ι κ α} (hwf : f.WF) (g : List ι → List ι') (h : List α → List β)
    (hl : ∀ c : List α, c.length = f.index.length → (h c).length = (g f.index).length) (g' : List ι' → List ι'') (h' : List β → List γ) :
    (f.mapColumns g h).mapColumns g' h' = f.mapColumns (fun i => g' (g i)) (fun c => h' (h c)) := by
  have e : (f.mapColumns g h).cols = f.cols.map h := by
    unfold Frame.cols
    rw [List.map_map]
    apply List.map_congr_left
    intro j hj
    exact hwf.column_mapColumns g h hl (List.mem_range.1 hj)
  show Frame.mk (g' (g f.index)) f.columns _ = Frame.mk (g' (g f.index)) f.columns _
  congr 1
  apply List.map_congr_left
  intro i _
  rw [e, List.filterMap_map]
  rfl

theorem modeBuilder_eq [DecidableEq α] {b : Frame ι κ α} (hwf : b.WF) (nan : α) {md : List α → List α} (hmd : ∀ c, (md c).length ≤ c.length) :
    modeBuilder nan md b = some (b.modePadded nan md) := by
  have hlen : ∀ c ∈ b.cols, c.length = b.nrows := by
    intro c hc
    obtain ⟨j, hj, rfl⟩ := List.mem_map.1 hc
    exact hwf.column_length (List.mem_range.1 hj)
  have hr : (b.mode nan md).nrows = b.modeRows md := List.length_range
  unfold modeBuilder
  simp only [hr]
  by_cases hn : b.nrows = b.modeRows md
  · rw [if_neg (by simp [hn]), Option.some.injEq]
    refine mapColumns_congr ?_ ?_
    · show List.range (b.modeRows md) = List.range b.index.length
      rw [← hn]; rfl
    · intro c hc
      rw [hlen c hc, hn]
  · rw [if_pos hn, reindexIndex_positions (mode_wf hwf nan md)
      (show List.range (b.modeRows md) ≠ _ from fun e => hn (by have := congrArg List.length e; simpa using this.symm))
      (show (List.range (b.modeRows md)).Nodup from List.nodup_range), Option.some.injEq]
    unfold Frame.reindexRows
    rw [show (b.mode nan md).index = List.range (b.modeRows md) from rfl]
    unfold Frame.mode
    rw [mapColumns_mapColumns hwf _ _ fun c _ => by rw [padTo_length, List.length_range]]
    refine mapColumns_congr rfl ?_
    intro c hc
    rw [pick_padTo nan _ (modeRows_ge hc), hlen c hc]

theorem keepWhere_prefix {τ : Type} (l : List τ) {k : Nat} (h : k ≤ l.length) :
    keepWhere ((List.range l.length).map fun i => decide (i < k)) l = l.take k := by
  have e : (List.range l.length).map (fun i => decide (i < k)) = List.replicate k true ++ List.replicate (l.length - k) false := by
    apply List.ext_getElem (by simp; omega)
    intro i h1 h2
    simp only [List.getElem_map, List.getElem_range, List.getElem_append, List.length_replicate, List.getElem_replicate]
    split <;> simp <;> omega
  rw [e]
  unfold keepWhere
  conv => lhs; rw [← List.take_append_drop k l]
  rw [List.zip_append (by simp; omega), List.filter_append, List.map_append]
  have e1 : ∀ (l' : List τ) (n : Nat), n = l'.length → (((List.replicate n true).zip l').filter (·.1)).map (·.2) = l' := by
    intro l'
    induction l' with
    | nil => intro n _; simp
    | cons a l' ih => intro n hn; subst hn; simp [List.replicate_succ, ih]
  have e2 : ∀ (l' : List τ) (n : Nat), (((List.replicate n false).zip l').filter (·.1)).map (·.2) = [] := by
    intro l'
    induction l' with
    | nil => intro n; simp
    | cons a l' ih =>
      intro n
      cases n with
      | zero => simp
      | succ n => simp [List.replicate_succ, ih]
  rw [e1 _ _ (by simp; omega), e2, List.append_nil]

theorem modeRows_le {f : Frame ι κ α} (hwf : f.WF) {md : List α → List α} (hmd : ∀ c, (md c).length ≤ c.length) : f.modeRows md ≤ f.nrows := by
  refine foldr_max_le ?_
  intro x hx
  obtain ⟨c, hc, rfl⟩ := List.mem_map.1 hx
  obtain ⟨j, hj, rfl⟩ := List.mem_map.1 hc
  have := hwf.column_length (List.mem_range.1 hj)
  have := hmd (f.column j)
  unfold Frame.nrows at *
  omega

/-- dropping the rows without values from the frame that was filled up leaves the modes -/
theorem modePadded_pick [DecidableEq κ] {f : Frame ι κ α} (hwf : f.WF) (nan : α) (isna : α → Bool) (hnan : isna nan = true) {md : List α → List α}
    (hmd : ∀ c, (md c).length ≤ c.length)
    (hrow : ∀ i, i < f.modeRows md → ∃ c ∈ f.cols, ∃ v, (md c)[i]? = some v ∧ isna v = false) :
    (f.modePadded nan md).pickRows (naKeptRows isna (.how .all) none (f.modePadded nan md)) = f.mode nan md := by
  have hlen : ∀ c ∈ f.cols, c.length = f.nrows := by
    intro c hc
    obtain ⟨j, hj, rfl⟩ := List.mem_map.1 hc
    exact hwf.column_length (List.mem_range.1 hj)
  have hle := modeRows_le hwf hmd
  have hrows : (f.modePadded nan md).rows = (List.range f.nrows).map fun i => f.cols.map fun c => ((md c)[i]?).getD nan := by
    unfold Frame.modePadded Frame.mapColumns
    simp only [List.length_range]
    apply List.map_congr_left
    intro i hi
    rw [← List.filterMap_eq_map]
    apply filterMap_congr'
    intro c hc
    have hi' : i < f.nrows := List.mem_range.1 hi
    simp [padTo, hlen c hc, List.getElem?_range hi']
  have hmode : (f.mode nan md).rows = (List.range (f.modeRows md)).map fun i => f.cols.map fun c => ((md c)[i]?).getD nan := by
    unfold Frame.mode Frame.mapColumns
    simp only [List.length_range]
    apply List.map_congr_left
    intro i hi
    rw [← List.filterMap_eq_map]
    apply filterMap_congr'
    intro c hc
    simp [padTo, List.getElem?_range (List.mem_range.1 hi)]
  have hmask : naKeptRows isna (.how .all) none (f.modePadded nan md) = (List.range f.nrows).map fun i => decide (i < f.modeRows md) := by
    unfold naKeptRows
    rw [hrows, List.map_map]
    apply List.map_congr_left
    intro i hi
    have hcl : f.cols.length = f.columns.length := by simp [Frame.cols, Frame.ncols]
    have ht : takeList (f.cols.map fun c => ((md c)[i]?).getD nan) (subsetPositions (f.modePadded nan md).columns none) =
        f.cols.map fun c => ((md c)[i]?).getD nan := by
      have := takeList_range (f.cols.map fun c => ((md c)[i]?).getD nan)
      rw [List.length_map, hcl] at this
      exact this
    simp only [Function.comp, ht, NaRule.keeps]
    by_cases h : i < f.modeRows md
    · obtain ⟨c, hc, v, e1, e2⟩ := hrow i h
      simp only [h, decide_true, List.any_eq_true]
      exact ⟨v, List.mem_map.2 ⟨c, hc, by rw [e1]; rfl⟩, by simp [e2]⟩
    · simp only [h, decide_false, List.any_eq_false]
      intro v hv
      obtain ⟨c, hc, rfl⟩ := List.mem_map.1 hv
      have := modeRows_ge (md := md) hc
      rw [List.getElem?_eq_none (by omega)]
      simp [hnan]
  rw [hmask]
  have ei : (f.modePadded nan md).index = List.range f.nrows := rfl
  unfold Frame.pickRows
  rw [ei, hrows]
  have k1 := keepWhere_prefix (List.range f.nrows) (k := f.modeRows md) (by simpa using hle)
  have k2 := keepWhere_prefix ((List.range f.nrows).map fun i => f.cols.map fun c => ((md c)[i]?).getD nan) (k := f.modeRows md) (by simpa using hle)
  rw [List.length_range] at k1
  rw [List.length_map, List.length_range] at k2
  rw [k1, k2, ← List.map_take, List.take_range, Nat.min_eq_left hle, ← hmode]
  rfl

/-- functions of whole columns that are not told to write labels: the labels handed over are those of the result -/
theorem unsynced_rows_shows [DecidableEq ι] [DecidableEq κ] [DecidableEq ι'] [DecidableEq κ'] (cfg : Cfg) (hp : 1 ≤ cfg.nPartitions)
    (hr : 1 ≤ cfg.minRow) {m : LFrame ι κ α} {df : Frame ι κ α} (h : m.Shows df) {func : Frame ι κ α → Option (Frame ι' κ' β)}
    {F : Frame ι κ α → Frame ι' κ' β} (hF : ColumnLocal F) (hcomm : ∀ a b, F (df.ilocCols a b) = (F df).ilocCols a b)
    (hfunc : ∀ a b, func (df.ilocCols a b) = some (F (df.ilocCols a b))) (hn : (F df).ncols = df.ncols)
    {newIndex : Option (List ι')} {newColumns : Option (List κ')} (hi : newIndex = none ∨ newIndex = some (F df).index)
    (hk : newColumns = none ∨ newColumns = some (F df).columns) :
    ∃ m', m.applyFullUnsynced cfg true func newIndex newColumns = some m' ∧ m'.Shows (F df) := by
  unfold LFrame.applyFullUnsynced
  apply operation_shows h
  intro m1 h1
  obtain ⟨rl, cw, hc, hpp, hrl, hcw⟩ := h1.blocks
  obtain ⟨lens, ⟨h2, h3, h4, _, _⟩, h5⟩ := mapAxis_rows_cut' cfg hp hr hF h.wf hc true none (by simp) none (by simp) (by simp)
  rw [← mapAxis_rows_congr cfg h.wf hc true none none hfunc] at h5
  have h6 : ((sliceBounds lens).map fun p => (sliceBounds cw).map fun q => (F (df.ilocCols q.1 q.2)).ilocRows p.1 p.2)
      = (F df).cut lens cw := by
    unfold Frame.cut
    simp only [hcomm, Frame.ilocCols_ilocRows]
  rw [h6] at h5
  have hwf' := hF.1 df h.wf
  have hc' : (F df).IsCut lens cw := ⟨h2, hc.cw_ne, h3, by rw [hc.cw_sum, hn]⟩
  rw [hpp, h5, Option.bind_some]
  refine represents_mk' ⟨hwf', ⟨lens, cw, hc', rfl, ?_, ?_⟩, hi, hk⟩
  · rcases hi with rfl | rfl
    · exact Or.inl rfl
    · rcases hrl with e | e
      · left; simp [e]
      · simp only [e, Option.bind_some, ↓reduceIte]
        split
        · rename_i hcond
          right
          rw [deployLens_same rfl (h4 rfl rfl) hcond.1]
        · exact Or.inl rfl
  · rcases hk with rfl | rfl
    · exact Or.inl rfl
    · simp only [Option.bind_some, ↓reduceIte]
      rw [gridWidth_cut h2]
      split
      · rename_i hcond
        right
        match cw, hcond, hc'.cw_sum with
        | [w], _, hw => rw [show w = (F df).columns.length by simpa [Frame.ncols] using hw]
      · exact Or.inl rfl

theorem unsynced_lines_shows [DecidableEq ι] [DecidableEq κ] [DecidableEq ι'] [DecidableEq κ'] (cfg : Cfg) (hp : 1 ≤ cfg.nPartitions)
    (hr : 1 ≤ cfg.minCol) {m : LFrame ι κ α} {df : Frame ι κ α} (h : m.Shows df) {func : Frame ι κ α → Option (Frame ι' κ' β)}
    {F : Frame ι κ α → Frame ι' κ' β} (hF : RowLocal F) (hcomm : ∀ a b, F (df.ilocRows a b) = (F df).ilocRows a b)
    (hfunc : ∀ a b, func (df.ilocRows a b) = some (F (df.ilocRows a b))) (hn : (F df).nrows = df.nrows)
    {newIndex : Option (List ι')} {newColumns : Option (List κ')} (hi : newIndex = none ∨ newIndex = some (F df).index)
    (hk : newColumns = none ∨ newColumns = some (F df).columns) :
    ∃ m', m.applyFullUnsynced cfg false func newIndex newColumns = some m' ∧ m'.Shows (F df) := by
  unfold LFrame.applyFullUnsynced
  apply operation_shows h
  intro m1 h1
  obtain ⟨rl, cw, hc, hpp, hrl, hcw⟩ := h1.blocks
  obtain ⟨lens, ⟨h2, h3, h4, _, _⟩, h5⟩ := mapAxis_cols_cut' cfg hp hr hF h.wf hc true none (by simp) none (by simp) (by simp)
  rw [← mapAxis_cols_congr cfg h.wf hc true none none hfunc] at h5
  have h6 : ((sliceBounds rl).map fun p => (sliceBounds lens).map fun q => (F (df.ilocRows p.1 p.2)).ilocCols q.1 q.2)
      = (F df).cut rl lens := by
    unfold Frame.cut
    simp only [hcomm]
  rw [h6] at h5
  have hwf' := hF.1 df h.wf
  have hc' : (F df).IsCut rl lens := ⟨hc.rl_ne, h2, by rw [hc.rl_sum, hn], h3⟩
  rw [hpp, h5, Option.bind_some]
  refine represents_mk' ⟨hwf', ⟨rl, lens, hc', rfl, ?_, ?_⟩, hi, hk⟩
  · rcases hi with rfl | rfl
    · exact Or.inl rfl
    · simp only [Option.bind_some, Bool.false_eq_true, ↓reduceIte]
      split
      · rename_i hcond
        right
        have : rl.length = 1 := by simpa [Frame.cut, sliceBounds_length] using hcond
        match rl, this, hc'.rl_sum with
        | [w], _, hw => rw [show w = (F df).index.length by simpa [Frame.nrows] using hw]
      · exact Or.inl rfl
  · rcases hk with rfl | rfl
    · exact Or.inl rfl
    · rcases hcw with e | e
      · left; simp [e]
      · simp only [e, Option.bind_some, Bool.false_eq_true, ↓reduceIte]
        split
        · rename_i hcond
          right
          rw [deployLens_same rfl (h4 rfl rfl) hcond.1]
        · exact Or.inl rfl
