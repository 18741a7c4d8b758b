import Verif.Model.SetMask
import Verif.Lemmas.FullAxis
import Verif.Lemmas.Labels
import Verif.Lemmas.CellsL
import Verif.Lemmas.Where

variable {ι κ κ' α ι₂ κ₂ β L : Type}

/-! ### row partitions -/

theorem bandsOf_index {df : Frame ι κ α} {rl cw : List Nat} (hc : df.IsCut rl cw) :
    ((bandsOf rl df).map (·.index)).flatten = df.index := by
  have := covers_lens rl df.index (by rw [hc.rl_sum]; rfl)
  simpa [bandsOf, List.map_map, Function.comp_def, Frame.ilocRows] using this

/-- the row partitions stacked are the frame -/
theorem stackRows_bandsOf {df : Frame ι κ α} (h : df.WF) {rl cw : List Nat} (hc : df.IsCut rl cw) :
    Frame.stackRows df.columns (bandsOf rl df) = df := by
  unfold Frame.stackRows
  rw [bandsOf_index hc, bandsOf_rows h hc]

theorem mapM_id_none2 {τ : Type} {l : List (Option τ)} (h : none ∈ l) : l.mapM id = none := by
  induction l with
  | nil => simp at h
  | cons x l ih =>
    rw [List.mapM_cons]
    cases x with
    | none => rfl
    | some y =>
      have := ih (by simpa using h)
      simp [this]

/-- an error in one row partition is an error of the whole -/
theorem applyRowBands_none [DecidableEq ι] [DecidableEq κ] (cfg : Cfg) (func : Nat → Frame ι κ α → Option (Frame ι₂ κ₂ β))
    {df : Frame ι κ α} (hwf : df.WF) {rl cw : List Nat} (hc : df.IsCut rl cw) {i : Nat} {b : Frame ι κ α}
    (hb : (bandsOf rl df)[i]? = some b) (hf : func i b = none) (keep : Bool) (numSplits : Option Nat) :
    applyRowBands cfg func (df.cut rl cw) keep numSplits = none := by
  unfold applyRowBands
  apply mapM_id_none2
  generalize axisNumSplits cfg keep numSplits none (gridWidth (df.cut rl cw)) = k
  simp only [bandsOf, List.getElem?_map, Option.map_eq_some_iff] at hb
  obtain ⟨p, hp, rfl⟩ := hb
  apply List.mem_of_getElem? (i := i)
  simp only [List.getElem?_mapIdx, Frame.cut, List.getElem?_map, hp, Option.map_some, Option.some.injEq]
  have hv : Frame.hcat ((sliceBounds cw).map fun q => (df.ilocRows p.1 p.2).ilocCols q.1 q.2)
      = some (df.ilocRows p.1 p.2) := by
    have := Frame.hcat_ilocRows (hcat_cols_cut hwf hc) p.1 p.2
    rw [List.map_map] at this
    simpa only [Function.comp_def, Frame.ilocCols_ilocRows] using this
  unfold deployAxisFunc
  simp only [axisConcat, Bool.false_eq_true, ↓reduceIte, hv, Option.bind_eq_bind, Option.bind_some, hf, Option.bind_none]

/-- A function of the row partitions that does the same to each of them as to the whole, and keeps the number of rows. -/
theorem applyFullRowsAnew_shows [DecidableEq ι] [DecidableEq κ] (cfg : Cfg) (hp : 1 ≤ cfg.nPartitions) (hmc : 1 ≤ cfg.minCol)
    {m : LFrame ι κ α} {df : Frame ι κ α} (h : m.Shows df) (func : Frame ι κ α → Option (Frame ι₂ κ₂ β)) {R : Frame ι₂ κ₂ β} (hR : R.WF)
    (hn : R.index.length = df.index.length) (hfunc : ∀ a b, func (df.ilocRows a b) = some (R.ilocRows a b))
    {newIndex : Option (List ι₂)} {newColumns : Option (List κ₂)} (hi : newIndex = none ∨ newIndex = some R.index)
    (hcl : newColumns = none ∨ newColumns = some R.columns) :
    ∃ m', m.applyFullRowsAnew cfg func newIndex newColumns = some m' ∧ m'.Shows R := by
  obtain ⟨m1, e1, e2⟩ := synced_spec h
  obtain ⟨rl, cw, hc, hparts, hrl, hcw⟩ := e2.blocks
  have hwf := e2.wf
  have hRrl : R.nrows = rl.sum := by rw [hc.rl_sum]; exact hn
  have hk : 1 ≤ axisNumSplits cfg false none none cw.length := by simpa [axisNumSplits] using hp
  obtain ⟨lens, h1, h2, h3, h4⟩ := applyRowBands_cut cfg hmc
    (fun i _ => ((sliceBounds rl)[i]?).elim R fun p => R.ilocRows p.1 p.2) hwf hc (fun _ => func) R.columns (by
      intro i b hb
      simp only [bandsOf, List.getElem?_map, Option.map_eq_some_iff] at hb
      obtain ⟨p, hpp, rfl⟩ := hb
      rw [hpp]
      exact ⟨hfunc _ _, hR.ilocRows _ _, rfl⟩) false none hk
  have hbands : ((bandsOf rl df).mapIdx fun i _ => ((sliceBounds rl)[i]?).elim R fun p => R.ilocRows p.1 p.2) = bandsOf rl R := by
    apply List.ext_getElem?
    intro i
    simp only [List.getElem?_mapIdx, bandsOf, List.getElem?_map]
    cases (sliceBounds rl)[i]? <;> rfl
  have hcR : R.IsCut rl lens := ⟨hc.rl_ne, h1, hRrl.symm, h2⟩
  rw [hbands, stackRows_bandsOf hR hcR] at h4
  have hbn : (bandsOf rl R).map (·.nrows) = rl := bandsOf_nrows hcR
  rw [hbn] at h4
  unfold LFrame.applyFullRowsAnew
  rw [e1, Option.bind_some, hparts, h4, Option.bind_some]
  generalize hw : fullAxisWidths cfg false m1.colWidths newColumns (R.cut rl lens) = widths
  have hwidths : widths = none ∨ widths = some lens := by
    rw [← hw]
    unfold fullAxisWidths
    rcases hcl with h0 | h0
    · left; simp [h0]
    · right
      rw [h0, Option.bind_some]
      simp only [Bool.false_eq_true, ↓reduceIte]
      rw [gridWidth_cut hc.rl_ne]
      generalize hkk : axisNumSplits cfg false none none cw.length = k at h3 hk
      unfold deployLens at h3
      by_cases hk1 : k = 1
      · rw [if_pos hk1] at h3
        cases h3
        exact getLengthList_one hmc
      · rw [if_neg hk1] at h3
        simp only [Bool.false_eq_true, ↓reduceIte, Bool.not_false, Bool.or_true] at h3
        rw [(getLengthList_sum h3).2]
        exact h3
  generalize hl : (newIndex.bind fun i => if (R.cut rl lens).length = 1 then some [i.length]
    else m1.rowLens.bind fun l => if i.length = l.sum then some l else none) = rlens
  have hrlens : rlens = none ∨ rlens = some rl := by
    rw [← hl]
    rcases hi with h0 | h0
    · left; simp [h0]
    · rw [h0, Option.bind_some]
      split
      · rename_i h5
        right
        have : rl.length = 1 := by
          have hlc : (R.cut rl lens).length = rl.length := by simp [Frame.cut, sliceBounds_length]
          rw [← hlc]; exact h5
        obtain ⟨n, hn1⟩ := List.length_eq_one_iff.1 this
        have h6 := hRrl
        rw [hn1] at h6 ⊢
        simp only [List.sum_cons, List.sum_nil, Nat.add_zero] at h6
        rw [← h6]; rfl
      · rcases hrl with h5 | h5
        · left; simp [h5]
        · right
          rw [h5, Option.bind_some, if_pos (show R.index.length = rl.sum from hRrl)]
  have hs : LFrame.Shows (LFrame.mk (MFrame.mk (R.cut rl lens) newIndex newColumns rlens widths) newIndex.isSome newColumns.isSome) R := by
    refine ⟨hR, ⟨R, rl, lens, hR, rfl, rfl, hcR, rfl, hrlens, hwidths, fun _ => rfl, fun _ => rfl⟩, ?_, ?_⟩
    · rcases hi with h0 | h0
      · left; simp [h0]
      · right; simp [h0]
    · rcases hcl with h0 | h0
      · left; simp [h0]
      · right; simp [h0]
  obtain ⟨r, g1, g2⟩ := mk'_shows hs
  refine ⟨_, ?_, g2⟩
  show Option.map _ (MFrame.mk' (MFrame.mk (R.cut rl lens) newIndex newColumns rlens widths)) = _
  rw [g1]
  rfl

theorem applyFullRowsAnew_none [DecidableEq ι] [DecidableEq κ] (cfg : Cfg)
    {m : LFrame ι κ α} {df : Frame ι κ α} (h : m.Shows df) (func : Frame ι κ α → Option (Frame ι₂ κ₂ β))
    (hfunc : ∀ rl cw, df.IsCut rl cw → ∃ b ∈ bandsOf rl df, func b = none)
    (newIndex : Option (List ι₂)) (newColumns : Option (List κ₂)) :
    m.applyFullRowsAnew cfg func newIndex newColumns = none := by
  obtain ⟨m1, e1, e2⟩ := synced_spec h
  obtain ⟨rl, cw, hc, hparts, hrl, hcw⟩ := e2.blocks
  obtain ⟨b, hb, hb2⟩ := hfunc rl cw hc
  obtain ⟨i, hi⟩ := List.getElem?_of_mem hb
  unfold LFrame.applyFullRowsAnew
  rw [e1, Option.bind_some, hparts, applyRowBands_none cfg (fun _ => func) e2.wf hc hi hb2]
  rfl

/-! ### the mask -/

theorem mapM_bool_eq {τ σ : Type} (f : τ → Option σ) (d : σ) (l : List τ) :
    l.mapM f = if l.all (fun x => (f x).isSome) then some (l.map fun x => (f x).getD d) else none := by
  induction l with
  | nil => rfl
  | cons x l ih =>
    rw [List.mapM_cons, ih]
    cases hx : f x with
    | none => simp [hx]
    | some y =>
      simp only [Option.bind_eq_bind, Option.bind_some, List.all_cons, hx, Option.isSome_some, Bool.true_and, List.map_cons, Option.getD_some]
      split <;> rfl

theorem filter_of_nodup [DecidableEq L] {β : Type} {mask : List (L × β)} (h : (mask.map (·.1)).Nodup) (x : L) :
    (mask.filter fun p => decide (p.1 = x)).map (·.2) = (valueFor mask x).toList := by
  induction mask with
  | nil => rfl
  | cons p mask ih =>
    rw [List.map_cons, List.nodup_cons] at h
    unfold valueFor
    rw [List.filter_cons, List.find?_cons]
    by_cases hp : p.1 = x
    · have : mask.filter (fun p => decide (p.1 = x)) = [] := by
        rw [List.filter_eq_nil_iff]
        intro q hq hqx
        apply h.1
        rw [hp, ← of_decide_eq_true hqx]
        exact List.mem_map_of_mem hq
      simp [hp, this]
    · simp only [hp, decide_false, Bool.false_eq_true, ↓reduceIte]
      exact ih h.2

theorem valueFor_self [DecidableEq L] {β : Type} {mask : List (L × β)} (h : (mask.map (·.1)).Nodup) :
    (mask.map (·.1)).mapM (valueFor mask) = some (mask.map (·.2)) := by
  have : ∀ p ∈ mask, valueFor mask p.1 = some p.2 := by
    intro p hp
    have := filter_of_nodup h p.1
    have hm : p.2 ∈ (mask.filter fun q => decide (q.1 = p.1)).map (·.2) :=
      List.mem_map_of_mem (List.mem_filter.2 ⟨hp, by simp⟩)
    rw [this] at hm
    simpa using hm
  exact mapM_map_some (valueFor mask) (·.1) (·.2) mask this

theorem flatten_toList_length {τ : Type} (l : List (Option τ)) (h : l.all (·.isSome) = true) :
    (l.map Option.toList).flatten.length = l.length := by
  induction l with
  | nil => rfl
  | cons x l ih =>
    cases x with
    | none => simp at h
    | some y => simp at h ⊢; simpa using ih (by simpa using h)

theorem flatten_toList {τ : Type} (d : τ) (l : List (Option τ)) (h : l.all (·.isSome) = true) :
    (l.map Option.toList).flatten = l.map (·.getD d) := by
  induction l with
  | nil => rfl
  | cons x l ih =>
    cases x with
    | none => simp at h
    | some y => simp at h ⊢; simpa using ih (by simpa using h)

/-- with distinct labels the flag of a row is the one under its label -/
theorem flagsFor_nodup [DecidableEq L] {mask : List (L × Bool)} (h : (mask.map (·.1)).Nodup) (idx : List L) :
    flagsFor mask idx = idx.mapM (valueFor mask) := by
  unfold flagsFor
  split
  · rename_i he
    rw [← he, valueFor_self h]
  · rw [mapM_bool_eq (valueFor mask) false idx]
    have e : (idx.map fun x => (mask.filter fun p => decide (p.1 = x)).map (·.2)) = (idx.map (valueFor mask)).map Option.toList := by
      rw [List.map_map]
      exact List.map_congr_left fun x _ => filter_of_nodup h x
    simp only [e]
    by_cases ha : (idx.all fun x => (valueFor mask x).isSome) = true
    · have ha2 : (idx.map (valueFor mask)).all (·.isSome) = true := by simpa [List.all_map, Function.comp_def] using ha
      rw [if_pos ha, if_pos, flatten_toList false _ ha2, List.map_map]
      · rfl
      · rw [Bool.and_eq_true]
        constructor
        · rw [List.all_map, List.all_eq_true]
          intro o ho
          have := List.all_eq_true.1 ha2 o ho
          cases o <;> simp at this ⊢
        · rw [flatten_toList_length _ ha2]
          simp
    · rw [if_neg ha, if_neg]
      intro hb
      apply ha
      rw [Bool.and_eq_true] at hb
      rw [List.all_eq_true]
      intro x hx
      have := List.all_eq_true.1 hb.1 (valueFor mask x).toList (List.mem_map_of_mem (List.mem_map_of_mem hx))
      cases hv : valueFor mask x with
      | none => simp [hv] at this
      | some _ => rfl

/-- the cells after the assignment, by their labels -/
def maskedCell [DecidableEq ι] [DecidableEq κ] (mask : List (ι × Bool)) (cols : List κ) (v : α) (i : ι) (k : κ) (x : α) : α :=
  if (valueFor mask i).getD false = true ∧ k ∈ cols then v else x

theorem zipWith_snd {τ σ : Type} (l : List τ) (r : List σ) (h : r.length = l.length) : List.zipWith (fun _ x => x) l r = r := by
  induction l generalizing r with
  | nil => cases r <;> simp_all
  | cons a l ih =>
    cases r with
    | nil => simp at h
    | cons b r => simp [ih r (by simpa using h)]

theorem zipWith_congr_both {τ σ ρ : Type} {f g : τ → σ → ρ} (l : List τ) (r : List σ) (h : ∀ a ∈ l, ∀ b ∈ r, f a b = g a b) :
    List.zipWith f l r = List.zipWith g l r := by
  induction l generalizing r with
  | nil => rfl
  | cons a l ih =>
    cases r with
    | nil => rfl
    | cons b r =>
      rw [List.zipWith_cons_cons, List.zipWith_cons_cons, h a (by simp) b (by simp),
        ih r fun a ha b hb => h a (List.mem_cons_of_mem _ ha) b (List.mem_cons_of_mem _ hb)]

theorem setMask_nodup [DecidableEq ι] [DecidableEq κ] {mask : List (ι × Bool)} (h : (mask.map (·.1)).Nodup) (cols : List κ) (v : α)
    {f : Frame ι κ α} (hwf : f.WF) :
    f.setMask mask cols v =
      if cols.all (fun k => decide (k ∈ f.columns)) && f.index.all (fun x => (valueFor mask x).isSome) then
        some (f.mapCellsL (maskedCell mask cols v)) else none := by
  unfold Frame.setMask
  rw [flagsFor_nodup h, mapM_bool_eq (valueFor mask) false]
  by_cases h1 : cols.all (fun k => decide (k ∈ f.columns)) = true
  · rw [if_pos h1, h1, Bool.true_and]
    split
    · simp only [Option.map_some, Option.some.injEq, Frame.mapCellsL, Frame.mk.injEq, true_and, List.zipWith_map_left]
      apply zipWith_congr_both
      intro i _ r hr
      by_cases hv : (valueFor mask i).getD false = true
      · rw [if_pos hv]
        unfold setRow maskedCell
        simp [hv]
      · rw [if_neg hv]
        unfold maskedCell
        simp only [hv, false_and, ↓reduceIte]
        exact (zipWith_snd _ _ (hwf.row_width r hr)).symm
    · rfl
  · rw [if_neg h1]
    rw [if_neg]
    intro h2
    exact h1 (Bool.and_eq_true _ _ ▸ h2).1

theorem flagsFor_length [DecidableEq L] {mask : List (L × Bool)} {idx : List L} {flags : List Bool} (h : flagsFor mask idx = some flags) :
    flags.length = idx.length := by
  unfold flagsFor at h
  split at h
  · rename_i he
    cases h
    rw [← he]; simp
  · simp only at h
    split at h
    · rename_i he
      rw [Bool.and_eq_true] at he
      cases h
      exact of_decide_eq_true he.2
    · cases h

theorem series_labels {K : Frame ι κ α} (h : K.WF) (h1 : K.columns.length = 1) : K.series.map (·.1) = K.index := by
  unfold Frame.series
  rw [List.map_fst_zip]
  have : (K.rows.filterMap (·[0]?)).length = K.rows.length := by
    have : ∀ r ∈ K.rows, 0 < r.length := fun r hr => by rw [h.row_width r hr, h1]; exact Nat.one_pos
    generalize K.rows = l at this
    induction l with
    | nil => rfl
    | cons r l ih =>
      rw [List.filterMap_cons_some (f := fun x : List α => x[0]?) (List.getElem?_eq_getElem (this r (by simp)))]
      simp [ih fun r hr => this r (List.mem_cons_of_mem _ hr)]
  rw [this, h.rows_len]
  exact Nat.le_refl _
