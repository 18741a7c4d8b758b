import Verif.Pandas.Represents
import Verif.Model.Select
import Verif.Lemmas.Take

variable {ι κ α : Type}

theorem WF_eq_of_empty {df : Frame ι κ α} (h : df.WF) (he : df.isEmpty = true) (nan : α) :
    df.rows = List.replicate df.index.length (List.replicate df.columns.length nan) := by
  simp only [Frame.isEmpty, Bool.or_eq_true, beq_iff_eq, Frame.nrows, Frame.ncols] at he
  rcases he with he | he
  · have h1 := h.rows_len
    rw [he] at h1
    have h2 := List.eq_nil_of_length_eq_zero h1
    simp [he, h2]
  · rw [he]
    have h2 : df.rows = List.replicate df.rows.length [] := by
      apply List.eq_replicate_iff.mpr
      refine ⟨rfl, fun r hr => ?_⟩
      have := h.row_width r hr
      rw [he] at this
      exact List.eq_nil_of_length_eq_zero this
    rw [h.rows_len] at h2
    simpa using h2

theorem cut_eq_gridOf (rl cw : List Nat) (df : Frame ι κ α) :
    df.cut rl cw = gridOf (sliceBounds rl) (sliceBounds cw) df := rfl

theorem covers_cut {df : Frame ι κ α} {rl cw : List Nat} (h : df.IsCut rl cw) :
    Covers (sliceBounds rl) df.nrows ∧ Covers (sliceBounds cw) df.ncols := by
  refine ⟨?_, ?_⟩
  · rw [← h.rl_sum]; exact covers_lens rl
  · rw [← h.cw_sum]; exact covers_lens cw

theorem gridIndex_cut {df : Frame ι κ α} {rl cw : List Nat} (h : df.IsCut rl cw) :
    gridIndex (df.cut rl cw) = df.index := by
  have hcb := sliceBounds_ne_nil h.cw_ne
  obtain ⟨q, qs, hq⟩ := List.exists_cons_of_ne_nil hcb
  unfold gridIndex Frame.cut
  have : ((sliceBounds rl).map fun p => (sliceBounds cw).map fun q =>
      (df.ilocRows p.1 p.2).ilocCols q.1 q.2).filterMap (fun row => row.head?.map (·.index))
      = (sliceBounds rl).map fun p => pySlice df.index p.1 p.2 := by
    rw [List.filterMap_map, ← List.filterMap_eq_map]
    refine filterMap_congr' ?_
    intro p _
    simp [hq, Frame.ilocCols, Frame.ilocRows]
  rw [this, sliceBounds_flatten, h.rl_sum]
  exact List.take_length

theorem gridColumns_cut {df : Frame ι κ α} {rl cw : List Nat} (h : df.IsCut rl cw) :
    gridColumns (df.cut rl cw) = df.columns := by
  have hrb := sliceBounds_ne_nil h.rl_ne
  obtain ⟨p, ps, hp⟩ := List.exists_cons_of_ne_nil hrb
  unfold gridColumns Frame.cut
  rw [hp]
  simp only [List.map_cons, List.map_map]
  have : ((fun x : Frame ι κ α => x.columns) ∘ fun q : Nat × Nat =>
      (df.ilocRows p.1 p.2).ilocCols q.1 q.2) = fun q => pySlice df.columns q.1 q.2 := by
    funext q; simp [Frame.ilocCols, Frame.ilocRows]
  rw [this, sliceBounds_flatten, h.cw_sum]
  exact List.take_length

namespace MFrame.Represents

variable {m : MFrame ι κ α} {df : Frame ι κ α}

theorem getIndex (h : m.Represents df) : m.getIndex = df.index := by
  obtain ⟨rl, cw, hcut, hp, _⟩ := h.blocks
  unfold MFrame.getIndex
  rcases h.index with h1 | h1
  · rw [h1]; simp only; rw [hp, gridIndex_cut hcut]
  · rw [h1]

theorem getColumns (h : m.Represents df) : m.getColumns = df.columns := by
  obtain ⟨rl, cw, hcut, hp, _⟩ := h.blocks
  unfold MFrame.getColumns
  rcases h.columns with h1 | h1
  · rw [h1]; simp only; rw [hp, gridColumns_cut hcut]
  · rw [h1]

theorem toPandas [DecidableEq ι] [DecidableEq κ] (h : m.Represents df) (nan : α) :
    m.toPandas nan = some df := by
  obtain ⟨rl, cw, hcut, hp, _⟩ := h.blocks
  unfold MFrame.toPandas
  rw [h.getIndex, h.getColumns, hp]
  by_cases hc : 0 < df.ncols
  · rw [assemble_cut h.wf hcut hc]
    simp only [Option.bind_eq_bind, Option.bind_some]
    split
    · rename_i he
      rw [← WF_eq_of_empty h.wf he nan]; rfl
    · rcases h.index with h1 | h1 <;> rcases h.columns with h2 | h2 <;> simp [h1, h2]
  · rw [cut_eq_gridOf, assemble_no_columns (by omega)]
    simp only [Option.bind_eq_bind, Option.bind_some, Frame.isEmpty, Frame.nrows, Frame.ncols,
      List.length_nil, beq_self_eq_true, Bool.or_self, ↓reduceIte]
    rw [← WF_eq_of_empty h.wf (by simp [Frame.isEmpty]; omega) nan]; rfl

end MFrame.Represents

theorem keepNonzero_map {τ σ : Type} (f : τ → σ) (l : List τ) (ls : List Nat) :
    keepNonzero (l.map f) ls = (keepNonzero l ls).map f := by
  induction l generalizing ls with
  | nil => simp [keepNonzero]
  | cons a l ih =>
    cases ls with
    | nil => simp [keepNonzero]
    | cons b ls =>
      simp only [List.map_cons, keepNonzero]
      split <;> simp [ih]

theorem cumsumFrom_cons (s : Nat) (l : List Nat) : ∃ r, cumsumFrom s l = s :: r := by
  cases l with
  | nil => exact ⟨[], rfl⟩
  | cons a l => exact ⟨_, rfl⟩

theorem consecutive_cumsumFrom_cons (s a : Nat) (l : List Nat) :
    consecutive (cumsumFrom s (a :: l)) = (s, s + a) :: consecutive (cumsumFrom (s + a) l) := by
  obtain ⟨r, hr⟩ := cumsumFrom_cons (s + a) l
  simp only [cumsumFrom, hr, consecutive]

theorem keepNonzero_sliceBounds_aux (s : Nat) (ls : List Nat) :
    keepNonzero (consecutive (cumsumFrom s ls)) ls
      = consecutive (cumsumFrom s (ls.filter (· ≠ 0))) := by
  induction ls generalizing s with
  | nil => simp [keepNonzero, cumsumFrom, consecutive]
  | cons a ls ih =>
    rw [consecutive_cumsumFrom_cons]
    by_cases ha : a = 0
    · subst ha
      simp only [keepNonzero, ne_eq, not_true_eq_false, ↓reduceIte, Nat.add_zero]
      rw [ih]
      simp
    · have : (a :: ls).filter (· ≠ 0) = a :: ls.filter (· ≠ 0) := by simp [ha]
      rw [this, consecutive_cumsumFrom_cons]
      simp only [keepNonzero, ne_eq, ha, not_false_eq_true, ↓reduceIte, ih]

theorem keepNonzero_sliceBounds (ls : List Nat) :
    keepNonzero (sliceBounds ls) ls = sliceBounds (ls.filter (· ≠ 0)) :=
  keepNonzero_sliceBounds_aux 0 ls

theorem filter_nonzero_sum (ls : List Nat) : (ls.filter (· ≠ 0)).sum = ls.sum := by
  induction ls with
  | nil => rfl
  | cons a ls ih =>
    by_cases ha : a = 0
    · subst ha; simpa using ih
    · have : (a :: ls).filter (· ≠ 0) = a :: ls.filter (· ≠ 0) := by simp [ha]
      rw [this, List.sum_cons, List.sum_cons, ih]

theorem keepNonzero_cut (rl cw : List Nat) (df : Frame ι κ α) :
    (keepNonzero (df.cut rl cw) rl).map (fun row => keepNonzero row cw)
      = df.cut (rl.filter (· ≠ 0)) (cw.filter (· ≠ 0)) := by
  unfold Frame.cut
  rw [keepNonzero_map, keepNonzero_sliceBounds, List.map_map]
  congr 1
  funext p
  simp only [Function.comp, keepNonzero_map, keepNonzero_sliceBounds]

/-- Dropping empty partitions keeps the represented frame. -/
theorem represents_filterEmpties {m : MFrame ι κ α} {df : Frame ι κ α} (h : m.Represents df) :
    (filterEmpties m).Represents df := by
  obtain ⟨rl, cw, hcut, hp, hrl, hcw⟩ := h.blocks
  unfold filterEmpties
  split
  · rename_i rl' cw' h1 h2
    split
    · exact h
    · rename_i hz
      have e1 : rl' = rl := by rcases hrl with h | h <;> rw [h1] at h <;> cases h; rfl
      have e2 : cw' = cw := by rcases hcw with h | h <;> rw [h2] at h <;> cases h; rfl
      subst e1; subst e2
      simp only [Bool.or_eq_true, beq_iff_eq, not_or] at hz
      refine ⟨h.wf, ⟨rl'.filter (· ≠ 0), cw'.filter (· ≠ 0), ⟨?_, ?_, ?_, ?_⟩, ?_, Or.inr rfl,
        Or.inr rfl⟩, h.index, h.columns⟩
      · intro he
        have := filter_nonzero_sum rl'
        rw [he] at this
        exact hz.1.2 (by simpa using this.symm)
      · intro he
        have := filter_nonzero_sum cw'
        rw [he] at this
        exact hz.2 (by simpa using this.symm)
      · rw [filter_nonzero_sum, hcut.rl_sum]
      · rw [filter_nonzero_sum, hcut.cw_sum]
      · simp only; rw [hp, keepNonzero_cut]
  · exact h

theorem represents_mk' {m : MFrame ι κ α} {df : Frame ι κ α} (h : m.Represents df) :
    ∃ m', m.mk' = some m' ∧ m'.Represents df := by
  obtain ⟨rl, cw, hcut, hp, hrl, hcw⟩ := h.blocks
  refine ⟨filterEmpties m, ?_, represents_filterEmpties h⟩
  have v1 : validAxis m.rowLens m.index = true := by
    unfold validAxis
    rcases hrl with h1 | h1 <;> rcases h.index with h2 | h2 <;> simp only [h1, h2]
    have := hcut.rl_sum
    simp only [Frame.nrows] at this
    rw [this]; simp
  have v2 : validAxis m.colWidths m.columns = true := by
    unfold validAxis
    rcases hcw with h1 | h1 <;> rcases h.columns with h2 | h2 <;> simp only [h1, h2]
    have := hcut.cw_sum
    simp only [Frame.ncols] at this
    rw [this]; simp
  unfold MFrame.mk'
  simp [v1, v2]

theorem sliceBounds_nrows {df : Frame ι κ α} {rl cw : List Nat} (h : df.IsCut rl cw) :
    (sliceBounds rl).map (fun p => (df.ilocRows p.1 p.2).nrows) = rl :=
  sliceBounds_lengths df.index rl (Nat.le_of_eq h.rl_sum)

theorem sliceBounds_ncols {df : Frame ι κ α} {rl cw : List Nat} (h : df.IsCut rl cw) :
    (sliceBounds cw).map (fun p => (df.ilocCols p.1 p.2).ncols) = cw :=
  sliceBounds_lengths df.columns cw (Nat.le_of_eq h.cw_sum)

theorem getRowLens_cut {m : MFrame ι κ α} {df : Frame ι κ α} {rl cw : List Nat}
    (hcut : df.IsCut rl cw) (hp : m.parts = df.cut rl cw)
    (hrl : m.rowLens = none ∨ m.rowLens = some rl) : m.getRowLens = rl := by
  unfold MFrame.getRowLens
  rcases hrl with h | h
  · rw [h, hp, Option.getD_none, Frame.cut, List.filterMap_map]
    obtain ⟨q, qs, hq⟩ := List.exists_cons_of_ne_nil (sliceBounds_ne_nil hcut.cw_ne)
    refine Eq.trans ?_ (sliceBounds_nrows hcut)
    rw [← List.filterMap_eq_map]
    refine filterMap_congr' ?_
    intro p _
    simp [hq, Frame.ilocCols, Frame.nrows]
  · rw [h]; rfl

theorem getColWidths_cut {m : MFrame ι κ α} {df : Frame ι κ α} {rl cw : List Nat}
    (hcut : df.IsCut rl cw) (hp : m.parts = df.cut rl cw)
    (hcw : m.colWidths = none ∨ m.colWidths = some cw) : m.getColWidths = cw := by
  unfold MFrame.getColWidths
  rcases hcw with h | h
  · rw [h, hp, Option.getD_none, Frame.cut]
    obtain ⟨q, qs, hq⟩ := List.exists_cons_of_ne_nil (sliceBounds_ne_nil hcut.rl_ne)
    refine Eq.trans ?_ (sliceBounds_ncols hcut)
    simp [hq, Frame.ilocCols, Frame.ncols, Frame.ilocRows]
  · rw [h]; rfl
