import Verif.Model.FullAxis
import Verif.Lemmas.Shuffle
import Verif.Lemmas.RangePart
import Verif.Lemmas.Concat
/-
Functions applied to whole row partitions.
-/

variable {ι κ α ι' κ' β : Type}

/-- the row partitions of a division -/
def bandsOf (rl : List Nat) (df : Frame ι κ α) : List (Frame ι κ α) := (sliceBounds rl).map fun p => df.ilocRows p.1 p.2

theorem bandsOf_ne {rl : List Nat} (h : rl ≠ []) (df : Frame ι κ α) : bandsOf rl df ≠ [] := by
  unfold bandsOf
  simpa using sliceBounds_ne_nil h

theorem bandsOf_length (rl : List Nat) (df : Frame ι κ α) : (bandsOf rl df).length = rl.length := by
  simp [bandsOf, sliceBounds_length]

theorem bandsOf_wf {df : Frame ι κ α} (h : df.WF) (rl : List Nat) :
    ∀ b ∈ bandsOf rl df, b.WF ∧ b.columns = df.columns := by
  intro b hb
  simp only [bandsOf, List.mem_map] at hb
  obtain ⟨p, _, rfl⟩ := hb
  exact ⟨h.ilocRows _ _, rfl⟩

theorem bandsOf_rows {df : Frame ι κ α} (h : df.WF) {rl cw : List Nat} (hc : df.IsCut rl cw) :
    ((bandsOf rl df).map (·.rows)).flatten = df.rows := by
  have := covers_lens rl df.rows (by rw [h.rows_len]; exact hc.rl_sum.symm)
  simpa [bandsOf, List.map_map, Function.comp_def, Frame.ilocRows] using this

theorem bandsOf_nrows {df : Frame ι κ α} {rl cw : List Nat} (hc : df.IsCut rl cw) :
    (bandsOf rl df).map (·.index.length) = rl := by
  have := sliceBounds_lengths df.index rl (Nat.le_of_eq hc.rl_sum)
  simpa [bandsOf, List.map_map, Function.comp_def, Frame.ilocRows] using this

theorem mapM_id_map_some {τ : Type} (l : List τ) : (l.map some).mapM id = some l := by
  have := mapM_map_some id some id l (by intro x _; rfl)
  simpa using this

theorem flatten_map_single {τ σ : Type} (f : τ → σ) (l : List τ) : (l.map fun x => [f x]).flatten = l.map f := by
  induction l with
  | nil => rfl
  | cons x xs ih => simp [ih]

theorem cut_one (f : Frame ι κ α) (h : f.WF) (lens : List Nat) :
    f.cut [f.nrows] lens = [(sliceBounds lens).map fun q => f.ilocCols q.1 q.2] := by
  unfold Frame.cut
  rw [sliceBounds_single]
  simp only [List.map_cons, List.map_nil]
  rw [h.ilocRows_all]

/-- Row partitions of any results with the same columns, divided at the same places, are a division of the results
    stacked. -/
theorem stack_cut (c : List κ) (lens : List Nat) (fs : List (Frame ι κ α)) (h : ∀ f ∈ fs, f.WF ∧ f.columns = c) :
    (fs.map fun f => (sliceBounds lens).map fun q => f.ilocCols q.1 q.2) =
      (Frame.stackRows c fs).cut (fs.map (·.nrows)) lens := by
  have := stackRows_cut c lens (fs.map fun f => (f, [f.nrows])) (by
    intro e he
    simp only [List.mem_map] at he
    obtain ⟨f, hf, rfl⟩ := he
    exact ⟨(h f hf).1, (h f hf).2, by simp⟩)
  simp only [List.map_map, Function.comp_def, List.map_id'] at this
  have h2 : (fs.map fun f => [f.nrows]).flatten = fs.map (·.nrows) := flatten_map_single _ _
  have h3 : (fs.map fun f => f.cut [f.nrows] lens).flatten =
      fs.map fun f => (sliceBounds lens).map fun q => f.ilocCols q.1 q.2 := by
    have : ∀ f ∈ fs, f.cut [f.nrows] lens = [(sliceBounds lens).map fun q => f.ilocCols q.1 q.2] :=
      fun f hf => cut_one f (h f hf).1 lens
    rw [List.map_congr_left this]
    exact flatten_map_single _ _
  rw [h2, h3] at this
  exact this

theorem stackRows_isCut (c : List κ) {lens : List Nat} {fs : List (Frame ι κ α)} (hne : fs ≠ []) (hl : lens ≠ [])
    (hs : lens.sum = c.length) : (Frame.stackRows c fs).IsCut (fs.map (·.nrows)) lens := by
  refine ⟨by simpa using hne, hl, ?_, hs⟩
  simp [Frame.stackRows, Frame.nrows, List.length_flatten, List.map_map, Function.comp_def]

/-- **Row partitions one by one.** -/
theorem applyRowBands_cut [DecidableEq ι] [DecidableEq κ] (cfg : Cfg) (hmc : 1 ≤ cfg.minCol)
    (F : Nat → Frame ι κ α → Frame ι' κ' β) {df : Frame ι κ α} (hwf : df.WF) {rl cw : List Nat} (hc : df.IsCut rl cw)
    (func : Nat → Frame ι κ α → Option (Frame ι' κ' β)) (c : List κ')
    (hfunc : ∀ i b, (bandsOf rl df)[i]? = some b → func i b = some (F i b) ∧ (F i b).WF ∧ (F i b).columns = c)
    (keep : Bool) (numSplits : Option Nat) (hk : 1 ≤ axisNumSplits cfg keep numSplits none cw.length) :
    ∃ lens, lens ≠ [] ∧ lens.sum = c.length ∧
      deployLens (axisNumSplits cfg keep numSplits none cw.length) keep cw c.length cfg.minCol none false = some lens ∧
      applyRowBands cfg func (df.cut rl cw) keep numSplits =
        some ((Frame.stackRows c ((bandsOf rl df).mapIdx F)).cut (((bandsOf rl df).mapIdx F).map (·.nrows)) lens) := by
  obtain ⟨lens, h1, h2, h3⟩ := deployLens_ok (axisNumSplits cfg keep numSplits none cw.length) hk keep cw c.length cfg.minCol
    hmc none false (by simp)
  refine ⟨lens, h2, h3, h1, ?_⟩
  unfold applyRowBands
  rw [gridWidth_cut hc.rl_ne, ← stack_cut]
  · have : ((df.cut rl cw).mapIdx fun i parts => deployAxisFunc false (func i)
        (axisNumSplits cfg keep numSplits none cw.length) keep parts cfg.minCol none false) =
        (((bandsOf rl df).mapIdx F).map fun f => (sliceBounds lens).map fun q => f.ilocCols q.1 q.2).map some := by
      apply List.ext_getElem?
      intro i
      simp only [List.getElem?_mapIdx, List.getElem?_map, Frame.cut, bandsOf]
      cases hp : (sliceBounds rl)[i]? with
      | none => rfl
      | some p =>
        simp only [Option.map_some, Option.some.injEq]
        obtain ⟨g1, g2, g3⟩ := hfunc i (df.ilocRows p.1 p.2) (by simp [bandsOf, List.getElem?_map, hp])
        have hv : Frame.hcat ((sliceBounds cw).map fun q => (df.ilocRows p.1 p.2).ilocCols q.1 q.2)
            = some (df.ilocRows p.1 p.2) := by
          have := Frame.hcat_ilocRows (hcat_cols_cut hwf hc) p.1 p.2
          rw [List.map_map] at this
          simpa only [Function.comp_def, Frame.ilocCols_ilocRows] using this
        have hd := deploy_cols_eq (fun _ => F i (df.ilocRows p.1 p.2)) (axisNumSplits cfg keep numSplits none cw.length) keep
          ((sliceBounds cw).map fun q => (df.ilocRows p.1 p.2).ilocCols q.1 q.2) cfg.minCol none false _ hv g2
        have hsame : deployAxisFunc false (func i) (axisNumSplits cfg keep numSplits none cw.length) keep
            ((sliceBounds cw).map fun q => (df.ilocRows p.1 p.2).ilocCols q.1 q.2) cfg.minCol none false =
            deployAxisFunc false (fun _ => some (F i (df.ilocRows p.1 p.2))) (axisNumSplits cfg keep numSplits none cw.length)
              keep ((sliceBounds cw).map fun q => (df.ilocRows p.1 p.2).ilocCols q.1 q.2) cfg.minCol none false := by
          unfold deployAxisFunc
          simp only [axisConcat, Bool.false_eq_true, ↓reduceIte, hv, Option.bind_eq_bind, Option.bind_some, g1]
        rw [hsame, hd]
        have hpl : (((sliceBounds cw).map fun q => (df.ilocRows p.1 p.2).ilocCols q.1 q.2).map (·.ncols)) = cw := by
          rw [List.map_map]
          exact sliceBounds_lengths df.columns cw (Nat.le_of_eq hc.cw_sum)
        have hn : (F i (df.ilocRows p.1 p.2)).ncols = c.length := by unfold Frame.ncols; rw [g3]
        rw [hpl, hn, h1, Option.map_some]
    rw [this, mapM_id_map_some]
  · intro f hf
    rw [List.mem_mapIdx] at hf
    obtain ⟨i, hi, rfl⟩ := hf
    exact (hfunc i _ (List.getElem?_eq_getElem hi)).2

theorem getLengthList_one {n mb : Nat} (hm : 1 ≤ mb) : getLengthList n 1 mb = some [n] := by
  unfold getLengthList computeChunksize
  have : mb ≠ 0 := by omega
  simp [this, Nat.mod_one]
  omega

/-- the result of a function applied to the row partitions one by one, with the recorded widths -/
theorem applyFullRows_spec [DecidableEq ι] [DecidableEq κ] (cfg : Cfg) (hmc : 1 ≤ cfg.minCol)
    (F : Nat → Frame ι κ α → Frame ι' κ' β) {m : MFrame ι κ α} {df : Frame ι κ α} {rl cw : List Nat} (hwf : df.WF)
    (hc : df.IsCut rl cw) (hparts : m.parts = df.cut rl cw) (hcw : m.colWidths = none ∨ m.colWidths = some cw)
    (func : Nat → Frame ι κ α → Option (Frame ι' κ' β)) (c : List κ')
    (hfunc : ∀ i b, (bandsOf rl df)[i]? = some b → func i b = some (F i b) ∧ (F i b).WF ∧ (F i b).columns = c)
    (keep : Bool) (numSplits : Option Nat) (hk : 1 ≤ axisNumSplits cfg keep numSplits none cw.length)
    (hkeep : keep = true → numSplits = none)
    (newColumns : Option (List κ')) (hnew : newColumns = none ∨ newColumns = some c) :
    ∃ m', applyFullRows cfg func keep numSplits newColumns m = some m' ∧
      m'.Represents (Frame.stackRows c ((bandsOf rl df).mapIdx F)) ∧ m'.index = none := by
  obtain ⟨lens, h1, h2, h3, h4⟩ := applyRowBands_cut cfg hmc F hwf hc func c hfunc keep numSplits hk
  have hwfF : ∀ f ∈ (bandsOf rl df).mapIdx F, f.WF ∧ f.columns = c := by
    intro f hf
    rw [List.mem_mapIdx] at hf
    obtain ⟨i, hi, rfl⟩ := hf
    exact (hfunc i _ (List.getElem?_eq_getElem hi)).2
  have hne : (bandsOf rl df).mapIdx F ≠ [] := by
    have := bandsOf_ne hc.rl_ne df
    simpa using this
  have hcut := stackRows_isCut c hne h1 h2
  unfold applyFullRows
  rw [hparts, h4, Option.bind_some]
  generalize hw : fullAxisWidths cfg keep m.colWidths newColumns _ = widths
  have hwidths : widths = none ∨ widths = some lens := by
    rw [← hw]
    unfold fullAxisWidths
    rcases hnew with h | h
    · left; simp [h]
    · rw [h, Option.bind_some]
      cases keep with
      | true =>
        simp only [↓reduceIte]
        rcases hcw with h0 | h0
        · left; simp [h0]
        · rw [h0, Option.bind_some]
          split
          · rename_i hs
            right
            have hk2 : axisNumSplits cfg true numSplits none cw.length = cw.length := by
              simp [axisNumSplits, hkeep rfl]
            rw [hk2] at h3
            have := (deployLens_keep h3 hmc).1 hs.1
            rw [this]
          · left; rfl
      | false =>
        right
        simp only [Bool.false_eq_true, ↓reduceIte]
        rw [gridWidth_cut hcut.rl_ne]
        generalize hkk : axisNumSplits cfg false numSplits none cw.length = k at h3 hk
        unfold deployLens at h3
        by_cases hk1 : k = 1
        · rw [if_pos hk1] at h3
          cases h3
          exact getLengthList_one hmc
        · rw [if_neg hk1] at h3
          simp only [Bool.false_eq_true, ↓reduceIte, Bool.not_false, Bool.or_true] at h3
          rw [(getLengthList_sum h3).2]
          exact h3
  have hrep : MFrame.Represents (MFrame.mk ((Frame.stackRows c ((bandsOf rl df).mapIdx F)).cut
      (((bandsOf rl df).mapIdx F).map (·.nrows)) lens) none newColumns none widths)
      (Frame.stackRows c ((bandsOf rl df).mapIdx F)) :=
    ⟨stackRows_wf c _ hwfF, ⟨_, _, hcut, rfl, Or.inl rfl, hwidths⟩, Or.inl rfl, hnew⟩
  obtain ⟨m', g1, g2⟩ := represents_mk' hrep
  refine ⟨m', g1, g2, ?_⟩
  unfold MFrame.mk' at g1
  split at g1
  · cases g1
    unfold filterEmpties
    simp
  · cases g1

/-! ### `reset_index(drop=True)` -/

theorem ranges_flatten (rl : List Nat) (s : Nat) :
    (rl.mapIdx fun i n => (List.range n).map (· + (s + (rl.take i).sum))).flatten = (List.range rl.sum).map (· + s) := by
  induction rl generalizing s with
  | nil => rfl
  | cons n rl ih =>
    rw [List.mapIdx_cons, List.flatten_cons]
    have h1 : (rl.mapIdx fun i k => (List.range k).map (· + (s + ((n :: rl).take (i + 1)).sum))) =
        rl.mapIdx fun i k => (List.range k).map (· + ((s + n) + (rl.take i).sum)) := by
      simp [List.take_succ_cons, Nat.add_assoc]
    rw [h1, ih, List.sum_cons, List.range_add, List.map_append, List.map_map]
    simp only [List.take_zero, List.sum_nil, Nat.add_zero]
    congr 1
    apply List.map_congr_left
    intro x _
    simp only [Function.comp]
    omega

theorem mapIdx_const' {τ σ : Type} (f : τ → σ) (l : List τ) : (l.mapIdx fun _ x => f x) = l.map f := by
  apply List.ext_getElem?
  intro i
  simp only [List.getElem?_map, List.getElem?_mapIdx]

/-- numbering each row partition from where the one above stopped numbers all rows from 0 -/
theorem resetIndexDropLazy_spec [DecidableEq ι] [DecidableEq κ] (cfg : Cfg) (hmc : 1 ≤ cfg.minCol)
    {m : MFrame ι κ α} {df : Frame ι κ α} (hm : m.Represents df) :
    ∃ m', resetIndexDropLazy cfg m = some m' ∧ m'.Represents (Frame.mk (List.range df.index.length) df.columns df.rows) ∧
      m'.index = none := by
  have hwf := hm.wf
  obtain ⟨rl, cw, hc, hparts, hrl, hcw⟩ := hm.blocks
  have hlens : m.getRowLens = rl := getRowLens_cut hc hparts hrl
  unfold resetIndexDropLazy
  rw [hlens]
  have hbl := bandsOf_nrows hc
  obtain ⟨m', h1, h2, h3⟩ := applyFullRows_spec cfg hmc
    (fun i b => Frame.mk ((List.range b.index.length).map (· + (rl.take i).sum)) b.columns b.rows) hwf hc hparts hcw
    (fun i b =>
      if (rl.take (i + 1)).sum - (rl.take i).sum = b.index.length then
        some { index := (List.range ((rl.take (i + 1)).sum - (rl.take i).sum)).map (· + (rl.take i).sum),
               columns := b.columns, rows := b.rows }
      else none) df.columns
    (by
      intro i b hb
      have hbm := bandsOf_wf hwf rl b (List.mem_of_getElem? hb)
      have hi : rl[i]? = some b.index.length := by
        rw [← hbl, List.getElem?_map, hb]; rfl
      have hlt : i < rl.length := (List.getElem?_eq_some_iff.1 hi).1
      have hstep : (rl.take (i + 1)).sum - (rl.take i).sum = b.index.length := by
        rw [List.take_add_one, hi]
        simp
      refine ⟨by rw [if_pos hstep, hstep], ⟨?_, hbm.1.row_width⟩, hbm.2⟩
      simp [hbm.1.rows_len])
    true none (by
      have : 0 < cw.length := List.length_pos_iff.2 hc.cw_ne
      simp [axisNumSplits]; omega) (by simp) m.columns hm.columns
  refine ⟨m', h1, ?_, h3⟩
  have heq : Frame.stackRows df.columns ((bandsOf rl df).mapIdx
      (fun i b => Frame.mk ((List.range b.index.length).map (· + (rl.take i).sum)) b.columns b.rows)) =
      Frame.mk (List.range df.index.length) df.columns df.rows := by
    unfold Frame.stackRows
    simp only [Frame.mk.injEq, true_and, map_mapIdx']
    constructor
    · have := ranges_flatten rl 0
      rw [← hbl] at this
      rw [mapIdx_map', hbl, hc.rl_sum] at this
      simpa [Frame.nrows] using this
    · rw [mapIdx_const' (fun b : Frame ι κ α => b.rows)]
      exact bandsOf_rows hwf hc
  rw [heq] at h2
  exact h2
