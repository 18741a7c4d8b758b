import Verif.Model.Merge
import Verif.Lemmas.FullAxis
import Verif.Lemmas.KeyParts
import Verif.Lemmas.Select
/-
Merging row partition by row partition, and range by range.
-/

variable {ι ι' κ α Q : Type}

theorem idxOf_lt {τ : Type} [DecidableEq τ] {l : List τ} {x : τ} (h : x ∈ l) : l.idxOf x < l.length :=
  List.idxOf_lt_length_iff.2 h

/-! ### the result is a frame -/

theorem rightPart_length [DecidableEq κ] (o : MergeOn κ) (rc : List κ) (r : List α) (h : r.length = rc.length) :
    (o.rightPart rc r).length = (rc.filter o.keepsRight).length := by
  unfold MergeOn.rightPart
  rw [List.length_map]
  induction rc generalizing r with
  | nil => simp
  | cons c rc ih =>
    cases r with
    | nil => simp at h
    | cons x r =>
      have := ih r (by simpa using h)
      simp only [List.zip_cons_cons, List.filter_cons]
      split <;> simp_all

theorem columns_length [DecidableEq κ] (o : MergeOn κ) (lc rc : List κ) :
    (o.columns lc rc).length = lc.length + (rc.filter o.keepsRight).length := by
  simp [MergeOn.columns]

theorem orElse_mem {τ : Type} {l : List τ} {x y : τ} (h : y ∈ orElse l x) : y ∈ l ∨ y = x := by
  unfold orElse at h
  split at h
  · right; simpa using h
  · left; exact h

theorem merge_row_length [DecidableEq κ] [DecidableEq α] (o : MergeOn κ) (nan : α) (how : How) (lc rc : List κ)
    (L R : List (List α)) (hL : ∀ l ∈ L, l.length = lc.length) (hR : ∀ r ∈ R, r.length = rc.length) :
    ∀ x ∈ o.rows nan how lc rc L R, x.length = (o.columns lc rc).length := by
  intro x hx
  rw [columns_length]
  unfold MergeOn.rows at hx
  cases how with
  | left =>
    simp only [List.mem_flatMap] at hx
    obtain ⟨l, hl, hx⟩ := hx
    rcases orElse_mem hx with hx | rfl
    · simp only [List.mem_map, List.mem_filter] at hx
      obtain ⟨r, ⟨hr, _⟩, rfl⟩ := hx
      rw [List.length_append, rightPart_length o rc r (hR r hr), hL l hl]
    · simp [MergeOn.onlyLeft, hL l hl]
  | inner =>
    simp only [List.mem_flatMap, List.mem_map, List.mem_filter] at hx
    obtain ⟨l, hl, r, ⟨hr, _⟩, rfl⟩ := hx
    rw [List.length_append, rightPart_length o rc r (hR r hr), hL l hl]
  | right =>
    simp only [List.mem_flatMap] at hx
    obtain ⟨r, hr, hx⟩ := hx
    rcases orElse_mem hx with hx | rfl
    · simp only [List.mem_map, List.mem_filter] at hx
      obtain ⟨l, ⟨hl, _⟩, rfl⟩ := hx
      rw [List.length_append, rightPart_length o rc r (hR r hr), hL l hl]
    · simp [MergeOn.onlyRight, rightPart_length o rc r (hR r hr)]

theorem merge_wf [DecidableEq κ] [DecidableEq α] (o : MergeOn κ) (nan : α) (how : How) {l : Frame ι κ α} {r : Frame ι' κ α}
    (hl : l.WF) (hr : r.WF) : (Frame.merge o nan how l r).WF := by
  refine ⟨by simp [Frame.merge, Frame.numbered], ?_⟩
  exact merge_row_length o nan how _ _ _ _ hl.row_width hr.row_width

/-! ### predicted columns -/

/-- keys of the same name stand at the same place of `left_on` and `right_on` -/
def MergeOn.Aligned [DecidableEq κ] (o : MergeOn κ) : Prop := ∀ c, c ∈ o.leftOn → c ∈ o.rightOn → c ∈ o.shared

theorem mem_shared [DecidableEq κ] {o : MergeOn κ} {c : κ} (h : c ∈ o.shared) : c ∈ o.leftOn ∧ c ∈ o.rightOn := by
  unfold MergeOn.shared at h
  rw [List.mem_filterMap] at h
  obtain ⟨⟨a, b⟩, hp, h⟩ := h
  split at h
  · rename_i hab
    simp only at hab
    cases h
    subst hab
    exact ⟨(List.of_mem_zip hp).1, (List.of_mem_zip hp).2⟩
  · cases h

theorem keepsRight_eq [DecidableEq κ] {o : MergeOn κ} (h : o.Aligned) (c : κ) :
    o.keepsRight c = !(o.leftOn.contains c && o.rightOn.contains c) := by
  unfold MergeOn.keepsRight
  congr 1
  rw [Bool.eq_iff_iff]
  simp only [List.contains_iff_mem, Bool.and_eq_true]
  exact ⟨fun hc => mem_shared hc, fun hc => h c hc.1 hc.2⟩

theorem joinColumns_eq [DecidableEq κ] (o : MergeOn κ) (h : o.Aligned) (h1 : o.leftSuffix.isSome) (h2 : o.rightSuffix.isSome)
    (lc rc : List κ) (c : List κ) (hj : joinColumns o lc rc = some c) : c = o.columns lc rc := by
  unfold joinColumns at hj
  split at hj
  · cases hj
  · cases hj
    unfold MergeOn.columns
    have hk : (rc.filter fun c => !(o.leftOn.contains c && o.rightOn.contains c)) = rc.filter o.keepsRight := by
      apply List.filter_congr
      intro c _
      rw [keepsRight_eq h]
    obtain ⟨s1, h1⟩ := Option.isSome_iff_exists.1 h1
    obtain ⟨s2, h2⟩ := Option.isSome_iff_exists.1 h2
    rw [hk]
    congr 1
    · apply List.map_congr_left
      intro x hx
      have e : (lc.contains x && (rc.contains x && !o.rightOn.contains x) ||
          rc.contains x && (lc.contains x && !o.leftOn.contains x)) = (rc.filter o.keepsRight).contains x := by
        rw [Bool.eq_iff_iff]
        have := keepsRight_eq h x
        simp only [List.contains_iff_mem, List.mem_filter, this, Bool.or_eq_true, Bool.and_eq_true, Bool.not_eq_true',
          Bool.and_eq_false_iff, ← Bool.not_eq_true]
        simp only [hx, true_and]
        grind
      simp only [e, h1, MergeOn.suffixed, Option.getD_some, Option.map_some]
    · apply List.map_congr_left
      intro x hx
      rw [List.mem_filter, keepsRight_eq h] at hx
      have e : (lc.contains x && (rc.contains x && !o.rightOn.contains x) ||
          rc.contains x && (lc.contains x && !o.leftOn.contains x)) = lc.contains x := by
        rw [Bool.eq_iff_iff]
        obtain ⟨hx1, hx2⟩ := hx
        simp only [List.contains_iff_mem, Bool.or_eq_true, Bool.and_eq_true, Bool.not_eq_true',
          Bool.and_eq_false_iff, ← Bool.not_eq_true] at hx2 ⊢
        grind
      simp only [e, h2, MergeOn.suffixed, Option.getD_some, Option.map_some]

theorem mergeColumns_eq [DecidableEq κ] (o : MergeOn κ) (h : o.Aligned) (h1 : o.leftSuffix.isSome) (h2 : o.rightSuffix.isSome)
    {left : MFrame ι κ α} {right : MFrame ι' κ α} {l : Frame ι κ α} {r : Frame ι' κ α} (hl : left.Represents l)
    (hr : right.Represents r) :
    mergeColumns o left right = none ∨ mergeColumns o left right = some (o.columns l.columns r.columns) := by
  unfold mergeColumns
  rw [hr.getColumns]
  rcases hl.columns with hc | hc
  · left; rw [hc]; rfl
  · rw [hc, Option.bind_some]
    cases hj : joinColumns o l.columns r.columns with
    | none => left; rfl
    | some c => right; rw [joinColumns_eq o h h1 h2 _ _ c hj]

/-! ### the number of column blocks -/

theorem mergeSplits_pos (cfg : Cfg) (hp : 1 ≤ cfg.nPartitions) (hmc : 1 ≤ cfg.minCol) {left : MFrame ι κ α}
    {right : MFrame ι' κ α} {l : Frame ι κ α} {r : Frame ι' κ α} (hl : left.Represents l) (hr : right.Represents r)
    (hne : l.columns ≠ [] ∨ r.columns ≠ []) : ∃ n, mergeSplits cfg left right = some n ∧ 1 ≤ n := by
  obtain ⟨rl, cw, hc, hparts, hrl, hcw⟩ := hl.blocks
  obtain ⟨rl', cw', hc', hparts', hrl', hcw'⟩ := hr.blocks
  unfold mergeSplits
  rcases hcw with h | h <;> rcases hcw' with h' | h' <;> rw [h, h']
  case inr.inr =>
    simp only
    rw [computeChunksize_eq hp hmc]
    refine ⟨_, rfl, ?_⟩
    have hs : 1 ≤ cw.sum + cw'.sum := by
      rw [hc.cw_sum, hc'.cw_sum]
      unfold Frame.ncols
      rcases hne with hne | hne
      · have := List.length_pos_iff.2 hne; omega
      · have := List.length_pos_iff.2 hne; omega
    generalize hx : max (_ : Nat) _ = c
    have hcpos : 1 ≤ c := by
      rw [← hx]; omega
    rw [Nat.le_div_iff_mul_le (by omega)]
    omega
  all_goals
    refine ⟨_, rfl, ?_⟩
    rw [hparts, hparts', gridWidth_cut hc.rl_ne, gridWidth_cut hc'.rl_ne]
    have := List.length_pos_iff.2 hc.cw_ne
    omega

/-! ### dividing the rows anew -/

theorem mapAxis_id_rows [DecidableEq ι] [DecidableEq κ] (cfg : Cfg) (hp : 1 ≤ cfg.nPartitions) (hmr : 1 ≤ cfg.minRow)
    {df : Frame ι κ α} (hwf : df.WF) {rl cw : List Nat} (hc : df.IsCut rl cw) :
    ∃ lens, getLengthList df.nrows cfg.nPartitions cfg.minRow = some lens ∧ lens ≠ [] ∧ lens.sum = df.nrows ∧
      mapAxisPartitions cfg true some (df.cut rl cw) false none none = some (df.cut lens cw) := by
  obtain ⟨lens, h1, h2, h3⟩ := deployLens_ok cfg.nPartitions hp false rl df.nrows cfg.minRow hmr none false (by simp)
  have hgl : getLengthList df.nrows cfg.nPartitions cfg.minRow = some lens := by
    unfold deployLens at h1
    by_cases hk1 : cfg.nPartitions = 1
    · rw [if_pos hk1] at h1
      cases h1
      rw [hk1]
      exact getLengthList_one hmr
    · rw [if_neg hk1] at h1
      simpa using h1
  refine ⟨lens, hgl, h2, h3, ?_⟩
  unfold mapAxisPartitions truthyLengths axisNumSplits
  simp only [Bool.false_and, Bool.false_eq_true, ↓reduceIte, Option.isSome_none]
  rw [colBlocks_cut hc.rl_ne, mapM_map_some (g := fun q => (sliceBounds lens).map fun p =>
      (df.ilocCols q.1 q.2).ilocRows p.1 p.2)]
  · simp only [Option.bind_eq_bind, Option.bind_some, Option.pure_def]
    rw [colBlocks_matrix _ _ _ (sliceBounds_ne_nil hc.cw_ne)]
    simp only [Frame.cut, Frame.ilocCols_ilocRows]
  · intro q hq
    have hv : Frame.vcat ((sliceBounds rl).map fun p => (df.ilocRows p.1 p.2).ilocCols q.1 q.2)
        = some (df.ilocCols q.1 q.2) := by
      have := Frame.vcat_ilocCols (vcat_rows_cut hwf hc) q.1 q.2
      rwa [List.map_map] at this
    have hd := deploy_rows_eq (fun b : Frame ι κ α => b) cfg.nPartitions false _ cfg.minRow none false _ hv (hwf.ilocCols _ _)
    have hpl : (((sliceBounds rl).map fun p => (df.ilocRows p.1 p.2).ilocCols q.1 q.2).map (·.nrows)) = rl := by
      rw [List.map_map]
      exact sliceBounds_lengths df.index rl (Nat.le_of_eq hc.rl_sum)
    rw [hpl] at hd
    have hn : (df.ilocCols q.1 q.2).nrows = df.nrows := rfl
    rw [hn, h1, Option.map_some] at hd
    exact hd

theorem repartitionRows_spec [DecidableEq ι] [DecidableEq κ] (cfg : Cfg) (hp : 1 ≤ cfg.nPartitions) (hmr : 1 ≤ cfg.minRow)
    {m : MFrame ι κ α} {df : Frame ι κ α} (hm : m.Represents df) :
    ∃ m', repartitionRows cfg m = some m' ∧ m'.Represents df := by
  have hwf := hm.wf
  obtain ⟨rl, cw, hc, hparts, hrl, hcw⟩ := hm.blocks
  obtain ⟨lens, h1, h2, h3, h4⟩ := mapAxis_id_rows cfg hp hmr hwf hc
  unfold repartitionRows
  rw [hparts, h4, Option.bind_some]
  apply represents_mk'
  refine ⟨hwf, ⟨lens, cw, ⟨h2, hc.cw_ne, h3, hc.cw_sum⟩, rfl, ?_, ?_⟩, hm.index, hm.columns⟩
  · rcases hm.index with h | h
    · left; simp [h]
    · right
      simp only [h, Option.bind_some]
      have : (df.cut lens cw).length = lens.length := by simp [Frame.cut, sliceBounds_length]
      rw [this, (getLengthList_sum h1).2]
      exact h1
  · rcases hm.columns with h | h
    · left; simp [h]
    · simp only [h, Option.bind_some]
      rw [gridWidth_cut h2]
      split
      · rename_i hw
        obtain ⟨w, rfl⟩ := List.length_eq_one_iff.1 hw
        right
        have := hc.cw_sum
        simp [Frame.ncols] at this
        simp [this]
      · rcases hcw with h0 | h0
        · left; simp [h0]
        · rw [h0, Option.bind_some]
          split
          · right; rfl
          · left; rfl

theorem rebalanceForMerge_spec [DecidableEq ι] [DecidableEq κ] (cfg : Cfg) (hp : 1 ≤ cfg.nPartitions) (hmr : 1 ≤ cfg.minRow)
    {m : MFrame ι κ α} {df : Frame ι κ α} (hm : m.Represents df) :
    ∃ m', rebalanceForMerge cfg m = some m' ∧ m'.Represents df := by
  unfold rebalanceForMerge
  split
  · exact repartitionRows_spec cfg hp hmr hm
  · exact ⟨m, rfl, hm⟩

/-! ### merging the row partitions -/

theorem flatMap_flatten' {τ σ : Type} (f : τ → List σ) (ls : List (List τ)) :
    (ls.map fun l => l.flatMap f).flatten = ls.flatten.flatMap f := by
  induction ls with
  | nil => rfl
  | cons l ls ih => simp [ih]

/-- the same rows and columns, whatever the row labels -/
def Frame.SameData (f g : Frame ι κ α) : Prop := f.columns = g.columns ∧ f.rows = g.rows

theorem merge_stack_left [DecidableEq ι] [DecidableEq κ] [DecidableEq α] (o : MergeOn κ) (nan : α) (how : How) (hh : how ≠ .right)
    {df : Frame ι κ α} (hwf : df.WF) {rl cw : List Nat} (hc : df.IsCut rl cw) (r : Frame ι' κ α) :
    (Frame.stackRows (o.columns df.columns r.columns) ((bandsOf rl df).mapIdx fun _ b => Frame.merge o nan how b r)).SameData
      (Frame.merge o nan how df r) := by
  refine ⟨rfl, ?_⟩
  rw [mapIdx_const' (fun b : Frame ι κ α => Frame.merge o nan how b r)]
  simp only [Frame.stackRows, List.map_map, Function.comp_def, Frame.merge, Frame.numbered]
  have hcols : ∀ b ∈ bandsOf rl df, o.rows nan how b.columns r.columns b.rows r.rows =
      o.rows nan how df.columns r.columns b.rows r.rows := by
    intro b hb
    rw [(bandsOf_wf hwf rl b hb).2]
  rw [List.map_congr_left hcols]
  conv => rhs; rw [← bandsOf_rows hwf hc]
  cases how with
  | right => exact absurd rfl hh
  | left =>
    simp only [MergeOn.rows]
    rw [← flatMap_flatten', List.map_map]
    rfl
  | inner =>
    simp only [MergeOn.rows]
    rw [← flatMap_flatten', List.map_map]
    rfl

theorem merge_stack_right [DecidableEq ι'] [DecidableEq κ] [DecidableEq α] (o : MergeOn κ) (nan : α)
    (l : Frame ι κ α) {df : Frame ι' κ α} (hwf : df.WF) {rl cw : List Nat} (hc : df.IsCut rl cw) :
    (Frame.stackRows (o.columns l.columns df.columns) ((bandsOf rl df).mapIdx fun _ b => Frame.merge o nan .right l b)).SameData
      (Frame.merge o nan .right l df) := by
  refine ⟨rfl, ?_⟩
  rw [mapIdx_const' (fun b : Frame ι' κ α => Frame.merge o nan .right l b)]
  simp only [Frame.stackRows, List.map_map, Function.comp_def, Frame.merge, Frame.numbered]
  have hcols : ∀ b ∈ bandsOf rl df, o.rows nan .right l.columns b.columns l.rows b.rows =
      o.rows nan .right l.columns df.columns l.rows b.rows := by
    intro b hb
    rw [(bandsOf_wf hwf rl b hb).2]
  rw [List.map_congr_left hcols]
  conv => rhs; rw [← bandsOf_rows hwf hc]
  simp only [MergeOn.rows]
  rw [← flatMap_flatten', List.map_map]
  rfl

theorem combined_spec [DecidableEq ι] [DecidableEq κ] {m : MFrame ι κ α} {df : Frame ι κ α} (hm : m.Represents df)
    (hne : df.columns ≠ []) : m.combined = some df := by
  obtain ⟨rl, cw, hc, hparts, _, _⟩ := hm.blocks
  unfold MFrame.combined
  rw [hparts]
  exact assemble_cut hm.wf hc (List.length_pos_iff.2 hne)

theorem rowAxisMergeUnsorted_spec [DecidableEq ι] [DecidableEq ι'] [DecidableEq κ] [DecidableEq α] (cfg : Cfg)
    (hp : 1 ≤ cfg.nPartitions) (hmr : 1 ≤ cfg.minRow) (hmc : 1 ≤ cfg.minCol) (o : MergeOn κ) (ho : o.Aligned)
    (h1 : o.leftSuffix.isSome) (h2 : o.rightSuffix.isSome) (nan : α) (how : How) {left : MFrame ι κ α} {right : MFrame ι' κ α}
    {l : Frame ι κ α} {r : Frame ι' κ α} (hl : left.Represents l) (hr : right.Represents r)
    (hnl : l.columns ≠ []) (hnr : r.columns ≠ []) :
    ∃ m' f, rowAxisMergeUnsorted cfg o nan how left right = some m' ∧ m'.Represents f ∧
      f.SameData (Frame.merge o nan how l r) ∧ m'.index = none := by
  have hcols := mergeColumns_eq o ho h1 h2 hl hr
  by_cases hh : how = .right
  · subst hh
    unfold rowAxisMergeUnsorted
    simp only
    rw [combined_spec hl hnl, Option.bind_some]
    obtain ⟨right', g1, g2⟩ := rebalanceForMerge_spec cfg hp hmr hr
    rw [g1, Option.bind_some]
    obtain ⟨n, g3, g4⟩ := mergeSplits_pos cfg hp hmc g2 hl (Or.inl hnr)
    rw [g3, Option.bind_some]
    obtain ⟨rl, cw, hc, hparts, hrl, hcw⟩ := g2.blocks
    obtain ⟨m', e1, e2, e3⟩ := applyFullRows_spec cfg hmc (fun _ b => Frame.merge o nan .right l b) g2.wf hc hparts hcw
      (fun _ b => some (Frame.merge o nan .right l b)) (o.columns l.columns r.columns)
      (by
        intro i b hb
        have := bandsOf_wf g2.wf rl b (List.mem_of_getElem? hb)
        refine ⟨rfl, merge_wf o nan .right hl.wf this.1, ?_⟩
        simp [Frame.merge, Frame.numbered, this.2])
      false (some n) (by simpa [axisNumSplits] using g4) (by simp) _ hcols
    exact ⟨m', _, e1, e2, merge_stack_right o nan l g2.wf hc, e3⟩
  · have hdef : rowAxisMergeUnsorted cfg o nan how left right =
        (right.combined.bind fun r => (rebalanceForMerge cfg left).bind fun left' =>
          (mergeSplits cfg left' right).bind fun n =>
          applyFullRows cfg (fun _ b => some (Frame.merge o nan how b r)) false (some n) (mergeColumns o left right) left') := by
      cases how <;> first | rfl | exact absurd rfl hh
    rw [hdef, combined_spec hr hnr, Option.bind_some]
    obtain ⟨left', g1, g2⟩ := rebalanceForMerge_spec cfg hp hmr hl
    rw [g1, Option.bind_some]
    obtain ⟨n, g3, g4⟩ := mergeSplits_pos cfg hp hmc g2 hr (Or.inl hnl)
    rw [g3, Option.bind_some]
    obtain ⟨rl, cw, hc, hparts, hrl, hcw⟩ := g2.blocks
    obtain ⟨m', e1, e2, e3⟩ := applyFullRows_spec cfg hmc (fun _ b => Frame.merge o nan how b r) g2.wf hc hparts hcw
      (fun _ b => some (Frame.merge o nan how b r)) (o.columns l.columns r.columns)
      (by
        intro i b hb
        have := bandsOf_wf g2.wf rl b (List.mem_of_getElem? hb)
        refine ⟨rfl, merge_wf o nan how this.1 hr.wf, ?_⟩
        simp [Frame.merge, Frame.numbered, this.2])
      false (some n) (by simpa [axisNumSplits] using g4) (by simp) _ hcols
    exact ⟨m', _, e1, e2, merge_stack_left o nan how hh g2.wf hc r, e3⟩

/-! ### merging range by range -/

theorem gatherRanges_cut [DecidableEq ι] [DecidableEq κ] {le : Q → Q → Bool} (h : TotalLe le) (cols : List (KeyCol α Q))
    (hp : ∀ c ∈ cols, Increasing le c.pivots) (hb : numBins cols > 1) {df : Frame ι κ α} (hwf : df.WF) {rl cw : List Nat}
    (hc : df.IsCut rl cw) (hs : SplitSafe cols rl df) :
    gatherRanges le cols (df.cut rl cw) = some ((List.range (numBins cols)).map fun i =>
        Frame.ofRecords df.columns (binRows le true true false cols rl df i)) := by
  unfold gatherRanges
  rw [hcat_rows_cut hwf hc, Option.bind_some]
  have hsplit : ((sliceBounds rl).map fun p => df.ilocRows p.1 p.2).mapM (splitFrame le true true false cols)
      = some ((sliceBounds rl).map fun p => (List.range (numBins cols)).map fun i =>
          Frame.ofRecords df.columns (piece le true true false cols i (pySlice df.records p.1 p.2))) := by
    apply mapM_map_some
    intro p hpm
    unfold splitFrame
    rw [Frame.records_ilocRows, splitRecords_eq h true true false cols hp hb]
    · simp only [Option.map_some, List.map_map]
      rfl
    · rcases hs with hs | hs
      · exact Or.inl hs
      · exact Or.inr (hs _ (List.mem_map.2 ⟨p, hpm, rfl⟩))
  rw [hsplit, Option.bind_some, colBlocks_matrix _ _ _ (sliceBounds_ne_nil hc.rl_ne)]
  apply mapM_map_some
  intro i _
  have := vcat_ofRecords df.columns ((sliceBounds rl).map fun p =>
    piece le true true false cols i (pySlice df.records p.1 p.2)) (by simpa using sliceBounds_ne_nil hc.rl_ne)
  rw [List.map_map] at this
  simp only [Function.comp_def] at this ⊢
  rw [this]
  simp only [binRows, bandRecords, List.map_map, Function.comp_def]

theorem binOf_cross {le : Q → Q → Bool} (asc naLast cr : Bool) (c : KeyCol α Q) (p p' : Nat) {l : ι × List α} {r : ι' × List α}
    (h : l.2[p]? = r.2[p']?) :
    binOf le asc naLast cr [{ c with pos := p }] l = binOf le asc naLast cr [{ c with pos := p' }] r := by
  unfold binOf naRow binKeys activeCols
  simp only [List.any_cons, List.any_nil, Bool.or_false, KeyCol.missing, h]
  cases hpv : c.pivots.isEmpty <;>
    simp [List.filter_cons, hpv, KeyCol.code, sortKey, h]

theorem flatMap_perm {τ σ : Type} {l₁ l₂ : List τ} (h : l₁.Perm l₂) (f g : τ → List σ) (hf : ∀ x ∈ l₁, (f x).Perm (g x)) :
    (l₁.flatMap f).Perm (l₂.flatMap g) := by
  have hpt : (l₁.flatMap f).Perm (l₁.flatMap g) := by
    clear h
    induction l₁ with
    | nil => exact List.Perm.refl _
    | cons z l ih =>
      rw [List.flatMap_cons, List.flatMap_cons]
      exact (hf z (by simp)).append (ih fun w hw => hf w (by simp [hw]))
  exact hpt.trans (h.flatMap_right g)

theorem orElse_perm {τ : Type} {l₁ l₂ : List τ} (h : l₁.Perm l₂) (x : τ) : (orElse l₁ x).Perm (orElse l₂ x) := by
  unfold orElse
  have : l₁.isEmpty = l₂.isEmpty := by
    cases l₁ <;> cases l₂ <;> first | rfl | (have := h.length_eq; simp at this)
  rw [this]
  split
  · exact List.Perm.refl _
  · exact h

/-- the partners of one row of `left` -/
def MergeOn.partners [DecidableEq κ] [DecidableEq α] (o : MergeOn κ) (nan : α) (how : How) (lc rc : List κ) (R : List (List α))
    (l : List α) : List (List α) :=
  match how with
  | .left => orElse ((R.filter fun r => o.agree lc rc l r).map fun r => l ++ o.rightPart rc r) (o.onlyLeft nan rc l)
  | _ => (R.filter fun r => o.agree lc rc l r).map fun r => l ++ o.rightPart rc r

theorem rows_eq_partners [DecidableEq κ] [DecidableEq α] (o : MergeOn κ) (nan : α) {how : How} (hh : how ≠ .right) (lc rc : List κ)
    (L R : List (List α)) : o.rows nan how lc rc L R = L.flatMap (o.partners nan how lc rc R) := by
  cases how with
  | right => exact absurd rfl hh
  | left => rfl
  | inner => rfl

theorem partners_perm [DecidableEq κ] [DecidableEq α] (o : MergeOn κ) (nan : α) (how : How) (lc rc : List κ) {R R' : List (List α)}
    (l : List α) (h : (R.filter fun r => o.agree lc rc l r).Perm (R'.filter fun r => o.agree lc rc l r)) :
    (o.partners nan how lc rc R l).Perm (o.partners nan how lc rc R' l) := by
  unfold MergeOn.partners
  cases how with
  | left => exact orElse_perm (h.map _) _
  | right => exact h.map _
  | inner => exact h.map _

theorem merge_ranges_perm [DecidableEq ι] [DecidableEq ι'] [DecidableEq κ] [DecidableEq α] {le : Q → Q → Bool} (hle : TotalLe le)
    (o : MergeOn κ) (nan : α) {how : How} (hh : how ≠ .right) (k : κ) (ho : o.leftOn = [k] ∧ o.rightOn = [k]) (c : KeyCol α Q)
    (hp : Increasing le c.pivots) {l : Frame ι κ α} {r : Frame ι' κ α} (hl : l.WF) (hr : r.WF) {rl cw rl' cw' : List Nat}
    (hc : l.IsCut rl cw) (hc' : r.IsCut rl' cw') :
    (((List.range (numBins [{ c with pos := l.columns.idxOf k }])).map fun i =>
      o.rows nan how l.columns r.columns
        ((binRows le true true false [{ c with pos := l.columns.idxOf k }] rl l i).map (·.2))
        ((binRows le true true false [{ c with pos := r.columns.idxOf k }] rl' r i).map (·.2))).flatten).Perm
      (o.rows nan how l.columns r.columns l.rows r.rows) := by
  have hinc : ∀ x ∈ [({ c with pos := l.columns.idxOf k } : KeyCol α Q)], Increasing le x.pivots := by
    intro x hx; simp only [List.mem_singleton] at hx; subst hx; exact hp
  have hall := binRows_all hle true true false _ hinc hl hc
  simp only [rows_eq_partners o nan hh]
  have hstep : ∀ i, (((binRows le true true false [{ c with pos := l.columns.idxOf k }] rl l i).map (·.2)).flatMap
      (o.partners nan how l.columns r.columns
        ((binRows le true true false [{ c with pos := r.columns.idxOf k }] rl' r i).map (·.2)))).Perm
      ((binRows le true true false [{ c with pos := l.columns.idxOf k }] rl l i).flatMap
        fun x => o.partners nan how l.columns r.columns r.rows x.2) := by
    intro i
    rw [List.flatMap_map]
    apply flatMap_perm (List.Perm.refl _)
    intro x hx
    have hxi : binOf le true true false [{ c with pos := l.columns.idxOf k }] x = i := by
      have := (binRows_perm true true false _ hl hc i).mem_iff.1 hx
      simpa using (List.mem_filter.1 this).2
    apply partners_perm
    have h1 : (((binRows le true true false [{ c with pos := r.columns.idxOf k }] rl' r i).map (·.2)).filter
        fun y => o.agree l.columns r.columns x.2 y).Perm
        (((r.records.filter fun y => binOf le true true false [{ c with pos := r.columns.idxOf k }] y == i).map (·.2)).filter
          fun y => o.agree l.columns r.columns x.2 y) :=
      ((binRows_perm true true false _ hr hc' i).map _).filter _
    refine h1.trans (List.Perm.of_eq ?_)
    have h2 : r.rows = r.records.map (·.2) := by
      have := hr.ofRecords_records
      conv => lhs; rw [← this]
      rfl
    rw [h2, List.filter_map, List.filter_map, List.filter_filter]
    congr 1
    apply List.filter_congr
    intro y _
    simp only [Function.comp]
    cases hag : o.agree l.columns r.columns x.2 y.2 with
    | false => simp
    | true =>
      have hk : x.2[l.columns.idxOf k]? = y.2[r.columns.idxOf k]? := by
        simp only [MergeOn.agree, rowKey, ho.1, ho.2, List.map_cons, List.map_nil, beq_iff_eq, List.cons.injEq, and_true] at hag
        exact hag
      have := binOf_cross (le := le) true true false c _ _ hk
      rw [hxi] at this
      simp [← this]
  refine (perm_flatten_map _ _ _ fun i _ => hstep i).trans ?_
  have h3 : ((List.range (numBins [{ c with pos := l.columns.idxOf k }])).map fun i =>
      (binRows le true true false [{ c with pos := l.columns.idxOf k }] rl l i).flatMap
        fun x => o.partners nan how l.columns r.columns r.rows x.2).flatten =
      ((List.range (numBins [{ c with pos := l.columns.idxOf k }])).map
        (binRows le true true false [{ c with pos := l.columns.idxOf k }] rl l)).flatten.flatMap
        fun x => o.partners nan how l.columns r.columns r.rows x.2 := by
    rw [← flatMap_flatten', List.map_map]
    rfl
  rw [h3]
  have h4 : l.rows = l.records.map (·.2) := by
    have := hl.ofRecords_records
    conv => lhs; rw [← this]
    rfl
  rw [h4, List.flatMap_map]
  exact flatMap_perm hall _ _ fun x _ => List.Perm.refl _

theorem merge_ofRecords_rows [DecidableEq κ] [DecidableEq α] (o : MergeOn κ) (nan : α) (how : How) (lc rc : List κ)
    (L : List (ι × List α)) (R : List (ι' × List α)) :
    (Frame.merge o nan how (Frame.ofRecords lc L) (Frame.ofRecords rc R)).rows = o.rows nan how lc rc (L.map (·.2)) (R.map (·.2)) := rfl

theorem mapM_zip_map {τ σ ρ υ : Type} (f : σ → ρ → Option υ) (g : τ → σ) (h : τ → ρ) (k : τ → υ) (l : List τ)
    (hf : ∀ x ∈ l, f (g x) (h x) = some (k x)) :
    ((l.map g).zip (l.map h)).mapM (fun p => f p.1 p.2) = some (l.map k) := by
  rw [List.zip_map']
  exact mapM_map_some _ _ _ _ hf

/-- **Merging range by range.** -/
theorem rangeMerge_spec [DecidableEq ι] [DecidableEq ι'] [DecidableEq κ] [DecidableEq α] (cfg : Cfg) (hp : 1 ≤ cfg.nPartitions)
    (hmc : 1 ≤ cfg.minCol) (o : MergeOn κ) (k : κ) (ho : o.leftOn = [k] ∧ o.rightOn = [k])
    (h1 : o.leftSuffix.isSome) (h2 : o.rightSuffix.isSome) (nan : α) {how : How} (hh : how ≠ .right)
    {le : Q → Q → Bool} (hle : TotalLe le) (col : KeyCol α Q) {draw : Nat → List (Option Q)}
    (hdraw : ∀ n, 2 ≤ n → draw n ≠ [] ∧ Increasing le (draw n))
    {left : MFrame ι κ α} {right : MFrame ι' κ α} {l : Frame ι κ α} {r : Frame ι' κ α} (hl : left.Represents l)
    (hr : right.Represents r) (hkl : k ∈ l.columns) (hkr : k ∈ r.columns) :
    ∃ m' f, rangeMerge cfg o nan how le col draw k left right = some m' ∧ m'.Represents f ∧
      f.columns = o.columns l.columns r.columns ∧ f.index = List.range f.rows.length ∧
      f.rows.Perm (o.rows nan how l.columns r.columns l.rows r.rows) := by
  have ha : o.Aligned := by
    intro c hc _
    rw [ho.1] at hc
    simp only [List.mem_singleton] at hc
    subst hc
    simp [MergeOn.shared, ho.1, ho.2]
  have hcols := mergeColumns_eq o ha h1 h2 hl hr
  have hnr : r.columns ≠ [] := List.ne_nil_of_mem hkr
  obtain ⟨rl, cw, hc, hparts, hrl, hcw⟩ := hl.blocks
  obtain ⟨rl', cw', hc', hparts', hrl', hcw'⟩ := hr.blocks
  unfold rangeMerge
  rw [hl.getColumns, hr.getColumns]
  rw [if_neg (by simp [hh, hkl, hkr])]
  have hfin : ∀ (g : MFrame Nat κ α) (f : Frame Nat κ α), g.Represents f → f.columns = o.columns l.columns r.columns →
      f.rows.Perm (o.rows nan how l.columns r.columns l.rows r.rows) →
      ∃ m' f', resetIndexDropLazy cfg g = some m' ∧ m'.Represents f' ∧ f'.columns = o.columns l.columns r.columns ∧
        f'.index = List.range f'.rows.length ∧ f'.rows.Perm (o.rows nan how l.columns r.columns l.rows r.rows) := by
    intro g f hg hgc hgr
    obtain ⟨m', e1, e2, _⟩ := resetIndexDropLazy_spec cfg hmc hg
    exact ⟨m', _, e1, e2, hgc, by simp [hg.wf.rows_len], hgr⟩
  split
  · rw [combined_spec hr hnr, Option.bind_some]
    obtain ⟨m', e1, e2, e3⟩ := applyFullRows_spec cfg hmc (fun _ b => Frame.merge o nan how b r) hl.wf hc hparts hcw
      (fun _ b => some (Frame.merge o nan how b r)) (o.columns l.columns r.columns)
      (by
        intro i b hb
        have := bandsOf_wf hl.wf rl b (List.mem_of_getElem? hb)
        refine ⟨rfl, merge_wf o nan how this.1 hr.wf, ?_⟩
        simp [Frame.merge, Frame.numbered, this.2])
      true none (by
        have := List.length_pos_iff.2 hc.cw_ne
        simp only [axisNumSplits]
        split <;> omega) (by simp) _ hcols
    rw [e1, Option.bind_some]
    have hsame := merge_stack_left o nan how hh hl.wf hc r
    exact hfin m' _ e2 hsame.1 (by rw [hsame.2]; exact List.Perm.refl _)
  · rename_i hn1
    have hlen : left.parts.length = rl.length := by rw [hparts]; simp [Frame.cut, sliceBounds_length]
    have h2n : 2 ≤ left.parts.length := by
      have := List.length_pos_iff.2 hc.rl_ne
      omega
    obtain ⟨hne, hinc⟩ := hdraw _ h2n
    have hpick : pickPivots draw left.parts.length = draw left.parts.length := by
      unfold pickPivots
      rw [if_neg (by omega)]
    simp only [hpick]
    generalize hpv : draw left.parts.length = pv at hne hinc ⊢
    have hb : ∀ p, numBins [({ col with pos := p, pivots := pv } : KeyCol α Q)] = pv.length + 1 := by
      intro p; simp [numBins]
    have hpos : 0 < pv.length := List.length_pos_iff.2 hne
    unfold shuffleBroadcast
    rw [if_pos (by rw [hb]; omega), hparts, hparts']
    rw [gatherRanges_cut hle _ (by intro c hcm; simp only [List.mem_singleton] at hcm; subst hcm; exact hinc)
      (by rw [hb]; omega) hl.wf hc (Or.inl (by simp only [activeCols, List.filter_cons, List.filter_nil]; split <;> simp)), Option.bind_some]
    rw [gatherRanges_cut hle _ (by intro c hcm; simp only [List.mem_singleton] at hcm; subst hcm; exact hinc)
      (by rw [hb]; omega) hr.wf hc' (Or.inl (by simp only [activeCols, List.filter_cons, List.filter_nil]; split <;> simp)), Option.bind_some]
    rw [hb, hb]
    generalize hL : (fun i => Frame.ofRecords l.columns (binRows le true true false
      [({ col with pos := l.columns.idxOf k, pivots := pv } : KeyCol α Q)] rl l i)) = GL
    generalize hR : (fun i => Frame.ofRecords r.columns (binRows le true true false
      [({ col with pos := r.columns.idxOf k, pivots := pv } : KeyCol α Q)] rl' r i)) = GR
    rw [mapM_zip_map (fun a b => (some (Frame.merge o nan how a b)).map fun x => [x]) GL GR
      (fun i => [Frame.merge o nan how (GL i) (GR i)]) _ (fun _ _ => rfl), Option.bind_some]
    have hGL : ∀ i, (GL i).WF ∧ (GL i).columns = l.columns := by
      intro i; subst hL
      refine ⟨Frame.WF.ofRecords ?_, rfl⟩
      intro x hx
      have := (binRows_perm true true false _ hl.wf hc i).mem_iff.1 hx
      exact hl.wf.records_width (List.mem_filter.1 this).1
    have hGR : ∀ i, (GR i).WF ∧ (GR i).columns = r.columns := by
      intro i; subst hR
      refine ⟨Frame.WF.ofRecords ?_, rfl⟩
      intro x hx
      have := (binRows_perm true true false _ hr.wf hc' i).mem_iff.1 hx
      exact hr.wf.records_width (List.mem_filter.1 this).1
    have hwfm : ∀ f ∈ (List.range (pv.length + 1)).map (fun i => Frame.merge o nan how (GL i) (GR i)),
        f.WF ∧ f.columns = o.columns l.columns r.columns := by
      intro f hf
      simp only [List.mem_map] at hf
      obtain ⟨i, _, rfl⟩ := hf
      refine ⟨merge_wf o nan how (hGL i).1 (hGR i).1, ?_⟩
      simp [Frame.merge, Frame.numbered, (hGL i).2, (hGR i).2]
    have hcutm := column_cut (o.columns l.columns r.columns) _ (fun f hf => (hwfm f hf).2) (fun f hf => (hwfm f hf).1)
    rw [List.map_map] at hcutm
    obtain ⟨m2, e1, e2⟩ := represents_mk' (m := MFrame.mk ((List.range (pv.length + 1)).map fun i => [Frame.merge o nan how (GL i) (GR i)])
      none (mergeColumns o left right) none none) (df := Frame.stackRows (o.columns l.columns r.columns)
        ((List.range (pv.length + 1)).map (fun i => Frame.merge o nan how (GL i) (GR i))))
      ⟨stackRows_wf _ _ hwfm, ⟨_, _, stackRows_isCut _ (by simp) (by simp) (by simp), hcutm, Or.inl rfl, Or.inl rfl⟩, Or.inl rfl, hcols⟩
    rw [e1, Option.bind_some]
    refine hfin m2 _ e2 rfl ?_
    have hperm := merge_ranges_perm hle o nan hh k ho ({ col with pivots := pv } : KeyCol α Q) hinc hl.wf hr.wf hc hc'
    rw [hb] at hperm
    refine List.Perm.trans (List.Perm.of_eq ?_) hperm
    subst hL hR
    simp only [Frame.stackRows, List.map_map, Function.comp_def, merge_ofRecords_rows]

/-! ### sorting -/

theorem insertBy_map {τ σ : Type} (le : τ → τ → Bool) (le' : σ → σ → Bool) (f : τ → σ) (h : ∀ x y, le x y = le' (f x) (f y))
    (x : τ) (l : List τ) : (insertBy le x l).map f = insertBy le' (f x) (l.map f) := by
  induction l with
  | nil => rfl
  | cons y ys ih =>
    simp only [insertBy, List.map_cons, ← h]
    split <;> simp [ih]

theorem sortBy_map {τ σ : Type} (le : τ → τ → Bool) (le' : σ → σ → Bool) (f : τ → σ) (h : ∀ x y, le x y = le' (f x) (f y))
    (l : List τ) : (sortBy le l).map f = sortBy le' (l.map f) := by
  induction l with
  | nil => rfl
  | cons x xs ih => simp only [sortBy, List.map_cons, insertBy_map le le' f h, ih]

theorem rowBefore_label (le : Q → Q → Bool) (key : α → Option Q) (naLast : Bool) (by_ : List (Nat × Bool)) (r s : ι × List α) :
    rowBefore le key naLast by_ r s = rowBefore le key naLast by_ ((), r.2) ((), s.2) := by
  induction by_ with
  | nil => rfl
  | cons p rest ih =>
    obtain ⟨pos, asc⟩ := p
    simp only [rowBefore, sortKey, ih]
    rfl

theorem sortValues_rows (le : Q → Q → Bool) (key : α → Option Q) (naLast : Bool) (by_ : List (Nat × Bool)) {f : Frame ι κ α} (hf : f.WF) :
    (f.sortValues le key naLast by_).rows =
      sortBy (fun r s => rowBefore le key naLast by_ ((), r) ((), s)) f.rows := by
  have h2 : f.rows = f.records.map (·.2) := by
    have := hf.ofRecords_records
    conv => lhs; rw [← this]
    rfl
  rw [h2, ← sortBy_map (rowBefore le key naLast by_) (fun r s => rowBefore le key naLast by_ ((), r) ((), s)) (·.2)
    (fun x y => rowBefore_label le key naLast by_ x y)]
  rfl

theorem sortValues_sameData (le : Q → Q → Bool) (key : α → Option Q) (naLast : Bool) (by_ : List (Nat × Bool)) {f g : Frame ι κ α}
    (hf : f.WF) (hg : g.WF) (h : f.SameData g) : (f.sortValues le key naLast by_).SameData (g.sortValues le key naLast by_) := by
  refine ⟨h.1, ?_⟩
  rw [sortValues_rows le key naLast by_ hf, sortValues_rows le key naLast by_ hg, h.2]
