import Verif.Model.GroupApply
import Verif.Lemmas.KeyParts
import Verif.Lemmas.RangePart
import Verif.Lemmas.Readers
/-
Lemmas about joined columns, and about what `groupby(...).apply` does with the ranges.
-/

variable {ι κ α β Q K ι' κ' τ : Type}

/-! ### joined columns -/

theorem mem_firsts' [DecidableEq K] (l : List K) (x : K) : x ∈ firsts l ↔ x ∈ l := by
  induction l with
  | nil => simp [firsts]
  | cons y ys ih =>
    simp only [firsts, List.mem_cons, List.mem_filter, ih]
    by_cases h : x = y <;> simp [h]

theorem firsts_nodup' [DecidableEq K] (l : List K) : (firsts l).Nodup := by
  induction l with
  | nil => simp [firsts]
  | cons y ys ih =>
    rw [firsts, List.nodup_cons]
    exact ⟨by simp, ih.filter _⟩

theorem concatColumns_nodup [DecidableEq κ] {css : List (List κ)} (hne : css ≠ []) (h : ∀ c ∈ css, c.Nodup) :
    concatColumns css = some (firsts css.flatten) := by
  cases css with
  | nil => exact absurd rfl hne
  | cons c rest =>
    simp only [concatColumns]
    by_cases hall : rest.all (· = c) = true
    · rw [if_pos hall]
      congr 1
      rw [List.flatten_cons, firsts_append, firsts_of_nodup (h c (by simp))]
      rw [List.filter_eq_nil_iff.2, List.append_nil]
      intro x hx
      rw [mem_firsts', List.mem_flatten] at hx
      obtain ⟨d, hd, hxd⟩ := hx
      have := of_decide_eq_true (List.all_eq_true.1 hall d hd)
      subst this
      simpa using hxd
    · rw [if_neg hall, if_pos]
      rw [List.all_eq_true]
      intro c hc
      exact decide_eq_true (h c hc)

/-- the cell of a column in a row -/
def lookupCell [DecidableEq κ] (nan : α) (cols : List κ) (r : List α) (y : κ) : α :=
  (((cols.zip r).find? (·.1 == y)).map (·.2)).getD nan

/-- the frame with other columns -/
def Frame.widen [DecidableEq κ] (nan : α) (V : List κ) (f : Frame ι κ α) : Frame ι κ α :=
  { index := f.index, columns := V, rows := f.rows.map fun r => V.map (lookupCell nan f.columns r) }

theorem lookupCell_self [DecidableEq κ] (nan : α) : ∀ (cols : List κ) (r : List α), cols.Nodup → r.length = cols.length →
    cols.map (lookupCell nan cols r) = r := by
  intro cols
  induction cols with
  | nil => intro r _ hl; rw [List.eq_nil_of_length_eq_zero hl]; rfl
  | cons c cs ih =>
    intro r hn hl
    cases r with
    | nil => simp at hl
    | cons a r =>
      rw [List.nodup_cons] at hn
      rw [List.map_cons]
      congr 1
      · simp [lookupCell]
      · rw [← ih r hn.2 (by simpa using hl)]
        rw [ih r hn.2 (by simpa using hl)]
        conv => rhs; rw [← ih r hn.2 (by simpa using hl)]
        apply List.map_congr_left
        intro y hy
        have : c ≠ y := fun h => hn.1 (h ▸ hy)
        simp [lookupCell, this]

theorem lookupCell_map [DecidableEq κ] (nan : α) (g : κ → α) (U : List κ) (y : κ) :
    lookupCell nan U (U.map g) y = if y ∈ U then g y else nan := by
  induction U with
  | nil => simp [lookupCell]
  | cons u U ih =>
    by_cases h : u = y
    · subst h; simp [lookupCell]
    · have h' : ¬ y = u := fun e => h e.symm
      unfold lookupCell at ih ⊢
      simp only [List.map_cons, List.zip_cons_cons, List.find?_cons, List.mem_cons, h', false_or]
      rw [show (u == y) = false by simpa using h]
      exact ih

theorem lookupCell_absent [DecidableEq κ] (nan : α) (cols : List κ) (r : List α) (y : κ) (h : y ∉ cols) : lookupCell nan cols r y = nan := by
  unfold lookupCell
  rw [List.find?_eq_none.2]
  · rfl
  · intro x hx
    have := (List.of_mem_zip hx).1
    simp only [beq_iff_eq]
    intro e
    exact h (e ▸ this)

theorem reindexColumns_widen [DecidableEq κ] (nan : α) (V : List κ) {f : Frame ι κ α} (hf : f.WF) (hn : f.columns.Nodup) :
    f.reindexColumns nan V = some (f.widen nan V) := by
  unfold Frame.reindexColumns
  by_cases h : f.columns = V
  · rw [if_pos h]
    subst h
    congr 1
    unfold Frame.widen
    cases f with
    | mk i c rows =>
      simp only [Frame.mk.injEq, true_and]
      conv => lhs; rw [← List.map_id rows]
      apply List.map_congr_left
      intro r hr
      exact (lookupCell_self nan c r hn (hf.row_width r hr)).symm
  · rw [if_neg h, if_pos hn]
    rfl

theorem widen_wf [DecidableEq κ] (nan : α) (V : List κ) {f : Frame ι κ α} (hf : f.WF) : (f.widen nan V).WF := by
  refine ⟨by simp [Frame.widen, hf.rows_len], ?_⟩
  intro r hr
  simp only [Frame.widen, List.mem_map] at hr
  obtain ⟨_, _, rfl⟩ := hr
  simp [Frame.widen]

theorem widen_widen [DecidableEq κ] (nan : α) (U V : List κ) {f : Frame ι κ α} (h : ∀ c ∈ f.columns, c ∈ U) :
    (f.widen nan U).widen nan V = f.widen nan V := by
  unfold Frame.widen
  simp only [List.map_map, Frame.mk.injEq, true_and]
  apply List.map_congr_left
  intro r _
  apply List.map_congr_left
  intro y _
  rw [lookupCell_map]
  split
  · rfl
  · rename_i hy
    exact (lookupCell_absent nan _ _ _ fun e => hy (h y e)).symm

/-- several frames one under another with the given columns -/
def pileUp [DecidableEq κ] (nan : α) (V : List κ) (fs : List (Frame ι κ α)) : Frame ι κ α :=
  { index := (fs.map (·.index)).flatten, columns := V, rows := (fs.map fun f => (f.widen nan V).rows).flatten }

theorem pileUp_wf [DecidableEq κ] (nan : α) (V : List κ) {fs : List (Frame ι κ α)} (h : ∀ f ∈ fs, f.WF) : (pileUp nan V fs).WF := by
  refine ⟨?_, ?_⟩
  · simp only [pileUp, List.length_flatten, List.map_map]
    congr 1
    apply List.map_congr_left
    intro f hf
    simp [Frame.widen, (h f hf).rows_len]
  · intro r hr
    simp only [pileUp, List.mem_flatten, List.mem_map] at hr
    obtain ⟨_, ⟨f, hf, rfl⟩, hr⟩ := hr
    simp only [Frame.widen, List.mem_map] at hr
    obtain ⟨_, _, rfl⟩ := hr
    simp [pileUp]

theorem concatUnder_pileUp [DecidableEq κ] (nan : α) {fs : List (Frame ι κ α)} (hne : fs ≠ []) (h : ∀ f ∈ fs, f.WF ∧ f.columns.Nodup) :
    concatUnder nan fs = some (pileUp nan (firsts (fs.map (·.columns)).flatten) fs) := by
  unfold concatUnder
  rw [concatColumns_nodup (by simpa using hne) (by
    intro c hc
    obtain ⟨f, hf, rfl⟩ := List.mem_map.1 hc
    exact (h f hf).2), Option.bind_some]
  rw [mapM_some_congr (g := Frame.widen nan (firsts (fs.map (·.columns)).flatten)) fun f hf => reindexColumns_widen nan _ (h f hf).1 (h f hf).2]
  simp only [Option.map_some, pileUp, List.map_map]
  rfl

theorem widen_pileUp [DecidableEq κ] (nan : α) (U V : List κ) (fs : List (Frame ι κ α)) (h : ∀ f ∈ fs, ∀ c ∈ f.columns, c ∈ U) :
    (pileUp nan U fs).widen nan V = pileUp nan V fs := by
  have : ∀ f ∈ fs, (f.widen nan U).rows.map (fun r => V.map (lookupCell nan U r)) = (f.widen nan V).rows := by
    intro f hf
    have := widen_widen nan U V (h f hf)
    exact congrArg Frame.rows this
  unfold pileUp
  simp only [Frame.widen, Frame.mk.injEq, true_and, List.map_flatten, List.map_map]
  congr 1
  apply List.map_congr_left
  intro f hf
  exact this f hf

/-! ### one range -/

/-- what `applyBlock` gives for results without repeated columns -/
def blockResult [DecidableEq K] [DecidableEq κ] (G : Grouping K) (key : τ → K) (nan : β) (f : K → List τ → Frame ι' κ β) (cols0 : List κ)
    (rows : List τ) : Frame (K × ι') κ β :=
  let fs := (groupRecords G key f rows).map fun r => r.2.keyed r.1
  if fs.isEmpty then { index := [], columns := cols0, rows := [] } else pileUp nan (firsts (fs.map (·.columns)).flatten) fs

theorem keyed_good {f : Frame ι κ α} (k : K) (h : f.WF ∧ f.columns.Nodup) : (f.keyed k).WF ∧ (f.keyed k).columns.Nodup := by
  refine ⟨⟨?_, h.1.row_width⟩, h.2⟩
  simp [Frame.keyed, h.1.rows_len]

theorem groupResults_good [DecidableEq K] (G : Grouping K) (key : τ → K) {f : K → List τ → Frame ι' κ β}
    (hf : ∀ k l, (f k l).WF ∧ (f k l).columns.Nodup) (rows : List τ) :
    ∀ g ∈ (groupRecords G key f rows).map (fun r => r.2.keyed r.1), g.WF ∧ g.columns.Nodup := by
  intro g hg
  simp only [groupRecords, List.map_map, List.mem_map, Function.comp] at hg
  obtain ⟨k, _, rfl⟩ := hg
  exact keyed_good k (hf _ _)

theorem groupApply_block [DecidableEq K] [DecidableEq κ] (G : Grouping K) (key : τ → K) (nan : β) {f : K → List τ → Frame ι' κ β}
    (hf : ∀ k l, (f k l).WF ∧ (f k l).columns.Nodup) (cols0 : List κ) (rows : List τ) :
    groupApply G key nan f cols0 rows = some (blockResult G key nan f cols0 rows) := by
  unfold groupApply blockResult
  simp only [List.isEmpty_map]
  by_cases h : (groupRecords G key f rows).isEmpty = true
  · rw [if_pos h, if_pos h]
  · rw [if_neg h, if_neg h]
    exact concatUnder_pileUp nan (by simpa using h) (groupResults_good G key hf rows)

theorem blockResult_wf [DecidableEq K] [DecidableEq κ] (G : Grouping K) (key : τ → K) (nan : β) {f : K → List τ → Frame ι' κ β}
    (hf : ∀ k l, (f k l).WF ∧ (f k l).columns.Nodup) (cols0 : List κ) (rows : List τ) : (blockResult G key nan f cols0 rows).WF := by
  unfold blockResult
  by_cases h : ((groupRecords G key f rows).map fun r => r.2.keyed r.1).isEmpty = true
  · simp only [h, ↓reduceIte]
    exact ⟨rfl, by simp⟩
  · simp only [h, Bool.false_eq_true, ↓reduceIte]
    exact pileUp_wf nan _ fun g hg => (groupResults_good G key hf rows g hg).1

theorem tag_wf (b : Bool) {f : Frame ι κ α} (h : f.WF) : (f.tag b).WF := by
  refine ⟨h.rows_len, ?_⟩
  intro r hr
  simp [Frame.tag, h.row_width r hr]

theorem untag_tag (b : Bool) (f : Frame ι κ α) : (f.tag b).untag = f := by
  cases f
  simp [Frame.tag, Frame.untag, Function.comp_def]

theorem skipped_tag (b : Bool) (f : Frame ι κ α) : (f.tag b).skipped = (b && !f.columns.isEmpty) := by
  unfold Frame.skipped Frame.tag
  cases f.columns with
  | nil => simp
  | cons c cs => cases b <;> simp [List.any_eq_false]

theorem untag_wf {f : Frame ι (κ × Bool) α} (h : f.WF) : f.untag.WF := by
  refine ⟨h.rows_len, ?_⟩
  intro r hr
  simp [Frame.untag, h.row_width r hr]

theorem untag_cut (f : Frame ι (κ × Bool) α) (rl cw : List Nat) :
    (f.cut rl cw).map (fun row => row.map Frame.untag) = f.untag.cut rl cw := by
  unfold Frame.cut
  simp only [List.map_map]
  apply List.map_congr_left
  intro p _
  simp only [Function.comp, List.map_map]
  apply List.map_congr_left
  intro q _
  simp [Frame.untag, Frame.ilocRows, Frame.ilocCols, pySlice, List.map_take, List.map_drop]

/-! ### what the ranges' results look like before they are aligned -/

/-- **Range partitioning, blocks.** The blocks of the result are the function's results on the ranges, or the function's result on the whole
    frame in one block row or one block column. -/
theorem applyRange_blocks [DecidableEq ι] [DecidableEq κ] [DecidableEq ι'] [DecidableEq κ'] (cfg : Cfg) (hp : 2 ≤ cfg.nPartitions)
    (hmr : 1 ≤ cfg.minRow) (hmc : 1 ≤ cfg.minCol) (over : Bool) (rq : RangeReq α Q) (hle : TotalLe rq.le) (hd : GoodDraws rq)
    {m : MFrame ι κ α} {df : Frame ι κ α} (hm : m.Represents df) :
    ∃ bins, IsBins rq df bins ∧ ∀ F : Frame ι κ α → Frame ι' κ' β, (∀ b, b.WF → (F b).WF) →
      (1 < rq.cols.length ∧ applyRangePartitioning cfg over rq (fun b => some (F b)) none m = none) ∨
      ∃ parts, applyRangePartitioning cfg over rq (fun b => some (F b)) none m =
          some { parts := parts, index := none, columns := none, rowLens := none, colWidths := none } ∧
        ((2 ≤ bins.length ∧ parts = bins.map fun b => [F b]) ∨
          (bins = [df] ∧ ∃ rl cw, (F df).IsCut rl cw ∧ parts = (F df).cut rl cw ∧ (rl.length = 1 ∨ cw = [(F df).ncols]))) := by
  have hwf := hm.wf
  obtain ⟨rl, cw, hcut, hparts, hrl, hcw⟩ := hm.blocks
  have hlen : m.parts.length = rl.length := by rw [hparts]; simp [Frame.cut, sliceBounds_length]
  unfold applyRangePartitioning
  by_cases h1 : m.parts.length = 1
  · refine ⟨[df], Or.inl rfl, ?_⟩
    intro F hF
    right
    simp only [h1, ↓reduceIte]
    obtain ⟨n, rfl⟩ : ∃ n, rl = [n] := List.length_eq_one_iff.1 (by rw [← hlen, h1])
    obtain ⟨lens, g1, _, g3⟩ := mapAxis_single_row cfg hmc F hwf (hF df hwf) hcut
    rw [hparts, g3, Option.bind_some]
    refine ⟨_, ?_, Or.inr ⟨by trivial, _, _, g1, rfl, Or.inl rfl⟩⟩
    simp [MFrame.mk', validAxis, filterEmpties]
  · simp only [h1, ↓reduceIte]
    have hlen2 : 2 ≤ m.parts.length := by
      have := List.length_pos_iff.2 hcut.rl_ne
      omega
    generalize hideal : idealPartitions cfg over m.parts.length m.getIndex.length = ideal
    by_cases h2 : (over && (decide (m.getIndex.length < cfg.minRow) || decide (ideal < 2))) = true
    · simp only [h2, ↓reduceIte]
      refine ⟨[df], Or.inl rfl, ?_⟩
      intro F hF
      right
      obtain ⟨lens, c1, c2⟩ := combineAndApply_cut cfg hmr F hm (hF df hwf)
      exact ⟨_, c2, Or.inr ⟨by trivial, _, _, c1, rfl, Or.inr rfl⟩⟩
    · simp only [h2, Bool.false_eq_true, ↓reduceIte]
      have hi2 : 2 ≤ ideal := by
        cases over with
        | true =>
          simp only [Bool.true_and, Bool.or_eq_true, decide_eq_true_eq, not_or] at h2
          omega
        | false =>
          simp only [idealPartitions, Bool.false_eq_true, ↓reduceIte] at hideal
          omega
      obtain ⟨rl', hcut', hjoin⟩ : ∃ rl', df.IsCut rl' cw ∧
          (if over = true then joinRows m.parts ideal else some m.parts) = some (df.cut rl' cw) := by
        cases over with
        | true =>
          simp only [↓reduceIte]
          rw [hparts]
          exact joinRows_cut hcut ideal (by omega)
        | false => exact ⟨rl, hcut, by simp [hparts]⟩
      simp only [hjoin, Option.bind_some]
      generalize hcols : pivotFn ideal rq.cols 1 true = cols
      have hbins : numBins cols > 1 := by rw [← hcols]; exact pivotFn_bins hd hi2
      have hinc : ∀ x ∈ cols, Increasing rq.le x.pivots := by
        rw [← hcols]
        exact pivotFn_increasing ideal rq.cols (fun x hx n hn => (hd.2 x hx n hn).2) 1 true
      refine ⟨_, Or.inr ⟨ideal, rl', cw, hi2, hcut', rfl⟩, ?_⟩
      intro F hF
      by_cases hs : SplitSafe cols rl' df
      · right
        rw [shuffle_cut hle _ _ _ cols hinc hbins hwf hcut' hs, hcols]
        have hbl : 2 ≤ ((List.range (numBins cols)).map fun i =>
            Frame.ofRecords df.columns (binRows rq.le rq.asc rq.naLast rq.closedRight cols rl' df i)).length := by
          simp; omega
        generalize ((List.range (numBins cols)).map fun i =>
            Frame.ofRecords df.columns (binRows rq.le rq.asc rq.naLast rq.closedRight cols rl' df i)) = bins at hbl ⊢
        have hmap : bins.mapM (fun b => (some (F b)).map fun r => [r]) = some (bins.map fun b => [F b]) := by
          apply mapM_some'
        rw [hmap, Option.bind_some]
        exact ⟨_, by simp [MFrame.mk', validAxis, filterEmpties], Or.inl ⟨hbl, rfl⟩⟩
      · left
        rw [shuffle_unsafe _ _ _ cols hbins hwf hcut' hs]
        refine ⟨?_, rfl⟩
        unfold SplitSafe at hs
        rw [not_or] at hs
        have h3 : (activeCols cols).length ≤ cols.length := List.length_filter_le _ _
        have h4 : cols.length ≤ rq.cols.length := by rw [← hcols]; exact pivotFn_length _ _ _ _
        omega
