import Verif.Lemmas.GroupApply
import Verif.Props.Shuffle
/-
**C87**: `groupby(...).apply` with range partitioning gives the frame pandas gives, also if the results of the groups have different columns.
-/

variable {ι κ α β Q K ι' : Type}

theorem concatColumns_same [DecidableEq κ] {css : List (List κ)} {c : List κ} (hne : css ≠ []) (h : ∀ d ∈ css, d = c) :
    concatColumns css = some c := by
  cases css with
  | nil => exact absurd rfl hne
  | cons d rest =>
    have hd := h d (by simp)
    subst hd
    simp only [concatColumns]
    rw [if_pos]
    rw [List.all_eq_true]
    intro x hx
    exact decide_eq_true (h x (List.mem_cons_of_mem _ hx))

/-- blocks with the same columns stay as they are -/
theorem align_same [DecidableEq κ] (cluster : Bool) (nan : β) {blocks : List (Frame ι (κ × Bool) β)} {c : List κ}
    (hne : blocks ≠ []) (h : ∀ b ∈ blocks, b.untag.columns = c) :
    (if cluster = true then blocks.mapM (joinCols nan blocks)
      else (alignedColumns blocks).bind fun cols => blocks.mapM fun b => b.untag.reindexColumns nan cols) = some (blocks.map Frame.untag) := by
  have hre : ∀ b ∈ blocks, b.untag.reindexColumns nan c = some b.untag := by
    intro b hb
    unfold Frame.reindexColumns
    rw [if_pos (h b hb)]
  have hval : ∀ v : List (Frame ι (κ × Bool) β), v ≠ [] → (∀ b ∈ v, b ∈ blocks) →
      concatColumns (v.map fun b => b.untag.columns) = some c := by
    intro v hv hm
    apply concatColumns_same (by simpa using hv)
    intro d hd
    obtain ⟨b, hb, rfl⟩ := List.mem_map.1 hd
    exact h b (hm b hb)
  cases cluster with
  | true =>
    simp only [↓reduceIte]
    apply mapM_some_congr
    intro b hb
    unfold joinCols
    by_cases hv : (blocks.filter fun b => !b.skipped).isEmpty = true
    · simp only [hv, ↓reduceIte]
    · simp only [hv, Bool.false_eq_true, ↓reduceIte]
      rw [hval _ (by simpa using hv) (fun b hb => (List.mem_filter.1 hb).1), Option.bind_some]
      exact hre b hb
  | false =>
    simp only [Bool.false_eq_true, ↓reduceIte]
    have : alignedColumns blocks = some c := by
      unfold alignedColumns
      by_cases hv : (blocks.filter fun b => !b.skipped).isEmpty = true
      · simp only [hv, ↓reduceIte]
        exact hval _ hne fun b hb => hb
      · simp only [hv, Bool.false_eq_true, ↓reduceIte]
        exact hval _ (by simpa using hv) fun b hb => (List.mem_filter.1 hb).1
    rw [this, Option.bind_some]
    exact mapM_some_congr hre

/-- The blocks that are not flagged decide on the columns. -/
theorem align_valid [DecidableEq κ] (cluster : Bool) (nan : β) {blocks : List (Frame ι (κ × Bool) β)} {V : List κ}
    (hv : (blocks.filter fun b => !b.skipped) ≠ [])
    (hV : concatColumns ((blocks.filter fun b => !b.skipped).map fun b => b.untag.columns) = some V)
    (h : ∀ b ∈ blocks, b.untag.WF ∧ b.untag.columns.Nodup) :
    (if cluster = true then blocks.mapM (joinCols nan blocks)
      else (alignedColumns blocks).bind fun cols => blocks.mapM fun b => b.untag.reindexColumns nan cols) =
      some (blocks.map fun b => b.untag.widen nan V) := by
  have hv' : (blocks.filter fun b => !b.skipped).isEmpty = false := by simpa using hv
  cases cluster with
  | true =>
    simp only [↓reduceIte]
    apply mapM_some_congr
    intro b hb
    unfold joinCols
    simp only [hv', Bool.false_eq_true, ↓reduceIte]
    rw [hV, Option.bind_some]
    exact reindexColumns_widen nan V (h b hb).1 (h b hb).2
  | false =>
    simp only [Bool.false_eq_true, ↓reduceIte, alignedColumns, hv']
    rw [hV, Option.bind_some]
    exact mapM_some_congr fun b hb => reindexColumns_widen nan V (h b hb).1 (h b hb).2

/-- the results of groups, as `pandas.concat` is to join them -/
def keyedResults (results : List (K × Frame ι' κ β)) : List (Frame (K × ι') κ β) := results.map fun r => r.2.keyed r.1

set_option maxHeartbeats 1000000 in
theorem groupApplyRange_core [DecidableEq ι] [DecidableEq κ] [DecidableEq ι'] [DecidableEq K] (cfg : Cfg) (hp : 2 ≤ cfg.nPartitions)
    (hmr : 1 ≤ cfg.minRow) (hmc : 1 ≤ cfg.minCol) (over cluster : Bool) {le : Q → Q → Bool} (hle : TotalLe le)
    {cols : List (KeyCol α Q × (Nat → List (Option Q)))} (hd : GoodDraws (rangeReq le cols))
    {m : MFrame ι κ α} {df : Frame ι κ α} (hm : m.Represents df) (G : Grouping K) (key : ι × List α → K) (nan : β)
    (f : K → List (ι × List α) → Frame ι' κ β) (hf : ∀ k l, (f k l).WF ∧ (f k l).columns.Nodup)
    (hcols : df.columns.Nodup) (hcne : df.columns ≠ []) (hrne : df.records ≠ [])
    (hkey : ∀ r s, r ∈ df.records → s ∈ df.records → key r = key s → SameRange (cols.map (·.1)) r s)
    (hgrp : ∀ bins : List (Frame ι κ α), IsBins (rangeReq le cols) df bins → ∀ b ∈ bins, b.records ≠ [] →
      groupRecords G key f b.records ≠ []) :
    ∃ bins : List (Frame ι κ α), IsBins (rangeReq le cols) df bins ∧ KeyParts key df bins ∧
      ((1 < cols.length ∧ groupApplyRange cfg over cluster le cols G key nan f m = none) ∨
      ∃ m' R, groupApplyRange cfg over cluster le cols G key nan f m = some m' ∧
        concatUnder nan (keyedResults (bins.map fun b => groupRecords G key f b.records).flatten) = some R ∧ m'.Represents R) := by
  obtain ⟨bins, hb, hF⟩ := applyRange_blocks (β := β) (ι' := K × ι') (κ' := κ × Bool) cfg hp hmr hmc over (rangeReq le cols) hle hd hm
  have hk := isBins_keyParts hle hd hm.wf hb key hkey
  refine ⟨bins, hb, hk, ?_⟩
  obtain ⟨flag, hflag⟩ : ∃ flag : Frame ι κ α → Bool, ∀ b, flag b =
      ((b.nrows == 0 || b.ncols == 0) && ((blockResult G key nan f b.columns b.records).nrows == 0 ||
        (blockResult G key nan f b.columns b.records).ncols == 0)) := ⟨fun b => _, fun b => rfl⟩
  have hfun : applyBlock G key nan f = fun b => some ((blockResult G key nan f b.columns b.records).tag (flag b)) := by
    funext b
    unfold applyBlock
    rw [groupApply_block G key nan hf, Option.map_some, hflag]
  unfold groupApplyRange
  rw [hfun]
  rcases hF (fun b => (blockResult G key nan f b.columns b.records).tag (flag b)) (fun b _ => tag_wf _ (blockResult_wf G key nan hf _ _)) with
    ⟨h1, h2⟩ | ⟨parts, h1, h2⟩
  · left
    exact ⟨h1, by rw [h2]; rfl⟩
  right
  rw [h1, Option.bind_some]
  have hall : ∀ g ∈ keyedResults (bins.map fun b => groupRecords G key f b.records).flatten, g.WF ∧ g.columns.Nodup := by
    intro g hg
    simp only [keyedResults, List.mem_map, List.mem_flatten] at hg
    obtain ⟨r, ⟨_, ⟨b, _, rfl⟩, hr⟩, rfl⟩ := hg
    exact groupResults_good G key hf b.records _ (List.mem_map.2 ⟨r, hr, rfl⟩)
  have hsome : ∃ b ∈ bins, b.records ≠ [] := by
    apply Classical.byContradiction
    intro hn
    apply hrne
    have : (bins.map Frame.records).flatten = [] := by
      rw [List.flatten_eq_nil_iff]
      intro l hl
      obtain ⟨b, hbm, rfl⟩ := List.mem_map.1 hl
      exact Classical.byContradiction fun h => hn ⟨b, hbm, h⟩
    have := hk.rows.symm
    rw [‹(bins.map Frame.records).flatten = []›] at this
    exact List.Perm.eq_nil this
  have hne : keyedResults (bins.map fun b => groupRecords G key f b.records).flatten ≠ [] := by
    obtain ⟨b, hbm, hbr⟩ := hsome
    intro he
    simp only [keyedResults, List.map_eq_nil_iff, List.flatten_eq_nil_iff] at he
    exact hgrp bins hb b hbm hbr (he _ (List.mem_map.2 ⟨b, hbm, rfl⟩))
  rw [concatUnder_pileUp nan hne hall]
  rcases h2 with ⟨hl, rfl⟩ | ⟨hbd, rl, cw, hcut, rfl, hone⟩
  · -- ranges
    obtain ⟨V, hV⟩ : ∃ V, V = firsts ((keyedResults (bins.map fun b => groupRecords G key f b.records).flatten).map (·.columns)).flatten := ⟨_, rfl⟩
    rw [← hV]
    unfold alignBlocks
    have hgw : gridWidth (bins.map fun b => [(blockResult G key nan f b.columns b.records).tag (flag b)]) ≤ 1 := by
      cases bins with
      | nil => simp at hl
      | cons b bs => simp [gridWidth]
    rw [if_pos (by simp; omega), if_neg (Nat.not_lt.2 hgw)]
    simp only
    have hflat : (bins.map fun b => [(blockResult G key nan f b.columns b.records).tag (flag b)]).flatten =
        bins.map fun b => (blockResult G key nan f b.columns b.records).tag (flag b) := by
      clear hgw
      generalize bins = bs
      induction bs with
      | nil => rfl
      | cons b bs ih => rw [List.map_cons, List.flatten_cons, ih]; rfl
    rw [hflat]
    have hempty : ∀ b ∈ bins, b.records = [] → blockResult G key nan f b.columns b.records = ⟨[], df.columns, []⟩ := by
      intro b hbm he
      have : groupRecords G key f b.records = [] := by
        rw [he]
        unfold groupRecords Grouping.groups
        simp [firsts, sortBy]
      unfold blockResult
      rw [this]
      simp [(hk.frames b hbm).2]
    have hfull : ∀ b ∈ bins, b.records ≠ [] → blockResult G key nan f b.columns b.records =
        pileUp nan (firsts ((keyedResults (groupRecords G key f b.records)).map (·.columns)).flatten)
          (keyedResults (groupRecords G key f b.records)) := by
      intro b hbm he
      unfold blockResult
      have := hgrp bins hb b hbm he
      simp only [List.isEmpty_map]
      rw [if_neg (by simpa using this)]
      rfl
    have hnr : ∀ b ∈ bins, b.nrows = b.records.length := by
      intro b hbm
      have := (hk.frames b hbm).1.rows_len
      simp only [Frame.nrows, Frame.records, List.length_zip]
      omega
    have hskip : ∀ b ∈ bins, ((blockResult G key nan f b.columns b.records).tag (flag b)).skipped = decide (b.records = []) := by
      intro b hbm
      rw [skipped_tag, hflag]
      by_cases he : b.records = []
      · rw [hempty b hbm he, hnr b hbm, he]
        have : df.columns.isEmpty = false := by simpa using hcne
        simp [Frame.nrows, this]
      · have h1 : (b.nrows == 0) = false := by
          rw [hnr b hbm]
          simpa using he
        have h2 : (b.ncols == 0) = false := by
          unfold Frame.ncols
          rw [(hk.frames b hbm).2]
          simpa using hcne
        rw [h1, h2]
        simp [he]
    have hvalid : (bins.map fun b => (blockResult G key nan f b.columns b.records).tag (flag b)).filter (fun b => !b.skipped) =
        (bins.filter fun b => !decide (b.records = [])).map fun b => (blockResult G key nan f b.columns b.records).tag (flag b) := by
      rw [List.filter_map]
      congr 1
      apply List.filter_congr
      intro b hbm
      simp only [Function.comp]
      rw [hskip b hbm]
    have hVc : concatColumns (((bins.map fun b => (blockResult G key nan f b.columns b.records).tag (flag b)).filter fun b => !b.skipped).map
        fun b => b.untag.columns) = some V := by
      rw [hvalid, List.map_map]
      have hcongr : (bins.filter fun b => !decide (b.records = [])).map ((fun b : Frame (K × ι') (κ × Bool) β => b.untag.columns) ∘
          fun b => (blockResult G key nan f b.columns b.records).tag (flag b)) =
          ((bins.filter fun b => !decide (b.records = [])).map fun b =>
            ((keyedResults (groupRecords G key f b.records)).map (·.columns)).flatten).map firsts := by
        rw [List.map_map]
        apply List.map_congr_left
        intro b hbm
        have hbm' := List.mem_filter.1 hbm
        simp only [Function.comp]
        rw [untag_tag, hfull b hbm'.1 (by simpa using hbm'.2)]
        rfl
      rw [hcongr, concatColumns_nodup, firsts_flatten, hV]
      · congr 2
        clear hV hvalid hcongr hl hgw hflat
        have : ∀ bs : List (Frame ι κ α), ((bs.filter fun b => !decide (b.records = [])).map fun b =>
            ((keyedResults (groupRecords G key f b.records)).map (·.columns)).flatten).flatten =
            ((keyedResults (bs.map fun b => groupRecords G key f b.records).flatten).map (·.columns)).flatten := by
          intro bs
          induction bs with
          | nil => rfl
          | cons b bs ih =>
            have hr : ((keyedResults ((b :: bs).map fun b => groupRecords G key f b.records).flatten).map (·.columns)).flatten =
                ((keyedResults (groupRecords G key f b.records)).map (·.columns)).flatten ++
                ((keyedResults (bs.map fun b => groupRecords G key f b.records).flatten).map (·.columns)).flatten := by
              simp [keyedResults]
            rw [hr, ← ih]
            by_cases he : b.records = []
            · rw [List.filter_cons_of_neg (by simp [he])]
              have : groupRecords G key f b.records = [] := by
                rw [he]
                unfold groupRecords Grouping.groups
                simp [firsts, sortBy]
              rw [this]
              rfl
            · rw [List.filter_cons_of_pos (by simp [he])]
              rfl
        exact this bins
      · obtain ⟨b, hbm, hbr⟩ := hsome
        intro he
        simp only [List.map_eq_nil_iff] at he
        have : b ∈ bins.filter fun b => !decide (b.records = []) := List.mem_filter.2 ⟨hbm, by simpa using hbr⟩
        rw [he] at this
        simp at this
      · intro c hc
        obtain ⟨l, _, rfl⟩ := List.mem_map.1 hc
        exact firsts_nodup' l
    have hvne : (bins.map fun b => (blockResult G key nan f b.columns b.records).tag (flag b)).filter (fun b => !b.skipped) ≠ [] := by
      rw [hvalid]
      obtain ⟨b, hbm, hbr⟩ := hsome
      intro he
      simp only [List.map_eq_nil_iff] at he
      have : b ∈ bins.filter fun b => !decide (b.records = []) := List.mem_filter.2 ⟨hbm, by simpa using hbr⟩
      rw [he] at this
      simp at this
    rw [align_valid cluster nan (V := V) hvne hVc]
    · rw [Option.bind_some]
      have hwid : (bins.map fun b => (blockResult G key nan f b.columns b.records).tag (flag b)).map (fun b => b.untag.widen nan V) =
          bins.map fun b => pileUp nan V (keyedResults (groupRecords G key f b.records)) := by
        rw [List.map_map]
        apply List.map_congr_left
        intro b hbm
        simp only [Function.comp]
        rw [untag_tag]
        by_cases he : b.records = []
        · rw [hempty b hbm he]
          have : groupRecords G key f b.records = [] := by
            rw [he]
            unfold groupRecords Grouping.groups
            simp [firsts, sortBy]
          rw [this]
          rfl
        · rw [hfull b hbm he]
          apply widen_pileUp
          intro g hg c hc
          rw [mem_firsts', List.mem_flatten]
          exact ⟨g.columns, List.mem_map.2 ⟨g, hg, rfl⟩, hc⟩
      rw [hwid]
      have hpw : ∀ b ∈ bins, (pileUp nan V (keyedResults (groupRecords G key f b.records))).WF := by
        intro b _
        exact pileUp_wf nan V fun g hg => (groupResults_good G key hf b.records g hg).1
      have hcutp := column_cut V (bins.map fun b => pileUp nan V (keyedResults (groupRecords G key f b.records)))
        (by intro x hx; obtain ⟨b, _, rfl⟩ := List.mem_map.1 hx; rfl)
        (by intro x hx; obtain ⟨b, hbm, rfl⟩ := List.mem_map.1 hx; exact hpw b hbm)
      have hpile : (⟨((bins.map fun b => pileUp nan V (keyedResults (groupRecords G key f b.records))).map (·.index)).flatten, V,
          ((bins.map fun b => pileUp nan V (keyedResults (groupRecords G key f b.records))).map (·.rows)).flatten⟩ : Frame (K × ι') κ β) =
          pileUp nan V (keyedResults (bins.map fun b => groupRecords G key f b.records).flatten) := by
        unfold pileUp keyedResults
        simp only [List.map_map, List.map_flatten, Frame.mk.injEq, true_and]
        constructor
        · rw [List.flatten_flatten, List.map_map]
          congr 1
          apply List.map_congr_left
          intro b _
          simp [Function.comp_def]
        · rw [List.flatten_flatten, List.map_map]
          congr 1
          apply List.map_congr_left
          intro b _
          simp [Function.comp_def]
      rw [hpile] at hcutp
      refine ⟨_, _, by simp only [MFrame.mk', validAxis, filterEmpties]; rfl, rfl, ?_⟩
      refine ⟨pileUp_wf nan V fun g hg => (hall g hg).1, ⟨_, _, ?_, hcutp, Or.inl rfl, Or.inl rfl⟩, Or.inl rfl, Or.inl rfl⟩
      refine ⟨?_, by simp, ?_, by simp [Frame.ncols, pileUp]⟩
      · simp only [ne_eq, List.map_eq_nil_iff]
        intro e
        rw [e] at hl
        simp at hl
      · rw [← hpile]
        simp only [Frame.nrows, List.length_flatten, List.map_map]
        rfl
    · intro x hx
      obtain ⟨b, hbm, rfl⟩ := List.mem_map.1 hx
      rw [untag_tag]
      refine ⟨blockResult_wf G key nan hf _ _, ?_⟩
      by_cases he : b.records = []
      · rw [hempty b hbm he]; exact hcols
      · rw [hfull b hbm he]; exact firsts_nodup' _
  · -- the frame as a whole
    subst hbd
    have hR : pileUp nan (firsts ((keyedResults ([df].map fun b => groupRecords G key f b.records).flatten).map (·.columns)).flatten)
        (keyedResults ([df].map fun b => groupRecords G key f b.records).flatten) = blockResult G key nan f df.columns df.records := by
      unfold blockResult
      have := hgrp [df] hb df (by simp) hrne
      simp only [List.isEmpty_map]
      rw [if_neg (by simpa using this)]
      simp only [List.map_cons, List.map_nil, List.flatten_cons, List.flatten_nil, List.append_nil]
      rfl
    rw [hR]
    have hRwf := blockResult_wf G key nan hf df.columns df.records
    generalize hX : (blockResult G key nan f df.columns df.records) = X at hcut hone hRwf
    have hcutX : X.IsCut rl cw := by
      refine ⟨hcut.rl_ne, hcut.cw_ne, hcut.rl_sum, ?_⟩
      rw [hcut.cw_sum]
      simp [Frame.tag, Frame.ncols]
    have hunt : (((X.tag (flag df)).cut rl cw).map fun row => row.map Frame.untag) = X.cut rl cw := by
      rw [untag_cut, untag_tag]
    unfold alignBlocks
    by_cases hlen : ((X.tag (flag df)).cut rl cw).length > 1
    · rw [if_pos hlen]
      have hcw : cw = [X.ncols] := by
        rcases hone with h | h
        · simp [Frame.cut, sliceBounds_length, h] at hlen
        · rw [h]; simp [Frame.tag, Frame.ncols]
      subst hcw
      rw [if_neg (by rw [gridWidth_cut hcut.rl_ne]; simp)]
      simp only
      have hblk : ((X.tag (flag df)).cut rl [X.ncols]).flatten = (sliceBounds rl).map fun p => (X.tag (flag df)).ilocRows p.1 p.2 := by
        unfold Frame.cut
        have : ∀ l : List (Nat × Nat), (l.map fun p => (sliceBounds [X.ncols]).map fun q =>
            ((X.tag (flag df)).ilocRows p.1 p.2).ilocCols q.1 q.2).flatten = l.map fun p => (X.tag (flag df)).ilocRows p.1 p.2 := by
          intro l
          induction l with
          | nil => rfl
          | cons p l ih =>
            rw [List.map_cons, List.flatten_cons, ih, List.map_cons]
            simp only [sliceBounds_single, List.map_cons, List.map_nil, List.cons_append, List.nil_append]
            congr 1
            have := ((tag_wf (flag df) hRwf).ilocRows p.1 p.2).ilocCols_all
            have e : ((X.tag (flag df)).ilocRows p.1 p.2).ncols = X.ncols := by simp [Frame.ilocRows, Frame.tag, Frame.ncols]
            rw [e] at this
            exact this
        exact this _
      rw [hblk]
      rw [align_same cluster nan (c := X.columns)]
      · rw [Option.bind_some]
        refine ⟨_, _, by simp only [MFrame.mk', validAxis, filterEmpties]; rfl, rfl, ?_⟩
        refine ⟨hRwf, ⟨rl, [X.ncols], hcutX, ?_, Or.inl rfl, Or.inl rfl⟩, Or.inl rfl, Or.inl rfl⟩
        rw [← hunt]
        unfold Frame.cut
        simp only [List.map_map]
        apply List.map_congr_left
        intro p _
        simp only [Function.comp, sliceBounds_single, List.map_cons, List.map_nil]
        congr 2
        have := ((tag_wf (flag df) hRwf).ilocRows p.1 p.2).ilocCols_all
        have e : ((X.tag (flag df)).ilocRows p.1 p.2).ncols = X.ncols := by simp [Frame.ilocRows, Frame.tag, Frame.ncols]
        rw [e] at this
        exact this.symm
      · intro he
        simp only [List.map_eq_nil_iff] at he
        have := congrArg List.length he
        rw [sliceBounds_length] at this
        exact hcut.rl_ne (List.length_eq_zero_iff.1 this)
      · intro b hb'
        obtain ⟨p, _, rfl⟩ := List.mem_map.1 hb'
        simp [Frame.untag, Frame.ilocRows, Frame.tag, Function.comp_def]
    · rw [if_neg hlen]
      refine ⟨_, _, rfl, rfl, hRwf, ⟨rl, cw, hcutX, hunt, Or.inl rfl, Or.inl rfl⟩, Or.inl rfl, Or.inl rfl⟩

theorem groupRecords_ne [DecidableEq K] {τ σ : Type} (G : Grouping K) (key : τ → K) (agg : K → List τ → σ) {l : List τ} {r : τ}
    (hr : r ∈ l) (hd : G.dropped (key r) = false) : groupRecords G key agg l ≠ [] := by
  intro h
  unfold groupRecords at h
  rw [List.map_eq_nil_iff] at h
  have : key r ∈ G.groups (l.map key) := by
    rw [Grouping.mem_groups]
    exact ⟨List.mem_map.2 ⟨r, hr, rfl⟩, hd⟩
  rw [h] at this
  simp at this

/-- **C87** (any number of key columns): `groupby(by).apply(f)` is `pandas.concat` of the results of all groups, each computed from all rows of
    its group in their original order: also if the results have different columns, and whatever the blocks.  As for C19 the groups come in some
    order.  Partial: results and the frame have no repeated columns (`C87_repeated_column`), no group is dropped for a missing key
    (`C87_missing_key`), and with two or more key columns the call may raise instead (`C19_single_row_crash`). -/
theorem C87_apply_any_partial [DecidableEq ι] [DecidableEq κ] [DecidableEq ι'] [DecidableEq K] (cfg : Cfg) (hp : 2 ≤ cfg.nPartitions)
    (hmr : 1 ≤ cfg.minRow) (hmc : 1 ≤ cfg.minCol) (over cluster : Bool) {le : Q → Q → Bool} (hle : TotalLe le)
    {cols : List (KeyCol α Q × (Nat → List (Option Q)))} (hd : GoodDraws (rangeReq le cols))
    {m : MFrame ι κ α} {df : Frame ι κ α} (hm : m.Represents df) (G : Grouping K) (key : ι × List α → K) (nan : β)
    (f : K → List (ι × List α) → Frame ι' κ β) (hf : ∀ k l, (f k l).WF ∧ (f k l).columns.Nodup)
    (hcols : df.columns.Nodup) (hcne : df.columns ≠ []) (hrne : df.nrows ≠ 0)
    (hkey : ∀ r s, r ∈ df.records → s ∈ df.records → key r = key s → SameRange (cols.map (·.1)) r s)
    (hkeep : ∀ r ∈ df.records, G.dropped (key r) = false) :
    (1 < cols.length ∧ groupApplyRange cfg over cluster le cols G key nan f m = none) ∨
    ∃ m' R, ∃ results : List (K × Frame ι' κ β), groupApplyRange cfg over cluster le cols G key nan f m = some m' ∧
      results.Perm (groupRecords G key f df.records) ∧
      concatUnder nan (results.map fun r => r.2.keyed r.1) = some R ∧ m'.Represents R := by
  have hrec : df.records ≠ [] := by
    intro h
    apply hrne
    have := congrArg List.length h
    have hl := hm.wf.rows_len
    simp only [Frame.records, List.length_zip, List.length_nil] at this
    simp only [Frame.nrows]
    omega
  obtain ⟨bins, hb, hk, h⟩ := groupApplyRange_core cfg hp hmr hmc over cluster hle hd hm G key nan f hf hcols hcne hrec hkey (by
    intro bins hb b hbm hbr
    have hk := isBins_keyParts hle hd hm.wf hb key hkey
    obtain ⟨r, hr⟩ := List.exists_mem_of_ne_nil _ hbr
    apply groupRecords_ne G key f hr
    apply hkeep
    apply hk.rows.mem_iff.1
    exact List.mem_flatten.2 ⟨_, List.mem_map.2 ⟨b, hbm, rfl⟩, hr⟩)
  rcases h with h | ⟨m', R, h1, h2, h3⟩
  · exact Or.inl h
  · right
    exact ⟨m', R, _, h1, hk.perm (groupRecords_local G key f), h2, h3⟩

/-- The groups of the ranges of one sorted key column follow each other as the groups of the whole do. -/
theorem groupRecords_sorted_bins [DecidableEq Q] {σ : Type} {le : Q → Q → Bool} (hle : TotalLe le)
    (hanti : ∀ a b, le a b = true → le b a = true → a = b) {col : KeyCol α Q} {draw : Nat → List (Option Q)}
    (hd : GoodDraws (rangeReq le [(col, draw)])) (hna : ∀ a, col.isna a = (col.conv a).isNone) {df : Frame ι κ α} (hwf : df.WF)
    (hpos : col.pos < df.ncols) (dropna : Bool) (agg : Option Q → List (ι × List α) → σ) {bins : List (Frame ι κ α)}
    (hb : IsBins (rangeReq le [(col, draw)]) df bins) (hk : KeyParts (sortKey col.conv col.pos) df bins) :
    (bins.map fun b => groupRecords (valueGrouping le dropna) (sortKey col.conv col.pos) agg b.records).flatten =
      groupRecords (valueGrouping le dropna) (sortKey col.conv col.pos) agg df.records := by
  generalize hG : valueGrouping le dropna = G
  have hGle : ∀ a b c, G.le a b = true → G.le b c = true → G.le a c = true := by
    subst hG; exact fun a b c => keyBefore_trans hle true true a b c
  have hGt : ∀ a b, G.le a b = true ∨ G.le b a = true := by
    subst hG; exact keyBefore_total hle true true
  have hGa : ∀ a b, G.le a b = true → G.le b a = true → a = b := by
    subst hG
    intro a b h1 h2
    cases a <;> cases b <;> simp_all [valueGrouping, keyBefore]
    exact hanti _ _ h1 h2
  have hsort : ∀ l : List (ι × List α), (groupRecords G (sortKey col.conv col.pos) agg l).Pairwise fun a b => G.le a.1 b.1 = true := by
    intro l
    unfold groupRecords
    rw [List.pairwise_map]
    unfold Grouping.groups
    rw [if_pos (by subst hG; rfl)]
    exact sortBy_pairwise hGle hGt _
  have hperm := hk.perm (groupRecords_local G (sortKey col.conv col.pos) agg)
  apply List.Perm.eq_of_pairwise (le := fun a b => G.le a.1 b.1 = true) _ _ (hsort _) hperm
  · intro a b ha hb' h3 h4
    have ha := hperm.mem_iff.1 ha
    simp only [groupRecords, List.mem_map] at ha hb'
    obtain ⟨k, _, rfl⟩ := ha
    obtain ⟨k', _, rfl⟩ := hb'
    have := hGa k k' h3 h4
    rw [this]
  · rw [List.pairwise_flatten]
    refine ⟨?_, ?_⟩
    · intro l hl
      simp only [List.mem_map] at hl
      obtain ⟨b, _, rfl⟩ := hl
      exact hsort _
    · rw [List.pairwise_iff_getElem]
      intro i j hi hj hij x hx y hy
      simp only [List.getElem_map, groupRecords, List.mem_map] at hx hy
      obtain ⟨k, hk1, rfl⟩ := hx
      obtain ⟨k', hk2, rfl⟩ := hy
      rw [Grouping.mem_groups] at hk1 hk2
      simp only [List.mem_map] at hk1 hk2
      obtain ⟨⟨r, hr, rfl⟩, _⟩ := hk1
      obtain ⟨⟨s, hs, rfl⟩, _⟩ := hk2
      simp only [List.length_map] at hi hj
      have := isBins_ordered (rq := rangeReq le [(col, draw)]) hle hd rfl rfl hna hwf hpos hb
        (List.getElem?_eq_getElem hi) (List.getElem?_eq_getElem hj) hij hr hs
      simp only [rowBefore, rangeReq] at this
      subst hG
      simp only [valueGrouping]
      obtain ⟨t1, t2⟩ := this
      have hbool : ∀ x y : Bool, (if (x && y) = true then true else x) = true → x = true := by decide
      exact hbool _ _ t1

/-- a row whose key is not before the last pivot is in the last range -/
theorem code_last {le : Q → Q → Bool} (hle : TotalLe le) (pos : Nat) (isna : α → Bool) (conv : α → Option Q) (numeric : Bool)
    {pivots : List (Option Q)} (hinc : Increasing le pivots) {a b : Q} (hq : pivots.getLast? = some (some a)) (hab : le a b = true)
    {r : ι × List α} (hr : sortKey conv pos r = some b) : (sortCol pos isna conv numeric pivots).code le true false r = pivots.length := by
  have hall : ∀ p ∈ pivots, npLe le p (some b) = true := by
    intro p hp
    obtain ⟨l, rfl⟩ := List.getLast?_eq_some_iff.1 hq
    unfold Increasing at hinc
    rw [List.pairwise_append] at hinc
    rw [List.mem_append, List.mem_singleton] at hp
    rcases hp with hp | rfl
    · have := hinc.2.2 p hp (some a) (by simp)
      cases p with
      | none => simp [npLe] at this
      | some c =>
        simp only [npLe, Bool.not_eq_eq_eq_not, Bool.not_true] at this ⊢
        have ht := hle.total c a
        exact hle.trans c a b (by simp_all) hab
    · simpa [npLe] using hab
  have hcount : searchsorted le true pivots (some b) = pivots.length := by
    unfold searchsorted
    rw [List.filter_eq_self.2]
    intro p hp
    simpa using hall p hp
  unfold KeyCol.code
  simp only [sortCol, ↓reduceIte, Bool.not_false, Bool.not_true, Bool.false_and, Bool.false_eq_true]
  rw [hr]
  cases numeric with
  | true =>
    simp only [↓reduceIte, npDigitize, increasing_check hle hinc, Bool.not_false]
    exact hcount
  | false => simpa using hcount

/-- **C87** (one key column, `sort=True`): `groupby(by).apply(f)` is exactly pandas' frame: the results of the groups in the order of the keys, a
    column for every column of a result, in the order in which they first occur, whatever the blocks, with and without a Ray cluster.  Partial:
    results and the frame have no repeated columns (`C87_repeated_column`); no pivot is missing or after all keys, as quantiles of a sample of the
    column never are. -/
theorem C87_apply_partial [DecidableEq ι] [DecidableEq κ] [DecidableEq ι'] [DecidableEq Q] (cfg : Cfg) (hp : 2 ≤ cfg.nPartitions)
    (hmr : 1 ≤ cfg.minRow) (hmc : 1 ≤ cfg.minCol) (over cluster : Bool) {le : Q → Q → Bool} (hle : TotalLe le)
    (hanti : ∀ a b, le a b = true → le b a = true → a = b) {col : KeyCol α Q} {draw : Nat → List (Option Q)}
    (hd : GoodDraws (rangeReq le [(col, draw)])) (hna : ∀ a, col.isna a = (col.conv a).isNone) {m : MFrame ι κ α} {df : Frame ι κ α}
    (hm : m.Represents df) (hpos : col.pos < df.ncols) (dropna : Bool) (nan : β) (f : Option Q → List (ι × List α) → Frame ι' κ β)
    (hf : ∀ k l, (f k l).WF ∧ (f k l).columns.Nodup) (hcols : df.columns.Nodup)
    (hdraw : ∀ n, ∀ p ∈ draw n, ∃ a b, p = some a ∧ le a b = true ∧ ∃ r ∈ df.records, sortKey col.conv col.pos r = some b) :
    ∃ m' R, groupApplyRange cfg over cluster le [(col, draw)] (valueGrouping le dropna) (sortKey col.conv col.pos) nan f m = some m' ∧
      groupApply (valueGrouping le dropna) (sortKey col.conv col.pos) nan f df.columns df.records = some R ∧ m'.Represents R := by
  have hwid : ∀ r ∈ df.records, col.pos < r.2.length := by
    intro r hr; rw [hm.wf.records_width hr]; exact hpos
  have hkey : ∀ r s, r ∈ df.records → s ∈ df.records → sortKey col.conv col.pos r = sortKey col.conv col.pos s →
      SameRange ([(col, draw)].map (·.1)) r s := by
    intro r s hr hs h c hc
    simp only [List.map_cons, List.map_nil, List.mem_singleton] at hc
    subst hc
    refine ⟨?_, h⟩
    unfold KeyCol.missing
    unfold sortKey at h
    rw [List.getElem?_eq_getElem (hwid r hr), List.getElem?_eq_getElem (hwid s hs)] at h ⊢
    simp only [Option.bind_some] at h
    simp [hna, h]
  have hpiv : ∀ n, 2 ≤ n → draw n ≠ [] ∧ Increasing le (draw n) := fun n hn => hd.2 (col, draw) (by simp [rangeReq]) n hn
  have hkept : ∀ r : ι × List α, (sortKey col.conv col.pos r).isSome → (valueGrouping le dropna).dropped (sortKey col.conv col.pos r) = false := by
    intro r hr
    unfold valueGrouping
    cases h : sortKey col.conv col.pos r with
    | none => rw [h] at hr; simp at hr
    | some q => simp
  obtain ⟨r0, hr0, hr0s⟩ : ∃ r ∈ df.records, (sortKey col.conv col.pos r).isSome := by
    obtain ⟨p, hp'⟩ := List.exists_mem_of_ne_nil _ (hpiv 2 (by omega)).1
    obtain ⟨a, b, _, _, r, h2, h3⟩ := hdraw 2 p hp'
    exact ⟨r, h2, by rw [h3]; rfl⟩
  have hrne : df.records ≠ [] := List.ne_nil_of_mem hr0
  have hcne : df.columns ≠ [] := by
    intro h
    simp [Frame.ncols, h] at hpos
  obtain ⟨bins, hb, hk, h⟩ := groupApplyRange_core cfg hp hmr hmc over cluster hle hd hm (valueGrouping le dropna) (sortKey col.conv col.pos) nan f
    hf hcols hcne hrne hkey (by
    intro bins hb b hbm hbr
    by_cases hex : ∃ r ∈ b.records, (sortKey col.conv col.pos r).isSome
    · obtain ⟨r, h1, h2⟩ := hex
      exact groupRecords_ne _ _ f h1 (hkept r h2)
    · obtain ⟨s, hs⟩ := List.exists_mem_of_ne_nil _ hbr
      have hsn : sortKey col.conv col.pos s = none := by
        cases h : sortKey col.conv col.pos s with
        | none => rfl
        | some q => exact absurd ⟨s, hs, by simp [h]⟩ hex
      exfalso
      rcases hb with rfl | ⟨ideal, rl, cw, hi, hc, rfl⟩
      · simp only [List.mem_singleton] at hbm
        subst hbm
        exact hex ⟨r0, hr0, hr0s⟩
      · obtain ⟨i, _, rfl⟩ := List.mem_map.1 hbm
        have hpf : pivotFn ideal (rangeReq le [(col, draw)]).cols 1 true = [sortCol col.pos col.isna col.conv col.numeric (draw ideal)] := by
          simp [rangeReq, pivotFn, pickPivots, sortCol, show ¬ ideal ≤ 1 by omega]
        rw [hpf] at hs hex
        rw [Frame.records_ofRecords] at hs hex
        obtain ⟨hne, hinc⟩ := hpiv ideal hi
        have hsm := (binRows_perm _ _ _ _ hm.wf hc i).mem_iff.1 hs
        rw [List.mem_filter, beq_iff_eq] at hsm
        simp only [rangeReq] at hsm hex
        have hsb := hsm.2
        rw [sortCol_binOf hle true true col.numeric hinc hne, naRow_sortCol hna col.numeric (hwid s hsm.1), hsn] at hsb
        simp only [Option.isNone_none, ↓reduceIte] at hsb
        obtain ⟨q, hq⟩ : ∃ q, (draw ideal).getLast? = some q := ⟨_, List.getLast?_eq_some_getLast hne⟩
        obtain ⟨qa, qb, rfl, hqab, r, hr1, hr2⟩ := hdraw ideal q (List.mem_of_getLast? hq)
        apply hex
        refine ⟨r, ?_, by rw [hr2]; rfl⟩
        apply (binRows_perm _ _ _ _ hm.wf hc i).mem_iff.2
        rw [List.mem_filter, beq_iff_eq]
        refine ⟨hr1, ?_⟩
        rw [sortCol_binOf hle true true col.numeric hinc hne, naRow_sortCol hna col.numeric (hwid r hr1), hr2]
        simp only [Option.isNone_some, Bool.false_eq_true, ↓reduceIte]
        rw [code_last hle col.pos col.isna col.conv col.numeric hinc hq hqab hr2]
        exact hsb)
  rcases h with ⟨h, _⟩ | ⟨m', R, h1, h2, h3⟩
  · simp at h
  · refine ⟨m', R, h1, ?_, h3⟩
    rw [groupRecords_sorted_bins hle hanti hd hna hm.wf hpos dropna f hb hk] at h2
    unfold groupApply
    simp only
    rw [if_neg]
    · exact h2
    · have := groupRecords_ne (valueGrouping le dropna) (sortKey col.conv col.pos) f hr0 (hkept r0 hr0s)
      simpa using this

namespace GroupApplyDemo
open C18Example

/-- the rows of the group, with the column "v" for the key 2, "v" and "n" for the key 3 and "n" for the others -/
def f (k : Option Int) (l : List (Nat × List (Option Int))) : Frame Nat String (Option Int) :=
  let cols := if k = some 2 then ["v"] else if k = some 3 then ["v", "n"] else ["n"]
  { index := l.map (·.1), columns := cols,
    rows := l.map fun r => cols.map fun c => if c = "v" then r.2.getD 1 none else some l.length }

theorem f_good (k : Option Int) (l : List (Nat × List (Option Int))) : (f k l).WF ∧ (f k l).columns.Nodup := by
  refine ⟨⟨?_, ?_⟩, ?_⟩
  · simp [f]
  · intro row hrow
    simp only [f, List.mem_map] at hrow
    obtain ⟨r, _, rfl⟩ := hrow
    simp [f]
  · simp only [f]
    by_cases h : k = some 2
    · rw [if_pos h]; simp
    · rw [if_neg h]
      by_cases h3 : k = some 3
      · rw [if_pos h3]; simp
      · rw [if_neg h3]; simp

theorem draw_good : ∀ n, ∀ p ∈ draw n, ∃ a b, p = some a ∧ le a b = true ∧ ∃ r ∈ df.records, sortKey kcol.conv kcol.pos r = some b := by
  intro n p hp
  simp only [draw, List.mem_cons, List.not_mem_nil, or_false] at hp
  rcases hp with rfl | rfl
  · exact ⟨2, 3, rfl, by decide, (10, [some 3, some 1]), by decide, rfl⟩
  · exact ⟨3, 3, rfl, by decide, (10, [some 3, some 1]), by decide, rfl⟩

example (cluster dropna : Bool) : ∃ m' R,
    groupApplyRange cfg false cluster le [(kcol, draw)] (valueGrouping le dropna) (sortKey kcol.conv kcol.pos) none f m = some m' ∧
    groupApply (valueGrouping le dropna) (sortKey kcol.conv kcol.pos) none f df.columns df.records = some R ∧ m'.Represents R :=
  C87_apply_partial cfg (by decide) (by decide) (by decide) false cluster total
    (by intro a b h1 h2; simp only [le, decide_eq_true_eq] at *; omega) goodDraws (fun _ => rfl) represents (by decide) dropna none f f_good
    (by decide) draw_good

example : groupApply (valueGrouping le true) (sortKey kcol.conv kcol.pos) none f df.columns df.records =
    some { index := [(some 1, 30), (some 1, 60), (some 2, 50), (some 3, 10), (some 3, 40)], columns := ["n", "v"],
           rows := [[some 2, none], [some 2, none], [none, none], [some 2, some 1], [some 2, some 4]] } := by decide +kernel

/-- the row with the missing key is in the last range, with those of the key 3 -/
example : (groupApplyRange cfg false false le [(kcol, draw)] (valueGrouping le true) (sortKey kcol.conv kcol.pos) none f m).map
    (fun r => r.parts.map fun row => row.map (·.index)) =
    some [[[(some 1, 30), (some 1, 60)]], [[(some 2, 50)]], [[(some 3, 10), (some 3, 40)]]] := by decide +kernel

/-- without an empty flag the columns of `df` would be in the result: a pivot draws an empty range -/
def drawE (_ : Nat) : List (Option Int) := [some 0, some 3]

example : (groupApplyRange cfg false true le [(kcol, drawE)] (valueGrouping le true) (sortKey kcol.conv kcol.pos) none f m).map
    (fun r => (r.parts.map fun row => row.map fun b => (b.index.length, b.columns))) =
    some [[(0, ["n", "v"])], [(3, ["n", "v"])], [(2, ["n", "v"])]] := by decide +kernel

open C19Example in
example : ∃ m' R, ∃ results : List (List (Option Int) × Frame Nat String (Option Int)),
    groupApplyRange ⟨4, 1, 1⟩ true false le cols (pandasGrouping true true) (fun r => r.2) none (fun k l => f (k.getD 0 none) l) (m2 [2, 2]) =
      some m' ∧
    results.Perm (groupRecords (pandasGrouping true true) (fun r => r.2) (fun k l => f (k.getD 0 none) l) df2.records) ∧
    concatUnder none (results.map fun r => r.2.keyed r.1) = some R ∧ m'.Represents R := by
  have := C87_apply_any_partial ⟨4, 1, 1⟩ (by decide) (by decide) (by decide) true false total goodDraws2 represents2 (pandasGrouping true true)
    (fun r => r.2) none (fun k l => f (k.getD 0 none) l) (fun k l => f_good _ l) (by decide) (by decide) (by decide) (by
      intro r s _ _ h
      apply keyCells_sameRange
      simp only [keyCells, h]) (by decide)
  rcases this with ⟨_, h⟩ | h
  · exact absurd h (by decide +kernel)
  · exact h

/-- one key is missing -/
def dfMiss : Frame Nat String (Option Int) :=
  { index := [10, 20, 30, 40], columns := ["a", "b"], rows := [[some 1, some 9], [some 2, none], [some 6, some 1], [some 6, some 8]] }

def mMiss : MFrame Nat String (Option Int) :=
  { parts := dfMiss.cut [2, 2] [2], index := none, columns := none, rowLens := none, colWidths := none }

/-- the number of rows -/
def size (_ : List (Option Int)) (l : List (Nat × List (Option Int))) : Frame Nat String (Option Int) :=
  { index := [0], columns := ["size"], rows := [[some l.length]] }

open C19Example in
/-- the pivot of the first column is 2, that of the second 5 -/
def colsMiss : List (KeyCol (Option Int) Int × (Nat → List (Option Int))) := [(ka, fun _ => [some 2, some 6]), (kb, fun _ => [some 5])]

/-- **C87, where it fails (1).** `df.groupby(["a", "b"]).apply(f)`: a range with rows but without any group, since a key of all its rows is
    missing, is not left out when the columns of the ranges are joined: all columns of `df` are in the result. -/
theorem C87_missing_key :
    mMiss.Represents dfMiss ∧
    (groupApplyRange ⟨4, 1, 1⟩ true false le colsMiss (pandasGrouping true true) (fun r => r.2) none size mMiss).map
      (fun r => r.getColumns) = some ["size", "a", "b"] ∧
    (groupApply (pandasGrouping true true) (fun r => r.2) none size dfMiss.columns dfMiss.records).map (·.columns) = some ["size"] := by
  refine ⟨⟨⟨by decide, by decide⟩, ⟨[2, 2], [2], ⟨by decide, by decide, by decide, by decide⟩, rfl, Or.inl rfl, Or.inl rfl⟩,
    Or.inl rfl, Or.inl rfl⟩, by decide +kernel, by decide +kernel⟩

/-- a frame with two columns "v" -/
def dfRep : Frame Nat String (Option Int) :=
  { index := [10, 20, 30, 40], columns := ["k", "v", "v"],
    rows := [[some 1, some 9, none], [some 2, none, none], [some 6, some 1, none], [some 6, some 8, some 0]] }

def mRep : MFrame Nat String (Option Int) :=
  { parts := dfRep.cut [2, 2] [3], index := none, columns := none, rowLens := none, colWidths := none }

/-- the number of rows -/
def size1 (_ : Option Int) (l : List (Nat × List (Option Int))) : Frame Nat String (Option Int) :=
  { index := [0], columns := ["size"], rows := [[some l.length]] }

/-- **C87, where it fails (2).** `df.groupby("k").apply(f)` raises if a label other than the key repeats in `df` and a range of keys is empty:
    its empty result has the columns of `df`, and cannot be given those of the others. -/
theorem C87_repeated_column :
    mRep.Represents dfRep ∧
    groupApplyRange ⟨2, 1, 1⟩ true false le [(kcol, fun _ => [some 1])] (valueGrouping le true) (sortKey id 0) none size1 mRep = none ∧
    (groupApply (valueGrouping le true) (sortKey id 0) none size1 dfRep.columns dfRep.records).map (·.rows) =
      some [[some 1], [some 1], [some 2]] := by
  refine ⟨⟨⟨by decide, by decide⟩, ⟨[2, 2], [3], ⟨by decide, by decide, by decide, by decide⟩, rfl, Or.inl rfl, Or.inl rfl⟩,
    Or.inl rfl, Or.inl rfl⟩, by decide +kernel, by decide +kernel⟩

end GroupApplyDemo
