import Verif.Model.Describe
import Verif.Lemmas.Dummies
import Verif.Lemmas.Insert
import Verif.Lemmas.Melt
import Verif.Lemmas.Query
import Verif.Lemmas.Align
import Verif.Lemmas.Reindex
/-
Selected block columns one by one; `describe`.
-/

variable {ι ι' κ κ' L α β K S : Type}

/-! ### selected block columns -/

theorem applySelected_cut [DecidableEq ι] [DecidableEq κ] (cfg : Cfg) (hmr : 1 ≤ cfg.minRow) {df : Frame ι κ α} (hwf : df.WF)
    {rl cw : List Nat} (hc : df.IsCut rl cw) (func : Nat → List Nat → Frame ι κ α → Option (Frame ι' κ' β)) (J : List ι')
    (R : Nat × BlockSel → Frame ι' κ' β) {d : List (Nat × BlockSel)} (hne : d ≠ [])
    (h : ∀ e ∈ d, e.1 < cw.length ∧ func e.1 (e.2.positions 0) (colBand cw df e.1) = some (R e) ∧ (R e).WF ∧ (R e).index = J) :
    ∃ lens, lens ≠ [] ∧ lens.sum = J.length ∧ applySelected cfg func d (df.cut rl cw) =
      some ((Frame.stackCols J (d.map R)).cut lens ((d.map R).map (·.ncols))) := by
  have hk : 1 ≤ rl.length := by
    have := List.length_pos_iff.2 hc.rl_ne
    omega
  obtain ⟨lens, h1, h2, h3⟩ := deployLens_ok rl.length hk true rl J.length cfg.minRow hmr none false (by simp)
  refine ⟨lens, h2, h3, ?_⟩
  unfold applySelected
  rw [mapM_congr_some (g := fun e : Nat × BlockSel => (sliceBounds lens).map fun p => (R e).ilocRows p.1 p.2)]
  · rw [Option.map_some, ← colBlocks_bands J lens h2 _ (by simpa using hne)]
    · rw [List.map_map]; rfl
    · intro R' hR'
      obtain ⟨e, he, rfl⟩ := List.mem_map.1 hR'
      exact (h e he).2.2
  · intro e he
    obtain ⟨g0, g1, g2, g3⟩ := h e he
    rw [colBlocks_cut hc.rl_ne, List.getElem?_map, sliceBounds_getElem? g0, Option.map_some, Option.bind_some]
    have hv0 : ((sliceBounds rl).map fun p => (df.ilocRows p.1 p.2).ilocCols (off cw e.1) (off cw (e.1 + 1))) =
          (sliceBounds rl).map fun p => (colBand cw df e.1).ilocRows p.1 p.2 := by
      apply List.map_congr_left
      intro p _
      exact ilocRows_ilocCols df _ _ _ _
    rw [hv0]
    have hcov : Covers (sliceBounds rl) (colBand cw df e.1).nrows := by
      show Covers (sliceBounds rl) df.nrows
      rw [← hc.rl_sum]
      exact covers_lens rl
    have hv : Frame.vcat ((sliceBounds rl).map fun p => (colBand cw df e.1).ilocRows p.1 p.2) = some (colBand cw df e.1) :=
      Frame.vcat_ilocRows (hwf.ilocCols _ _) (sliceBounds_ne_nil hc.rl_ne) hcov
    rw [show ((sliceBounds rl).map fun p => (colBand cw df e.1).ilocRows p.1 p.2).length = rl.length by simp [sliceBounds_length]]
    have hd := deploy_rows_eq (fun _ => R e) rl.length true
      ((sliceBounds rl).map fun p => (colBand cw df e.1).ilocRows p.1 p.2) cfg.minRow none false _ hv g2
    have hsame : deployAxisFunc true (func e.1 (e.2.positions 0)) rl.length true
        ((sliceBounds rl).map fun p => (colBand cw df e.1).ilocRows p.1 p.2) cfg.minRow none false =
        deployAxisFunc true (fun _ => some (R e)) rl.length true
        ((sliceBounds rl).map fun p => (colBand cw df e.1).ilocRows p.1 p.2) cfg.minRow none false := by
      unfold deployAxisFunc
      simp only [axisConcat, ↓reduceIte, hv, Option.bind_eq_bind, Option.bind_some, g1]
    rw [hsame, hd]
    have hn : (R e).nrows = J.length := by unfold Frame.nrows; rw [g3]
    have hpl : ((sliceBounds rl).map fun p => (colBand cw df e.1).ilocRows p.1 p.2).map (·.nrows) = rl := by
      have hc' : (colBand cw df e.1).IsCut rl [(colBand cw df e.1).ncols] :=
        ⟨hc.rl_ne, by simp, by rw [hc.rl_sum]; rfl, by simp⟩
      rw [List.map_map]
      exact sliceBounds_nrows hc'
    rw [hn, hpl, h1, Option.map_some]

theorem positionsOf_nodup_at [DecidableEq κ] {l : List κ} (h : l.Nodup) {i : Nat} (hi : i < l.length) : positionsOf l l[i] = [i] := by
  have hm : ∀ p, p ∈ positionsOf l l[i] ↔ p = i := by
    intro p
    rw [mem_positionsOf]
    constructor
    · intro hp
      obtain ⟨h1, h2⟩ := List.getElem?_eq_some_iff.1 hp
      exact (List.getElem_inj h).1 h2
    · rintro rfl
      simp [hi]
  have hn : (positionsOf l l[i]).Nodup := List.nodup_range.filter _
  match hq : positionsOf l l[i] with
  | [] => rw [hq] at hm; simpa using (hm i).2 rfl
  | [x] => rw [hq] at hm; rw [(hm x).1 (by simp)]
  | x :: y :: r =>
    rw [hq] at hm hn
    have h1 := (hm x).1 (by simp)
    have h2 := (hm y).1 (by simp)
    rw [h1, h2] at hn
    simp at hn

theorem flatMap_positionsOf_self [DecidableEq κ] {l : List κ} (h : l.Nodup) : l.flatMap (positionsOf l) = List.range l.length := by
  have h0 : l = (List.range l.length).filterMap (l[·]?) := (takeList_range l).symm
  conv => lhs; arg 2; rw [h0]
  rw [List.flatMap_def]
  have : ((List.range l.length).filterMap (l[·]?)).map (positionsOf l) = (List.range l.length).map fun i => [i] := by
    rw [List.map_filterMap]
    have : (List.range l.length).filterMap (fun i => (l[i]?).map (positionsOf l)) = (List.range l.length).filterMap (fun i => some [i]) := by
      apply filterMap_congr_mem
      intro i hi
      rw [List.mem_range] at hi
      rw [List.getElem?_eq_getElem hi, Option.map_some, positionsOf_nodup_at h hi]
    rw [this]
    simp
  rw [this, ← List.flatMap_def]
  simp

/-! ### tables of computed cells -/

theorem ofCols_table {A : Type} (J : List ι) (l : List A) (lab : A → κ) (g : A → ι → α) :
    Frame.ofCols J (l.map fun e => (lab e, J.map (g e))) = { index := J, columns := l.map lab, rows := J.map fun s => l.map fun e => g e s } := by
  unfold Frame.ofCols
  congr 1
  · rw [List.map_map]; rfl
  · apply List.ext_getElem
    · simp
    · intro i h1 h2
      have hi : i < J.length := by simpa using h1
      rw [List.getElem_map, List.getElem_map, List.getElem_range, List.filterMap_map]
      rw [← List.filterMap_eq_map]
      apply filterMap_congr_mem
      intro e _
      simp [hi]

theorem mem_statLabels [DecidableEq S] {D : Describer K S α} {kinds : List K} {s : S} :
    s ∈ statLabels D kinds ↔ ∃ k ∈ kinds, s ∈ D.stats k := by
  unfold statLabels
  rw [mem_firsts, List.mem_flatten]
  constructor
  · rintro ⟨l, hl, hs⟩
    rw [mem_sortBy, List.mem_map] at hl
    obtain ⟨k, hk, rfl⟩ := hl
    exact ⟨k, hk, hs⟩
  · rintro ⟨k, hk, hs⟩
    exact ⟨D.stats k, by rw [mem_sortBy]; exact List.mem_map_of_mem hk, hs⟩

/-- the columns of the description -/
def describedCols [DecidableEq S] (nan : α) (D : Describer K S α) (J : List S) (l : List ((κ × List α) × K)) : List (κ × List α) :=
  l.map fun e => (e.1.1, J.map fun s => describeCell nan D s e)

theorem describedCols_sized [DecidableEq S] (nan : α) (D : Describer K S α) (J : List S) (l : List ((κ × List α) × K)) :
    Sized J.length (describedCols nan D J l) := by
  intro c hc
  obtain ⟨e, _, rfl⟩ := List.mem_map.1 hc
  simp

theorem zip_labels {df : Frame ι κ α} {kinds : List K} (hk : kinds.length = df.ncols) :
    (df.named.zip kinds).map (fun e => e.1.1) = df.columns := by
  have h : ((df.named.zip kinds).map Prod.fst).map Prod.fst = df.columns := by
    rw [List.map_fst_zip, ← named_labels df]
    rw [hk, ← List.length_map (f := (·.1)), named_labels]
    exact Nat.le_refl _
  rw [List.map_map] at h
  exact h

theorem describeAll_eq [DecidableEq S] (nan : α) (D : Describer K S α) {kinds : List K} {df : Frame ι κ α} (hk : kinds.length = df.ncols)
    (hne : df.columns ≠ []) : df.describeAll nan D kinds =
      some (Frame.ofCols (statLabels D kinds) (describedCols nan D (statLabels D kinds) (df.named.zip kinds))) := by
  unfold Frame.describeAll
  rw [if_neg hne]
  unfold describedCols
  rw [ofCols_table (statLabels D kinds) (df.named.zip kinds) (fun e => e.1.1) (fun e s => describeCell nan D s e), zip_labels hk]

theorem describeAll_reindex [DecidableEq S] (nan : α) (D : Describer K S α) {kinds : List K} {df : Frame ι κ α} (hk : kinds.length = df.ncols)
    (hne : df.columns ≠ []) (J : List S) : (df.describeAll nan D kinds).map (Frame.reindexLabels nan J) =
      some (Frame.ofCols J (describedCols nan D J (df.named.zip kinds))) := by
  unfold Frame.describeAll
  rw [if_neg hne, Option.map_some]
  unfold describedCols Frame.reindexLabels
  rw [ofCols_table J (df.named.zip kinds) (fun e => e.1.1) (fun e s => describeCell nan D s e), zip_labels hk]
  congr 2
  apply List.map_congr_left
  intro s _
  show (((statLabels D kinds).findIdx? (· == s)).bind fun i => ((statLabels D kinds).map fun s => (df.named.zip kinds).map (describeCell nan D s))[i]?).getD _ = _
  cases hf : (statLabels D kinds).findIdx? (· == s) with
  | some i =>
    obtain ⟨h1, h2, _⟩ := List.findIdx?_eq_some_iff_getElem.1 hf
    have : (statLabels D kinds)[i] = s := by simpa using h2
    simp [h1, this]
  | none =>
    have hs : s ∉ statLabels D kinds := by
      intro hs
      rw [List.findIdx?_eq_none_iff] at hf
      simpa using hf s hs
    rw [Option.bind_none, Option.getD_none]
    show df.columns.map _ = _
    rw [← zip_labels hk, List.map_map]
    apply List.map_congr_left
    intro e he
    simp only [Function.comp, describeCell]
    rw [if_neg]
    intro h
    exact hs (mem_statLabels.2 ⟨e.2, (List.of_mem_zip he).2, h⟩)

/-! ### `describe` of all columns -/

theorem blockKinds_eq {cw : List Nat} (kinds : List K) {j : Nat} (hj : j < cw.length) :
    blockKinds cw kinds j = pySlice kinds (off cw j) (off cw (j + 1)) := by
  unfold blockKinds
  rw [sliceBounds_getElem? hj]
  rfl

theorem off_sub {cw : List Nat} {j : Nat} (hj : j < cw.length) : off cw (j + 1) - off cw j = cw[j] := by
  rw [off_succ hj]; omega

theorem selGlobal_list {cw : List Nat} {e : Nat × BlockSel} {js : List Nat} (h : e.2 = .list js) :
    selGlobal cw e = js.map (· + off cw e.1) := by
  unfold selGlobal
  rw [h]
  rfl

theorem describe_band [DecidableEq S] (nan : α) (D : Describer K S α) {kinds : List K} {df : Frame ι κ α} (hwf : df.WF)
    (hk : kinds.length = df.ncols) (J : List S) {cw : List Nat} {e : Nat × BlockSel} (hg : GoodSel cw false e) (hcw : cw.sum = df.ncols)
    {js : List Nat} (hl : e.2 = .list js) (hne : js ≠ []) :
    describeBlock nan D J (blockKinds cw kinds e.1) (e.2.positions 0) (colBand cw df e.1) =
      some (Frame.ofCols J (describedCols nan D J (takeList (df.named.zip kinds) (selGlobal cw e)))) := by
  have hlt := hg.lt
  have hin : ∀ x ∈ js, x < off cw (e.1 + 1) - off cw e.1 := by
    intro x hx
    rw [off_sub hlt]
    apply hg.inside x
    rw [hl]
    exact hx
  have hp : e.2.positions 0 = js := by rw [hl]; rfl
  have hglob : ∀ x ∈ js.map (· + off cw e.1), x < df.ncols := by
    intro x hx
    obtain ⟨y, hy, rfl⟩ := List.mem_map.1 hx
    have h1 := hin y hy
    have h2 := off_le_sum cw (e.1 + 1)
    show y + off cw e.1 < df.ncols
    omega
  have htake : (colBand cw df e.1).takeCols js = df.takeCols (js.map (· + off cw e.1)) := by
    unfold colBand
    simp [Frame.ilocCols, Frame.takeCols, takeList_pySlice _ _ _ _ hin]
  have hnl : df.named.length = df.ncols := by
    rw [← List.length_map (f := (·.1)), named_labels]; rfl
  unfold describeBlock
  rw [hp, htake, blockKinds_eq kinds hlt, takeList_pySlice _ _ _ _ hin]
  rw [describeAll_reindex nan D ?_ ?_ J, named_takeCols hwf, ← takeList_zip (by rw [hk, hnl]), selGlobal_list hl]
  · show (takeList kinds _).length = (takeList df.columns _).length
    rw [takeList_length (by rw [hk]; exact hglob), takeList_length hglob]
  · show takeList df.columns _ ≠ []
    intro h0
    have := congrArg List.length h0
    rw [takeList_length hglob] at this
    simp at this
    exact hne this

theorem describeCompiled_shows [DecidableEq ι] [DecidableEq κ] [DecidableEq S] (cfg : Cfg) (hmr : 1 ≤ cfg.minRow) (nan : α)
    (D : Describer K S α) {kinds : List K} {m : LFrame ι κ α} {df : Frame ι κ α} (h : m.Shows df) (hk : kinds.length = df.ncols)
    (hn : df.columns.Nodup) (hne : df.columns ≠ []) :
    ∃ m' r, m.describeCompiled cfg nan D kinds = some m' ∧ df.describeAll nan D kinds = some r ∧ m'.Shows r := by
  rw [describeAll_eq nan D hk hne]
  unfold LFrame.describeCompiled
  rw [h.getColumns]
  generalize hJ : statLabels D kinds = J
  suffices hs : ∃ m', (m.operation fun m1 => m1.applyFullSelect cfg
      (fun j js b => describeBlock nan D J (blockKinds m1.getColWidths kinds j) js b) df.columns (some J) (some df.columns)) = some m' ∧
      m'.Shows (Frame.ofCols J (describedCols nan D J (df.named.zip kinds))) by
    obtain ⟨m', e1, e2⟩ := hs
    exact ⟨m', _, e1, rfl, e2⟩
  refine operation_shows h ?_
  intro m1 h1
  obtain ⟨rl, cw, hc, hp, hrl, hcw⟩ := h1.blocks
  have hcols : m1.getColumns = df.columns := h1.getColumns
  have hcw' := getColWidths_cut hc hp hcw
  unfold MFrame.applyFullSelect
  rw [hcols, hcw', hp, getIndexerFor_present _ _ (fun _ hx => hx), mapM_id_some, Option.bind_some, flatMap_positionsOf_self hn,
    npSort_of_pairwise List.pairwise_le_range]
  have hin : ∀ x ∈ List.range df.columns.length, x < cw.sum := by
    intro x hx
    rw [hc.cw_sum]
    simpa [Frame.ncols] using hx
  have hrne : List.range df.columns.length ≠ [] := by
    simpa using hne
  have hgood := blockDict_good hc.cw_ne (List.pairwise_le_range (n := df.columns.length)) hin false (by simp)
  have hglob := blockDict_globals (ps := List.range df.columns.length) hc.cw_ne List.pairwise_le_range
  have hdne : blockDict cw (List.range df.columns.length) ≠ [] := by
    intro h0
    rw [h0] at hglob
    exact hrne hglob.symm
  obtain ⟨lens, l1, l2, l3⟩ := applySelected_cut cfg hmr h.wf hc
    (fun j js b => describeBlock nan D J (blockKinds cw kinds j) js b) J
    (fun e => Frame.ofCols J (describedCols nan D J (takeList (df.named.zip kinds) (selGlobal cw e)))) hdne (by
      intro e he
      obtain ⟨js, hjs⟩ := blockDict_list he
      have hjne : js ≠ [] := by
        rintro rfl
        exact blockDict_sel_ne hc.cw_ne List.pairwise_le_range hrne e he (by rw [selGlobal_list hjs]; rfl)
      exact ⟨(hgood e he).lt, describe_band nan D h.wf hk J (hgood e he) hc.cw_sum hjs hjne, ofCols_wf (describedCols_sized nan D J _), rfl⟩)
  rw [l3, Option.bind_some]
  have hstack : Frame.stackCols J ((blockDict cw (List.range df.columns.length)).map fun e =>
      Frame.ofCols J (describedCols nan D J (takeList (df.named.zip kinds) (selGlobal cw e)))) =
      Frame.ofCols J (describedCols nan D J (df.named.zip kinds)) := by
    rw [stackCols_ofCols]
    congr 1
    unfold describedCols
    rw [← List.map_flatMap, ← List.flatMap_map, List.flatMap_def, List.map_map]
    have : (blockDict cw (List.range df.columns.length)).map (takeList (df.named.zip kinds) ∘ selGlobal cw)
        = ((blockDict cw (List.range df.columns.length)).map (selGlobal cw)).map (takeList (df.named.zip kinds)) := by
      rw [List.map_map]
    rw [this, ← takeList_flatten, hglob]
    have hl : (df.named.zip kinds).length = df.columns.length := by
      rw [List.length_zip, hk, ← List.length_map (f := (·.1)), named_labels]
      simp [Frame.ncols]
    rw [← hl, takeList_range]
  have hcut := stackCols_isCut J lens l1 l2 ((blockDict cw (List.range df.columns.length)).map fun e =>
      Frame.ofCols J (describedCols nan D J (takeList (df.named.zip kinds) (selGlobal cw e)))) (by simpa using hdne)
  rw [hstack] at hcut ⊢
  refine mk'_blocks (ofCols_wf (describedCols_sized nan D J _)) hcut rfl (Or.inl rfl) (Or.inl rfl) (Or.inr rfl) (Or.inr ?_)
  show some df.columns = some ((describedCols nan D J (df.named.zip kinds)).map (·.1))
  unfold describedCols
  rw [List.map_map, ← zip_labels hk]
  rfl

/-! ### `select_dtypes` -/

theorem dtypeFlag_eq [DecidableEq κ] (keep : K → Bool) {l : List (κ × K)}
    (hs : ∀ e ∈ l, ∀ e' ∈ l, e.1 = e'.1 → keep e.2 = keep e'.2) {e : κ × K} (he : e ∈ l) :
    (((l.filter fun q => decide (q.1 = e.1)).getLast?).any fun q => keep q.2) = keep e.2 := by
  have hne : l.filter (fun q => decide (q.1 = e.1)) ≠ [] := by
    intro h0
    rw [List.filter_eq_nil_iff] at h0
    exact h0 e he (by simp)
  rw [List.getLast?_eq_some_getLast hne]
  have hm := List.getLast_mem hne
  rw [List.mem_filter] at hm
  show keep _ = keep e.2
  exact hs _ hm.1 _ he (by simpa using hm.2)

theorem selectDtypes_shows [DecidableEq ι] [DecidableEq κ] (cfg : Cfg) (hp : 1 ≤ cfg.nPartitions) (hmr : 1 ≤ cfg.minRow)
    (hmc : 1 ≤ cfg.minCol) (known : Nat → Nat → Bool × Bool) (keep : K → Bool) {kinds : List K} {m : LFrame ι κ α} {df : Frame ι κ α}
    (h : m.Shows df) (hk : kinds.length = df.ncols)
    (hs : ∀ e ∈ df.columns.zip kinds, ∀ e' ∈ df.columns.zip kinds, e.1 = e'.1 → keep e.2 = keep e'.2) :
    ∃ m', m.selectDtypes cfg known keep kinds = some (m', kinds.filter keep) ∧ m'.Shows (df.selectKinds keep kinds) := by
  unfold LFrame.selectDtypes
  rw [h.getColumns]
  have hgone : ((df.columns.zip (dtypeFlags keep kinds df.columns)).filter fun e => !e.2).map (·.1) =
      df.columns.filter fun c => !((((df.columns.zip kinds).filter fun e => decide (e.1 = c)).getLast?).any fun e => keep e.2) := by
    unfold dtypeFlags
    have hz := List.zip_map' (f := id) (l := df.columns)
      (g := fun c => (((df.columns.zip kinds).filter fun e => decide (e.1 = c)).getLast?).any fun e => keep e.2)
    rw [List.map_id] at hz
    rw [hz, List.filter_map, List.map_map]
    simp [Function.comp_def]
  rw [hgone]
  generalize hG : (df.columns.filter fun c => !((((df.columns.zip kinds).filter fun e => decide (e.1 = c)).getLast?).any fun e => keep e.2)) = gone
  have hgc : ∀ e ∈ df.columns.zip kinds, (!gone.contains e.1) = keep e.2 := by
    intro e he
    have h1 := dtypeFlag_eq keep hs he
    have hc : e.1 ∈ df.columns := (List.of_mem_zip he).1
    cases hq : keep e.2 with
    | true =>
      rw [hq] at h1
      have : e.1 ∉ gone := by
        rw [← hG, List.mem_filter, h1]
        simp
      simpa using this
    | false =>
      rw [hq] at h1
      have : e.1 ∈ gone := by
        rw [← hG, List.mem_filter, h1]
        exact ⟨hc, rfl⟩
      simpa using this
  obtain ⟨m', e1, e2⟩ := dropCompiled_shows cfg hp hmr hmc known h none (some gone)
  have hsel : df.dropLabels none (some gone) = df.selectKinds keep kinds := by
    rw [dropLabels_named h.wf]
    unfold Frame.selectKinds
    congr 1
    refine filter_zip_snd keep df.named kinds (fun p => !gone.contains p.1) ?_ ?_
    · rw [hk, ← List.length_map (f := (·.1)), named_labels]; rfl
    · intro e he
      refine hgc (e.1.1, e.2) ?_
      rw [← named_labels df, List.zip_map_left]
      exact List.mem_map.2 ⟨e, he, rfl⟩
  have hkinds : ((df.columns.zip kinds).filter fun e => !gone.contains e.1).map (·.2) = kinds.filter keep := by
    have h1 : ((df.columns.zip kinds).filter fun e => !gone.contains e.1) = (df.columns.zip kinds).filter fun e => keep e.2 :=
      List.filter_congr hgc
    have h2 : ((df.columns.zip kinds).map (·.2)).filter keep = ((df.columns.zip kinds).filter fun e => keep e.2).map (·.2) := by
      rw [List.filter_map]; rfl
    rw [h1, ← h2, List.map_snd_zip (Nat.le_of_eq hk)]
  refine ⟨m', ?_, hsel ▸ e2⟩
  simp only [e1, Option.map_some, hkinds]

theorem selectKinds_columns {df : Frame ι κ α} {keep : K → Bool} {kinds : List K} :
    (df.selectKinds keep kinds).columns = ((df.columns.zip kinds).filter fun e => keep e.2).map (·.1) := by
  show (((df.named.zip kinds).filter fun e => keep e.2).map (·.1)).map (·.1) = _
  rw [← named_labels df, List.zip_map_left, List.filter_map, List.map_map, List.map_map]
  rfl

theorem selectKinds_ncols {df : Frame ι κ α} {keep : K → Bool} {kinds : List K} (hk : kinds.length = df.ncols) :
    (kinds.filter keep).length = (df.selectKinds keep kinds).ncols := by
  show _ = (df.selectKinds keep kinds).columns.length
  rw [selectKinds_columns]
  have h2 : ((df.columns.zip kinds).map (·.2)).filter keep = ((df.columns.zip kinds).filter fun e => keep e.2).map (·.2) := by
    rw [List.filter_map]; rfl
  rw [List.map_snd_zip (Nat.le_of_eq hk)] at h2
  rw [h2, List.length_map, List.length_map]

theorem selectKinds_nodup {df : Frame ι κ α} {keep : K → Bool} {kinds : List K} (hk : kinds.length = df.ncols) (hn : df.columns.Nodup) :
    (df.selectKinds keep kinds).columns.Nodup := by
  rw [selectKinds_columns]
  have h1 : (((df.columns.zip kinds).filter fun e => keep e.2).map (·.1)).Sublist ((df.columns.zip kinds).map (·.1)) :=
    List.filter_sublist.map _
  rw [List.map_fst_zip (Nat.le_of_eq hk.symm)] at h1
  exact hn.sublist h1

theorem selectKinds_all {df : Frame ι κ α} (hwf : df.WF) {kinds : List K} (hk : kinds.length = df.ncols) :
    df.selectKinds (fun _ => true) kinds = df := by
  unfold Frame.selectKinds
  rw [List.filter_eq_self.2 (fun _ _ => rfl), List.map_fst_zip, ofCols_named hwf]
  rw [hk, ← List.length_map (f := (·.1)), named_labels]
  exact Nat.le_refl _

theorem same_of_nodup [DecidableEq κ] {cs : List κ} (hn : cs.Nodup) {ks : List K} (keep : K → Bool) :
    ∀ e ∈ cs.zip ks, ∀ e' ∈ cs.zip ks, e.1 = e'.1 → keep e.2 = keep e'.2 := by
  intro e he e' he' hee
  have h1 := zip_unique hn he
  have h2 : e' ∈ (cs.zip ks).filter (fun q => decide (q.1 = e.1)) := List.mem_filter.2 ⟨he', by simp [hee]⟩
  rw [h1, List.mem_singleton] at h2
  rw [h2]

/-- the columns described, with their dtypes -/
theorem describeData_shows [DecidableEq ι] [DecidableEq κ] (cfg : Cfg) (hp : 1 ≤ cfg.nPartitions) (hmr : 1 ≤ cfg.minRow)
    (hmc : 1 ≤ cfg.minCol) (known : Nat → Nat → Bool × Bool) (isDefault : K → Bool) (of : DescribeOf K) {kinds : List K}
    {m : LFrame ι κ α} {df : Frame ι κ α} (h : m.Shows df) (hk : kinds.length = df.ncols) (hn : df.columns.Nodup) :
    ∃ m', m.describeData cfg known isDefault of kinds = some (m', kinds.filter (of.keeps isDefault kinds)) ∧
      m'.Shows (df.selectKinds (of.keeps isDefault kinds) kinds) := by
  have hall : kinds.filter (fun _ => true) = kinds := List.filter_eq_self.2 fun _ _ => rfl
  cases of with
  | all =>
    refine ⟨m, ?_, ?_⟩
    · show some (m, kinds) = some (m, kinds.filter fun _ => true)
      rw [hall]
    · show m.Shows (df.selectKinds (fun _ => true) kinds)
      rw [selectKinds_all h.wf hk]
      exact h
  | those keep => exact selectDtypes_shows cfg hp hmr hmc known keep h hk (same_of_nodup hn keep)
  | byDefault =>
    obtain ⟨m', e1, e2⟩ := selectDtypes_shows cfg hp hmr hmc known isDefault h hk (same_of_nodup hn isDefault)
    show ∃ m', ((m.selectDtypes cfg known isDefault kinds).map fun r => if r.1.getColumns = [] then (m, kinds) else r) = _ ∧ _
    rw [e1, Option.map_some, e2.getColumns]
    have hany : (df.selectKinds isDefault kinds).columns = [] ↔ kinds.any isDefault = false := by
      rw [← List.length_eq_zero_iff]
      show (df.selectKinds isDefault kinds).ncols = 0 ↔ _
      rw [← selectKinds_ncols hk, List.length_eq_zero_iff, List.filter_eq_nil_iff]
      simp
    show ∃ m' : LFrame ι κ α, _ = some (m', kinds.filter (if kinds.any isDefault then isDefault else fun _ => true)) ∧
      m'.Shows (df.selectKinds (if kinds.any isDefault then isDefault else fun _ => true) kinds)
    cases hq : kinds.any isDefault with
    | true =>
      have : ¬ (df.selectKinds isDefault kinds).columns = [] := by rw [hany, hq]; simp
      rw [if_neg this]
      exact ⟨m', rfl, e2⟩
    | false =>
      rw [if_pos (hany.2 hq)]
      simp only [Bool.false_eq_true, ↓reduceIte]
      exact ⟨m, by rw [hall], by rw [selectKinds_all h.wf hk]; exact h⟩

/-! ### lists of functions -/

/-- every block fails -/
theorem applyFullColumns_none [DecidableEq ι] [DecidableEq κ] (cfg : Cfg) {m : LFrame ι κ α} {df : Frame ι κ α} (h : m.Shows df)
    {func : Frame ι κ α → Option (Frame ι' κ' β)} (hf : ∀ b, func b = none) (newIndex : Option (List ι')) (newColumns : Option (List κ')) :
    m.applyFullColumns cfg func newIndex newColumns = none := by
  obtain ⟨m1, e1, h1⟩ := synced_spec h
  obtain ⟨rl, cw, hc, hpp, hrl, hcw⟩ := h1.blocks
  unfold LFrame.applyFullColumns
  rw [e1, Option.bind_some, hpp]
  have hno : mapAxisPartitions cfg true func (df.cut rl cw) true none none = none := by
    unfold mapAxisPartitions
    rw [if_neg (by simp)]
    simp only [↓reduceIte]
    rw [colBlocks_cut hc.rl_ne]
    obtain ⟨q, t, hq⟩ := List.exists_cons_of_ne_nil (sliceBounds_ne_nil hc.cw_ne)
    rw [hq, List.map_cons, List.mapM_cons]
    unfold deployAxisFunc
    simp [hf]
  rw [hno, Option.bind_none]

theorem applyFullLines_none [DecidableEq ι] [DecidableEq κ] (cfg : Cfg) {m : LFrame ι κ α} {df : Frame ι κ α} (h : m.Shows df)
    {func : Frame ι κ α → Option (Frame ι' κ' β)} (hf : ∀ b, func b = none) (newIndex : Option (List ι')) (newColumns : Option (List κ')) :
    m.applyFullLines cfg func newIndex newColumns = none := by
  obtain ⟨m1, e1, h1⟩ := synced_spec h
  obtain ⟨rl, cw, hc, hpp, hrl, hcw⟩ := h1.blocks
  unfold LFrame.applyFullLines
  rw [e1, Option.bind_some, hpp]
  have hno : mapAxisPartitions cfg false func (df.cut rl cw) true none none = none := by
    unfold mapAxisPartitions
    rw [if_neg (by simp)]
    simp only [Bool.false_eq_true, ↓reduceIte]
    unfold Frame.cut
    obtain ⟨q, t, hq⟩ := List.exists_cons_of_ne_nil (sliceBounds_ne_nil hc.rl_ne)
    rw [hq, List.map_cons, List.mapM_cons]
    unfold deployAxisFunc
    simp [hf]
  rw [hno, Option.bind_none]

/-- the table of reductions -/
def reductionTable (gs : List (L × (List α → α))) (df : Frame ι L α) : Frame L L α :=
  Frame.ofCols (gs.map (·.1)) (df.named.map fun c => (c.1, gs.map fun g => g.2 c.2))

theorem reductionTable_sized (gs : List (L × (List α → α))) (cs : List (L × List α)) :
    Sized (gs.map (·.1)).length (cs.map fun c => (c.1, gs.map fun g => g.2 c.2)) := by
  intro c hc
  obtain ⟨e, _, rfl⟩ := List.mem_map.1 hc
  simp

theorem reductionTable_local [DecidableEq ι] [DecidableEq L] (gs : List (L × (List α → α))) :
    ColumnLocal (reductionTable (ι := ι) gs) := by
  refine ⟨fun f _ => ofCols_wf (reductionTable_sized gs f.named), fun fs f hwf h => ?_⟩
  obtain ⟨hne, _⟩ := Frame.hcat_index h
  have hn := named_hcat hwf h
  unfold reductionTable
  rw [Frame.hcat_eq (r := gs.map (·.1)) (by simpa using hne) (by
    intro x hx
    obtain ⟨b, _, rfl⟩ := List.mem_map.1 hx
    rfl)]
  show some (Frame.stackCols (gs.map (·.1)) _) = _
  rw [stackCols_ofCols (gs.map (·.1)) (fun b : Frame ι L α => b.named.map fun c => (c.1, gs.map fun g => g.2 c.2)) fs, hn, List.map_flatten, List.map_map,
    List.flatMap_def]
  rfl

theorem reductionTable_ilocCols {df : Frame ι L α} (hwf : df.WF) (gs : List (L × (List α → α))) (a b : Nat) :
    reductionTable gs (df.ilocCols a b) = (reductionTable gs df).ilocCols a b := by
  have h1 := ofCols_wf (reductionTable_sized gs df.named)
  unfold reductionTable
  rw [← ofCols_named (h1.ilocCols a b), named_ilocCols h1, named_ofCols (reductionTable_sized gs df.named), named_ilocCols hwf, pySlice_map]
  rfl

theorem applyList_reduces [DecidableEq L] (pair : L → L → L) {gs : List (L × (List α → α))} (hne : gs ≠ []) (hn : (gs.map (·.1)).Nodup)
    (df : Frame L L α) : df.applyList pair (gs.map fun g => (g.1, .reduces g.2)) = some (reductionTable gs df) := by
  unfold Frame.applyList
  have h1 : (gs.map fun g => (g.1, ColFn.reduces g.2)).map (·.1) = gs.map (·.1) := by rw [List.map_map]; rfl
  rw [h1, if_neg (by simp [hne, hn])]
  have h2 : ((gs.map fun g => (g.1, ColFn.reduces g.2)).mapM fun (f : L × ColFn α) => f.2.reduction.map fun g => (f.1, g)) = some gs := by
    rw [List.mapM_map]
    rw [mapM_congr_some (g := id)]
    · rw [List.map_id]
    · intro e _; rfl
  rw [h2]
  rfl

theorem applyList_shows [DecidableEq L] (cfg : Cfg) (hp : 1 ≤ cfg.nPartitions) (hmr : 1 ≤ cfg.minRow) (pair : L → L → L)
    {gs : List (L × (List α → α))} (hne : gs ≠ []) (hn : (gs.map (·.1)).Nodup) {m : LFrame L L α} {df : Frame L L α} (h : m.Shows df) :
    ∃ m', m.applyList cfg pair (gs.map fun g => (g.1, .reduces g.2)) = some m' ∧ m'.Shows (reductionTable gs df) := by
  unfold LFrame.applyList
  rw [h.getColumns]
  have hc : (reductionTable gs df).columns = df.columns := by
    show (df.named.map fun c => (c.1, gs.map fun g => g.2 c.2)).map (·.1) = _
    rw [List.map_map, ← named_labels df]
    rfl
  have h1 : (gs.map fun g => (g.1, ColFn.reduces g.2)).map (·.1) = (reductionTable gs df).index := by rw [List.map_map]; rfl
  rw [h1, ← hc]
  exact applyFullColumns_shows cfg hp hmr h (reductionTable_local gs) (reductionTable_ilocCols h.wf gs)
    (fun a b => applyList_reduces pair hne hn _) (congrArg List.length hc)

theorem applyListRows_shows [DecidableEq L] (cfg : Cfg) (hp : 1 ≤ cfg.nPartitions) (hmc : 1 ≤ cfg.minCol)
    {gs : List (L × (List α → α))} (hne : gs ≠ []) (hn : (gs.map (·.1)).Nodup) {m : LFrame L L α} {df : Frame L L α} (h : m.Shows df) :
    ∃ m' r, m.applyListRows cfg gs = some m' ∧ df.applyListRows gs = some r ∧ m'.Shows r := by
  have heq : ∀ f : Frame L L α, f.applyListRows gs = some (f.mapRows (fun _ => gs.map (·.1)) fun r => gs.map fun g => g.2 r) := by
    intro f
    unfold Frame.applyListRows
    rw [if_neg (by simp [hne, hn])]
    rfl
  unfold LFrame.applyListRows
  rw [h.getIndex]
  obtain ⟨m', e1, e2⟩ := applyFullLines_shows (F := fun f : Frame L L α => f.mapRows (fun _ => gs.map (·.1)) fun r => gs.map fun g => g.2 r)
    (func := Frame.applyListRows gs) cfg hp hmc h (rowLocal_mapRows _ _ (by intro cs r _; simp)) (fun a b => Frame.mapRows_ilocRows _ _ _ a b)
    (fun a b => heq _) rfl
  exact ⟨m', _, e1, heq df, e2⟩

/-! ### dictionaries of functions -/

/-- the columns named by a dictionary of transformations -/
def dictCols [DecidableEq L] (gs : List (L × (List α → List α))) (cs : List (L × List α)) : List (L × List α) :=
  gs.flatMap fun e => (cs.filter fun c => decide (c.1 = e.1)).map fun c => (c.1, e.2 c.2)

theorem dictCols_sized [DecidableEq L] {gs : List (L × (List α → List α))} (hg : ∀ g ∈ gs, ∀ l, (g.2 l).length = l.length) {n : Nat}
    {cs : List (L × List α)} (h : Sized n cs) : Sized n (dictCols gs cs) := by
  intro c hc
  obtain ⟨e, he, hc⟩ := List.mem_flatMap.1 hc
  obtain ⟨p, hp, rfl⟩ := List.mem_map.1 hc
  show (e.2 p.2).length = n
  rw [hg e he, h p (List.mem_filter.1 hp).1]

theorem dictCols_labels [DecidableEq L] {gs : List (L × (List α → List α))} {cs : List (L × List α)} (hn : (cs.map (·.1)).Nodup)
    (hk : ∀ g ∈ gs, g.1 ∈ cs.map (·.1)) : (dictCols gs cs).map (·.1) = gs.map (·.1) := by
  unfold dictCols
  induction gs with
  | nil => rfl
  | cons g gs ih =>
    rw [List.flatMap_cons, List.map_append, ih fun x hx => hk x (List.mem_cons_of_mem _ hx)]
    obtain ⟨p, hp, hpe⟩ := List.mem_map.1 (hk g (by simp))
    rw [← hpe, unique_of_nodup hn hp]
    simp [hpe]

theorem applyDict_keeps [DecidableEq L] (zero : L) {gs : List (L × (List α → List α))} (hne : gs ≠ []) {df : Frame L L α}
    (hk : ∀ g ∈ gs, g.1 ∈ df.columns) : df.applyDict zero (gs.map fun g => (g.1, .keeps g.2)) = some (Frame.ofCols df.index (dictCols gs df.named)) := by
  unfold Frame.applyDict
  rw [if_neg (by
    simp only [List.isEmpty_map, List.isEmpty_iff, hne, false_or, Classical.not_not]
    intro e he
    obtain ⟨g, hg, rfl⟩ := List.mem_map.1 he
    exact hk g hg)]
  have hch : ((gs.map fun g => (g.1, ColFn.keeps g.2)).flatMap fun e => (df.named.filter fun c => decide (c.1 = e.1)).map fun c => (c, e.2)) =
      gs.flatMap fun g => (df.named.filter fun c => decide (c.1 = g.1)).map fun c => (c, ColFn.keeps g.2) := by
    rw [List.flatMap_map]
  simp only [hch]
  have h1 : ((gs.flatMap fun g => (df.named.filter fun c => decide (c.1 = g.1)).map fun c => (c, ColFn.keeps g.2)).mapM
      fun (e : (L × List α) × ColFn α) => e.2.reduction.map fun g => (e.1.1, g e.1.2)) = none := by
    obtain ⟨g, t, rfl⟩ := List.exists_cons_of_ne_nil hne
    have := hk g (by simp)
    rw [← named_labels df] at this
    obtain ⟨p, hp, hpe⟩ := List.mem_map.1 this
    refine mapM_mem_none (x := (p, ColFn.keeps g.2)) ?_ rfl
    rw [List.flatMap_cons, List.mem_append]
    left
    exact List.mem_map.2 ⟨p, List.mem_filter.2 ⟨hp, by simpa using hpe⟩, rfl⟩
  rw [h1]
  show Option.map _ _ = _
  rw [mapM_congr_some (g := fun e : (L × List α) × ColFn α => (e.1.1, (e.2.transformation.getD id) e.1.2))]
  · rw [Option.map_some]
    congr 2
    unfold dictCols
    rw [List.map_flatMap]
    apply flatMap_congr_mem
    intro g _
    rw [List.map_map]
    rfl
  · intro e he
    obtain ⟨g, _, he⟩ := List.mem_flatMap.1 he
    obtain ⟨c, _, rfl⟩ := List.mem_map.1 he
    rfl

theorem applyDict_missing [DecidableEq L] (zero : L) {d : List (L × ColFn α)} {df : Frame L L α} (h : ¬ ∀ e ∈ d, e.1 ∈ df.columns) :
    df.applyDict zero d = none := by
  unfold Frame.applyDict
  rw [if_pos (Or.inr h)]

theorem keys_positions [DecidableEq κ] {columns keys : List κ} (hk : ∀ k ∈ keys, k ∈ columns) :
    ((getIndexerFor columns keys).mapM id) = some (keys.flatMap (positionsOf columns)) := by
  rw [getIndexerFor_present _ _ hk, mapM_id_some]

theorem keys_sorted_ne [DecidableEq κ] {columns keys : List κ} (hkne : keys ≠ []) (hk : ∀ k ∈ keys, k ∈ columns) :
    npSort (keys.flatMap (positionsOf columns)) ≠ [] := by
  intro h0
  obtain ⟨k, hkm⟩ := List.exists_mem_of_ne_nil _ hkne
  obtain ⟨i, hi, hik⟩ := List.getElem_of_mem (hk k hkm)
  have h1 : i ∈ keys.flatMap (positionsOf columns) :=
    List.mem_flatMap.2 ⟨k, hkm, mem_positionsOf.2 (by rw [List.getElem?_eq_getElem hi, hik])⟩
  rw [← (npSort_perm _).mem_iff, h0] at h1
  simp at h1

/-- all keys are in one block column: it is the only one that is selected -/
theorem blockDict_one [DecidableEq κ] {df : Frame ι κ α} {cw : List Nat} (hne : cw ≠ []) (hcw : cw.sum = df.ncols) (hn : df.columns.Nodup)
    {keys : List κ} (hkne : keys ≠ []) {j : Nat} (hj : j < cw.length) (hk : ∀ k ∈ keys, k ∈ (colBand cw df j).columns) :
    ∃ s, blockDict cw (npSort (keys.flatMap (positionsOf df.columns))) = [(j, s)] := by
  have hs := npSort_pairwise (keys.flatMap (positionsOf df.columns))
  have hpos : ∀ x ∈ npSort (keys.flatMap (positionsOf df.columns)), digitize (innerEdges cw) x = j := by
    intro x hx
    have hx := (npSort_perm _).mem_iff.1 hx
    obtain ⟨k, hkm, hx⟩ := List.mem_flatMap.1 hx
    rw [mem_positionsOf] at hx
    obtain ⟨hx1, hx2⟩ := List.getElem?_eq_some_iff.1 hx
    obtain ⟨i, hi, hik⟩ := List.getElem_of_mem (hk k hkm)
    have hi' : i < (pySlice df.columns (off cw j) (off cw (j + 1))).length := hi
    have hik' : (pySlice df.columns (off cw j) (off cw (j + 1)))[i]'hi' = k := hik
    have hb := off_le_sum cw (j + 1)
    have hm := off_mono cw (Nat.le_succ j)
    have hlen : i < off cw (j + 1) - off cw j ∧ off cw j + i < df.columns.length := by
      simp only [pySlice, List.length_take, List.length_drop] at hi'
      omega
    have hge : df.columns[off cw j + i]'hlen.2 = k := by
      rw [← hik']
      simp [pySlice]
    have hxe : x = off cw j + i := (List.getElem_inj hn).1 (hx2.trans hge.symm)
    obtain ⟨d1, d2, d3⟩ := digitize_spec hne x
    have hxs : x < cw.sum := by rw [hcw]; exact hx1
    have d3' := d3 hxs
    generalize digitize (innerEdges cw) x = t at d1 d2 d3'
    have hjt : ¬ j + 1 ≤ t := by
      intro hle
      have := off_mono cw hle
      omega
    have htj : ¬ t + 1 ≤ j := by
      intro hle
      have := off_mono cw hle
      omega
    omega
  have hpne : npSort (keys.flatMap (positionsOf df.columns)) ≠ [] := by
    refine keys_sorted_ne hkne fun k hkm => ?_
    have := hk k hkm
    exact List.mem_of_mem_drop (List.mem_of_mem_take this)
  generalize npSort (keys.flatMap (positionsOf df.columns)) = ps at *
  have hmem : ∀ e ∈ blockDict cw ps, e.1 = j := by
    intro e he
    obtain ⟨_, ⟨x, hx, hxe⟩, _⟩ := (mem_blockDict hne hs hpne e).1 he
    rw [← hxe, hpos x hx]
  have hord := blockDict_ordered cw ps
  have hglob := blockDict_globals hne hs
  match hb : blockDict cw ps with
  | [] => rw [hb] at hglob; exact absurd hglob.symm hpne
  | [e] =>
    rw [hb] at hmem
    exact ⟨e.2, by rw [← hmem e (by simp)]⟩
  | a :: b :: r =>
    rw [hb] at hmem hord
    have h1 := hmem a (by simp)
    have h2 := hmem b (by simp)
    simp only [List.pairwise_cons] at hord
    have := hord.1 b (by simp)
    omega

theorem dictCols_band [DecidableEq L] {df : Frame L L α} (hwf : df.WF) (hn : df.columns.Nodup) {cw : List Nat} {j : Nat}
    {gs : List (L × (List α → List α))} (hk : ∀ g ∈ gs, g.1 ∈ (colBand cw df j).columns) :
    dictCols gs (colBand cw df j).named = dictCols gs df.named := by
  unfold dictCols
  apply flatMap_congr_mem
  intro g hg
  congr 1
  have h1 := hk g hg
  rw [← named_labels] at h1
  obtain ⟨p, hp, hpe⟩ := List.mem_map.1 h1
  have hp' : p ∈ df.named := by
    rw [colBand_named hwf] at hp
    exact List.mem_of_mem_drop (List.mem_of_mem_take hp)
  have hn1 : ((colBand cw df j).named.map (·.1)).Nodup := by
    rw [named_labels]
    exact hn.sublist (((List.take_sublist _ _).trans (List.drop_sublist _ _)))
  rw [← hpe, unique_of_nodup hn1 hp, unique_of_nodup (by rw [named_labels]; exact hn) hp']

theorem applyDict_represents [DecidableEq L] (cfg : Cfg) (hmr : 1 ≤ cfg.minRow) (zero : L) {gs : List (L × (List α → List α))}
    (hne : gs ≠ []) (hg : ∀ g ∈ gs, ∀ l, (g.2 l).length = l.length) {m1 : MFrame L L α} {df : Frame L L α} (h1 : m1.Represents df)
    (hn : df.columns.Nodup) (hone : ∃ b ∈ m1.parts.headD [], ∀ g ∈ gs, g.1 ∈ b.columns) :
    ∃ m', m1.applyFullSelect cfg (fun _ _ b => b.applyDict zero (gs.map fun g => (g.1, .keeps g.2)))
        ((gs.map fun g => (g.1, ColFn.keeps g.2)).map (·.1)) none (some ((gs.map fun g => (g.1, ColFn.keeps g.2)).map (·.1))) = some m' ∧
      m'.Represents (Frame.ofCols df.index (dictCols gs df.named)) := by
  obtain ⟨rl, cw, hc, hp, hrl, hcw⟩ := h1.blocks
  have hkeys : (gs.map fun g => (g.1, ColFn.keeps g.2)).map (·.1) = gs.map (·.1) := by rw [List.map_map]; rfl
  rw [hkeys]
  obtain ⟨b, hb, hbk⟩ := hone
  have hj : ∃ j, j < cw.length ∧ ∀ g ∈ gs, g.1 ∈ (colBand cw df j).columns := by
    rw [hp] at hb
    unfold Frame.cut at hb
    obtain ⟨q, t, hq⟩ := List.exists_cons_of_ne_nil (sliceBounds_ne_nil hc.rl_ne)
    rw [hq, List.map_cons, List.headD_cons, List.mem_map] at hb
    obtain ⟨r, hr, rfl⟩ := hb
    obtain ⟨j, hj, hrj⟩ := List.getElem_of_mem hr
    have hj' : j < cw.length := by simpa [sliceBounds_length] using hj
    have h2 := sliceBounds_getElem? hj'
    rw [List.getElem?_eq_getElem hj, hrj] at h2
    simp only [Option.some.injEq] at h2
    refine ⟨j, hj', fun g hgm => ?_⟩
    have := hbk g hgm
    rw [h2] at this
    exact this
  obtain ⟨j, hj, hjk⟩ := hj
  have hkc : ∀ k ∈ gs.map (·.1), k ∈ df.columns := by
    intro k hk
    obtain ⟨g, hgm, rfl⟩ := List.mem_map.1 hk
    have := hjk g hgm
    exact List.mem_of_mem_drop (List.mem_of_mem_take this)
  obtain ⟨s, hs⟩ := blockDict_one hc.cw_ne hc.cw_sum hn (keys := gs.map (·.1)) (by simpa using hne) hj (by
    intro k hk
    obtain ⟨g, hgm, rfl⟩ := List.mem_map.1 hk
    exact hjk g hgm)
  unfold MFrame.applyFullSelect
  rw [h1.getColumns, getColWidths_cut hc hp hcw, hp, keys_positions hkc, Option.bind_some, hs]
  have hsz : Sized df.index.length (dictCols gs df.named) := dictCols_sized hg (Frame.named_sized h1.wf)
  obtain ⟨lens, l1, l2, l3⟩ := applySelected_cut cfg hmr h1.wf hc
    (fun _ _ b => b.applyDict zero (gs.map fun g => (g.1, .keeps g.2))) df.index
    (fun _ => Frame.ofCols df.index (dictCols gs df.named)) (d := [(j, s)]) (by simp) (by
      intro e he
      obtain rfl : e = (j, s) := by simpa using he
      refine ⟨hj, ?_, ofCols_wf hsz, rfl⟩
      show (colBand cw df j).applyDict zero _ = _
      rw [applyDict_keeps zero hne hjk, dictCols_band h1.wf hn hjk]
      rfl)
  rw [l3, Option.bind_some]
  have hstack : Frame.stackCols df.index ([(j, s)].map fun _ => Frame.ofCols df.index (dictCols gs df.named)) =
      Frame.ofCols df.index (dictCols gs df.named) := by
    rw [stackCols_ofCols df.index (fun _ : Nat × BlockSel => dictCols gs df.named)]
    simp
  have hcut := stackCols_isCut df.index lens l1 l2 ([(j, s)].map fun _ => Frame.ofCols df.index (dictCols gs df.named)) (by simp)
  rw [hstack] at hcut ⊢
  refine mk'_blocks (ofCols_wf hsz) hcut rfl (Or.inl rfl) (Or.inl rfl) (Or.inl rfl) (Or.inr ?_)
  show some _ = some ((dictCols gs df.named).map (·.1))
  rw [dictCols_labels (by rw [named_labels]; exact hn) (by
    intro g hgm
    rw [named_labels]
    exact hkc _ (List.mem_map_of_mem hgm))]

theorem applyDict_refused [DecidableEq L] (cfg : Cfg) (zero : L) {d : List (L × ColFn α)} (hne : d ≠ []) {m1 : MFrame L L α}
    {df : Frame L L α} (h1 : m1.Represents df) (hone : ¬ ∃ b ∈ m1.parts.headD [], ∀ e ∈ d, e.1 ∈ b.columns) :
    m1.applyFullSelect cfg (fun _ _ b => b.applyDict zero d) (d.map (·.1)) none (some (d.map (·.1))) = none := by
  obtain ⟨rl, cw, hc, hp, hrl, hcw⟩ := h1.blocks
  have hband : ∀ j, j < cw.length → ¬ ∀ e ∈ d, e.1 ∈ (colBand cw df j).columns := by
    intro j hj hall
    apply hone
    rw [hp]
    unfold Frame.cut
    obtain ⟨q, t, hq⟩ := List.exists_cons_of_ne_nil (sliceBounds_ne_nil hc.rl_ne)
    rw [hq, List.map_cons, List.headD_cons]
    exact ⟨(df.ilocRows q.1 q.2).ilocCols (off cw j) (off cw (j + 1)),
      List.mem_map.2 ⟨(off cw j, off cw (j + 1)), List.mem_of_getElem? (sliceBounds_getElem? hj), rfl⟩, hall⟩
  unfold MFrame.applyFullSelect
  rw [h1.getColumns, getColWidths_cut hc hp hcw, hp]
  by_cases hkc : ∀ k ∈ d.map (·.1), k ∈ df.columns
  · rw [keys_positions hkc, Option.bind_some]
    have hkne := keys_sorted_ne (columns := df.columns) (keys := d.map (·.1)) (by simpa using hne) hkc
    have hs := npSort_pairwise ((d.map (·.1)).flatMap (positionsOf df.columns))
    generalize npSort ((d.map (·.1)).flatMap (positionsOf df.columns)) = ps at hkne hs
    have hglob := blockDict_globals hc.cw_ne hs
    have hno : applySelected cfg (fun _ _ b => b.applyDict zero d) (blockDict cw ps) (df.cut rl cw) = none := by
      unfold applySelected
      obtain ⟨e, t, he⟩ := List.exists_cons_of_ne_nil (l := blockDict cw ps) (by
        intro h0
        rw [h0] at hglob
        exact hkne hglob.symm)
      have hlt := ((mem_blockDict hc.cw_ne hs hkne e).1 (by rw [he]; simp)).1
      rw [mapM_mem_none (x := e) (by rw [he]; simp)]
      · rfl
      · rw [colBlocks_cut hc.rl_ne, List.getElem?_map, sliceBounds_getElem? hlt, Option.map_some, Option.bind_some]
        have hv0 : ((sliceBounds rl).map fun p => (df.ilocRows p.1 p.2).ilocCols (off cw e.1) (off cw (e.1 + 1))) =
            (sliceBounds rl).map fun p => (colBand cw df e.1).ilocRows p.1 p.2 := by
          apply List.map_congr_left
          intro p _
          exact ilocRows_ilocCols df _ _ _ _
        rw [hv0]
        have hcov : Covers (sliceBounds rl) (colBand cw df e.1).nrows := by
          show Covers (sliceBounds rl) df.nrows
          rw [← hc.rl_sum]
          exact covers_lens rl
        have hv : Frame.vcat ((sliceBounds rl).map fun p => (colBand cw df e.1).ilocRows p.1 p.2) = some (colBand cw df e.1) :=
          Frame.vcat_ilocRows (h1.wf.ilocCols _ _) (sliceBounds_ne_nil hc.rl_ne) hcov
        unfold deployAxisFunc
        simp only [axisConcat, ↓reduceIte, hv, Option.bind_eq_bind, Option.bind_some, applyDict_missing zero (hband e.1 hlt), Option.bind_none]
    rw [hno, Option.bind_none]
  · have : none ∈ getIndexerFor df.columns (d.map (·.1)) := by
      have : ∃ k ∈ d.map (·.1), k ∉ df.columns := by
        apply Classical.byContradiction
        intro hcon
        apply hkc
        intro k hk
        apply Classical.byContradiction
        intro hk'
        exact hcon ⟨k, hk, hk'⟩
      obtain ⟨k, hk, hkn⟩ := this
      unfold getIndexerFor
      refine List.mem_flatMap.2 ⟨k, hk, ?_⟩
      have he : ((List.range df.columns.length).filter fun p => df.columns[p]? == some k) = [] := by
        rw [List.filter_eq_nil_iff]
        intro p _ hpk
        have : df.columns[p]? = some k := by simpa using hpk
        exact hkn (List.mem_of_getElem? this)
      simp [he]
    rw [mapM_id_none this, Option.bind_none]
