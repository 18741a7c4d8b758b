import Verif.Model.GroupAgg
import Verif.Lemmas.Dropna
import Verif.Lemmas.Relabel
import Verif.Lemmas.GroupBy
import Verif.Lemmas.Fillna
import Verif.Lemmas.Merge
import Verif.Lemmas.Insert

variable {ι ι' κ ℓ α β κ' : Type}

theorem flatMap_congr_mem {A B : Type} {f g : A → List B} : ∀ {l : List A}, (∀ x ∈ l, f x = g x) → l.flatMap f = l.flatMap g := by
  intro l
  induction l with
  | nil => intro _; rfl
  | cons a l ih =>
    intro h
    rw [List.flatMap_cons, List.flatMap_cons, h a (by simp), ih fun x hx => h x (by simp [hx])]

/-! ### frames as lists of labelled columns -/

theorem getElem?_filterMap_total {A B : Type} {g : A → Option B} : ∀ {l : List A}, (∀ x ∈ l, (g x).isSome) → ∀ p : Nat,
    (l.filterMap g)[p]? = l[p]?.bind g := by
  intro l
  induction l with
  | nil => intro _ p; simp
  | cons a l ih =>
    intro h p
    obtain ⟨y, hy⟩ := Option.isSome_iff_exists.1 (h a (by simp))
    rw [List.filterMap_cons_some hy]
    cases p with
    | zero => simp [hy]
    | succ p => simp only [List.getElem?_cons_succ]; exact ih (fun x hx => h x (by simp [hx])) p

theorem takeList_filterMap {A B : Type} {g : A → Option B} {l : List A} (h : ∀ x ∈ l, (g x).isSome) (ps : List Nat) :
    takeList (l.filterMap g) ps = (takeList l ps).filterMap g := by
  unfold takeList
  rw [List.filterMap_filterMap]
  apply filterMap_congr_mem
  intro p _
  exact getElem?_filterMap_total h p

theorem zip_filterMap_keep {A B : Type} (p : κ → Bool) (lab : A → κ) {g : A → Option B} : ∀ {l : List A}, (∀ x ∈ l, (g x).isSome) →
    ((((l.map lab).zip (l.filterMap g)).filter fun x => !p x.1).map (·.2)) = (l.filter fun a => !p (lab a)).filterMap g := by
  intro l
  induction l with
  | nil => intro _; rfl
  | cons a l ih =>
    intro h
    obtain ⟨y, hy⟩ := Option.isSome_iff_exists.1 (h a (by simp))
    have := ih fun x hx => h x (by simp [hx])
    rw [List.filterMap_cons_some hy, List.map_cons, List.zip_cons_cons]
    cases hp : p (lab a) with
    | true => simp [List.filter_cons, hp, this]
    | false => simp [List.filter_cons, hp, this, hy]

/-- all columns have one cell per row -/
def Sized (n : Nat) (cs : List (κ × List α)) : Prop := ∀ c ∈ cs, c.2.length = n

theorem Sized.some {n : Nat} {cs : List (κ × List α)} (h : Sized n cs) {i : Nat} (hi : i < n) : ∀ c ∈ cs, (c.2[i]?).isSome := by
  intro c hc
  simp [h c hc, hi]

theorem ofCols_wf {I : List ι} {cs : List (κ × List α)} (h : Sized I.length cs) : (Frame.ofCols I cs).WF := by
  constructor
  · simp [Frame.ofCols]
  · intro r hr
    simp only [Frame.ofCols, List.mem_map, List.mem_range] at hr ⊢
    obtain ⟨i, hi, rfl⟩ := hr
    rw [filterMap_length_of_some _ _ (h.some hi), List.length_map]

theorem Frame.named_sized {df : Frame ι κ α} (h : df.WF) : Sized df.index.length df.named := by
  intro c hc
  have hc := (List.of_mem_zip hc).2
  simp only [Frame.cols, List.mem_map, List.mem_range] at hc
  obtain ⟨j, hj, e⟩ := hc
  rw [← e, h.column_length hj, Frame.nrows]

theorem named_labels (df : Frame ι κ α) : df.named.map (·.1) = df.columns := by
  unfold Frame.named
  rw [List.map_fst_zip (Nat.le_of_eq df.cols_len)]

theorem named_cells (df : Frame ι κ α) : df.named.map (·.2) = df.cols := by
  unfold Frame.named
  rw [List.map_snd_zip (Nat.le_of_eq df.cols_len.symm)]

theorem ofCols_named {df : Frame ι κ α} (h : df.WF) : Frame.ofCols df.index df.named = df := by
  unfold Frame.ofCols
  rw [named_labels]
  have : ((List.range df.index.length).map fun i => df.named.filterMap (·.2[i]?)) = df.rows := by
    apply List.ext_getElem?
    intro i
    rw [List.getElem?_map]
    by_cases hi : i < df.index.length
    · rw [List.getElem?_range hi]
      have hi' : i < df.rows.length := by rw [h.rows_len]; exact hi
      rw [Option.map_some, List.getElem?_eq_getElem hi']
      congr 1
      have e1 : df.named.filterMap (·.2[i]?) = df.cols.filterMap (·[i]?) := by
        rw [← named_cells df, List.filterMap_map]; rfl
      have e2 : df.cols.filterMap (·[i]?) = (List.range df.ncols).filterMap fun j => df.rows[i][j]? := by
        unfold Frame.cols
        rw [List.filterMap_map]
        apply filterMap_congr_mem
        intro j hj
        simp only [Function.comp]
        rw [h.column_getElem? (List.mem_range.1 hj), List.getElem?_eq_getElem hi', Option.bind_some]
      rw [e1, e2]
      have hw : df.ncols = df.rows[i].length := (h.row_width _ (List.getElem_mem hi')).symm
      rw [hw]
      exact takeList_range _
    · rw [List.getElem?_eq_none (by simpa using hi), Option.map_none, List.getElem?_eq_none (by rw [h.rows_len]; exact Nat.le_of_not_lt hi)]
  rw [this]

theorem named_ofCols {I : List ι} {cs : List (κ × List α)} (h : Sized I.length cs) : (Frame.ofCols I cs).named = cs := by
  have hc : (Frame.ofCols I cs).cols = cs.map (·.2) := by
    apply List.ext_getElem?
    intro j
    unfold Frame.cols
    rw [List.getElem?_map, List.getElem?_map]
    have hn : (Frame.ofCols I cs).ncols = cs.length := by simp [Frame.ofCols, Frame.ncols]
    rw [hn]
    by_cases hj : j < cs.length
    · rw [List.getElem?_range hj, List.getElem?_eq_getElem hj, Option.map_some, Option.map_some]
      congr 1
      unfold Frame.column Frame.ofCols
      rw [List.filterMap_map]
      have : (List.range I.length).filterMap ((fun r : List α => r[j]?) ∘ fun i => cs.filterMap (·.2[i]?)) =
          (List.range cs[j].2.length).filterMap fun i => cs[j].2[i]? := by
        rw [h _ (List.getElem_mem hj)]
        apply filterMap_congr_mem
        intro i hi
        simp only [Function.comp]
        rw [getElem?_filterMap_total (h.some (List.mem_range.1 hi)), List.getElem?_eq_getElem hj, Option.bind_some]
      rw [this]
      exact takeList_range _
    · rw [List.getElem?_eq_none (by simpa using hj), List.getElem?_eq_none (Nat.le_of_not_lt hj)]
      rfl
  unfold Frame.named
  rw [hc]
  simp only [Frame.ofCols]
  rw [List.zip_map']
  simp

theorem ofCols_withoutCols {I : List ι} {cs : List (κ × List α)} (h : Sized I.length cs) (p : κ → Bool) :
    (Frame.ofCols I cs).withoutCols p = Frame.ofCols I (cs.filter fun c => !p c.1) := by
  unfold Frame.withoutCols Frame.ofCols
  simp only [Frame.mk.injEq, true_and]
  refine ⟨by rw [List.filter_map]; rfl, ?_⟩
  rw [List.map_map]
  apply List.map_congr_left
  intro i hi
  exact zip_filterMap_keep p (·.1) (h.some (List.mem_range.1 hi))

theorem ofCols_takeCols {I : List ι} {cs : List (κ × List α)} (h : Sized I.length cs) (ps : List Nat) :
    (Frame.ofCols I cs).takeCols ps = Frame.ofCols I (takeList cs ps) := by
  unfold Frame.takeCols Frame.ofCols
  simp only [Frame.mk.injEq, true_and]
  refine ⟨by simp [takeList, List.map_filterMap], ?_⟩
  rw [List.map_map]
  apply List.map_congr_left
  intro i hi
  exact takeList_filterMap (h.some (List.mem_range.1 hi)) ps

theorem Sized.filter {n : Nat} {cs : List (κ × List α)} (h : Sized n cs) (p : κ × List α → Bool) : Sized n (cs.filter p) :=
  fun c hc => h c (List.mem_filter.1 hc).1

theorem Sized.takeList {n : Nat} {cs : List (κ × List α)} (h : Sized n cs) (ps : List Nat) : Sized n (takeList cs ps) := by
  intro c hc
  unfold _root_.takeList at hc
  obtain ⟨p, _, e⟩ := List.mem_filterMap.1 hc
  exact h c (List.mem_of_getElem? e)

theorem named_withoutCols {df : Frame ι κ α} (h : df.WF) (p : κ → Bool) : (df.withoutCols p).named = df.named.filter fun c => !p c.1 := by
  conv => lhs; rw [← ofCols_named h]
  rw [ofCols_withoutCols (Frame.named_sized h), named_ofCols ((Frame.named_sized h).filter _)]

theorem named_takeCols {df : Frame ι κ α} (h : df.WF) (ps : List Nat) : (df.takeCols ps).named = takeList df.named ps := by
  conv => lhs; rw [← ofCols_named h]
  rw [ofCols_takeCols (Frame.named_sized h), named_ofCols ((Frame.named_sized h).takeList _)]

theorem named_ilocCols {df : Frame ι κ α} (h : df.WF) (a b : Nat) : (df.ilocCols a b).named = pySlice df.named a b := by
  unfold Frame.named
  rw [h.cols_ilocCols, pySlice_zip]
  rfl

theorem named_hcat [DecidableEq ι] {bs : List (Frame ι κ α)} {f : Frame ι κ α} (hwf : ∀ b ∈ bs, b.WF) (h : Frame.hcat bs = some f) :
    f.named = (bs.map (·.named)).flatten := by
  obtain ⟨hne, hidx⟩ := Frame.hcat_index h
  have hcols := Frame.cols_hcat hwf h
  rw [Frame.hcat_eq hne hidx] at h
  simp only [Option.some.injEq] at h
  have hcc : f.columns = (bs.map (·.columns)).flatten := by rw [← h]
  unfold Frame.named
  rw [hcols, hcc, zip_flatten_pairs _ _ _ fun b _ => b.cols_len]

/-- the columns with the label, picked by position -/
theorem takeList_positions {A : Type} [DecidableEq κ] (lab : A → κ) (l : List A) (c : κ) :
    takeList l (positionsOf (l.map lab) c) = l.filter fun a => decide (lab a = c) := by
  have key : ∀ (s : Nat) (pre : List A), pre.length = s → ∀ l : List A,
      takeList (pre ++ l) ((List.range' s l.length).filter fun p => ((pre ++ l).map lab)[p]? == some c) =
        l.filter fun a => decide (lab a = c) := by
    intro s pre hs l
    induction l generalizing s pre with
    | nil => rfl
    | cons a l ih =>
      have ih' := ih (s + 1) (pre ++ [a]) (by simp [hs])
      rw [List.append_assoc, List.singleton_append] at ih'
      rw [List.length_cons, List.range'_succ]
      have e : ((pre ++ a :: l).map lab)[s]? = some (lab a) := by simp [← hs]
      have e2 : (pre ++ a :: l)[s]? = some a := by simp [← hs]
      rw [List.filter_cons, List.filter_cons, e]
      by_cases hc : lab a = c
      · have : (some (lab a) == some c) = true := by simp [hc]
        rw [if_pos this, if_pos (by simpa using hc)]
        unfold takeList at ih' ⊢
        rw [List.filterMap_cons_some e2, ih']
      · have : ¬((some (lab a) == some c) = true) := by simpa using hc
        rw [if_neg this, if_neg (by simpa using hc)]
        exact ih'
  have := key 0 [] rfl l
  unfold positionsOf
  rw [List.length_map, List.range_eq_range']
  simpa using this

/-! ### functions of block columns -/

/-- the block column with number `j` -/
def colBand (cw : List Nat) (df : Frame ι κ α) (j : Nat) : Frame ι κ α := df.ilocCols (off cw j) (off cw (j + 1))

/-- **Selected block columns one by one.** -/
theorem applyColBands_cut [DecidableEq ι] [DecidableEq κ] (cfg : Cfg) (hmr : 1 ≤ cfg.minRow) {df : Frame ι κ α} (hwf : df.WF)
    {rl cw : List Nat} (hc : df.IsCut rl cw) (func : Nat → Frame ι κ α → Option (Frame ι' κ' β)) (J : List ι')
    (R : Nat → Nat → Frame ι' κ' β) {idx : List Nat} (hne : idx ≠ [])
    (h : ∀ e ∈ idx.zipIdx, e.1 < cw.length ∧ func e.2 (colBand cw df e.1) = some (R e.1 e.2) ∧ (R e.1 e.2).WF ∧ (R e.1 e.2).index = J) :
    ∃ lens, lens ≠ [] ∧ lens.sum = J.length ∧ applyColBands cfg func idx (df.cut rl cw) =
      some ((Frame.stackCols J (idx.zipIdx.map fun e => R e.1 e.2)).cut lens ((idx.zipIdx.map fun e => R e.1 e.2).map (·.ncols))) := by
  have hlen : (df.cut rl cw).length = rl.length := by simp [Frame.cut, sliceBounds_length]
  have hk : 1 ≤ rl.length := by
    have := List.length_pos_iff.2 hc.rl_ne
    omega
  obtain ⟨lens, h1, h2, h3⟩ := deployLens_ok rl.length hk false rl J.length cfg.minRow hmr none false (by simp)
  refine ⟨lens, h2, h3, ?_⟩
  unfold applyColBands
  rw [hlen]
  rw [mapM_congr_some (g := fun e : Nat × Nat => (sliceBounds lens).map fun p => (R e.1 e.2).ilocRows p.1 p.2)]
  · rw [Option.map_some, ← colBlocks_bands J lens h2 _ (by simpa using hne)]
    · rw [List.map_map]; rfl
    · intro R' hR'
      obtain ⟨e, he, rfl⟩ := List.mem_map.1 hR'
      exact (h e he).2.2
  · intro e he
    obtain ⟨g0, g1, g2, g3⟩ := h e he
    rw [colBlocks_cut hc.rl_ne, List.getElem?_map, sliceBounds_getElem? g0, Option.map_some, Option.bind_some]
    have hv : Frame.vcat ((sliceBounds rl).map fun p => (df.ilocRows p.1 p.2).ilocCols (off cw e.1) (off cw (e.1 + 1))) =
        some (colBand cw df e.1) := by
      have : ((sliceBounds rl).map fun p => (df.ilocRows p.1 p.2).ilocCols (off cw e.1) (off cw (e.1 + 1))) =
          (sliceBounds rl).map fun p => (colBand cw df e.1).ilocRows p.1 p.2 := by
        apply List.map_congr_left
        intro p _
        exact ilocRows_ilocCols df _ _ _ _
      rw [this]
      refine Frame.vcat_ilocRows (hwf.ilocCols _ _) (sliceBounds_ne_nil hc.rl_ne) ?_
      show Covers (sliceBounds rl) df.nrows
      rw [← hc.rl_sum]
      exact covers_lens rl
    have hd := deploy_rows_eq (fun _ => R e.1 e.2) rl.length false
      ((sliceBounds rl).map fun p => (df.ilocRows p.1 p.2).ilocCols (off cw e.1) (off cw (e.1 + 1))) cfg.minRow none false _ hv g2
    have hsame : deployAxisFunc true (func e.2) rl.length false
        ((sliceBounds rl).map fun p => (df.ilocRows p.1 p.2).ilocCols (off cw e.1) (off cw (e.1 + 1))) cfg.minRow none false =
        deployAxisFunc true (fun _ => some (R e.1 e.2)) rl.length false
        ((sliceBounds rl).map fun p => (df.ilocRows p.1 p.2).ilocCols (off cw e.1) (off cw (e.1 + 1))) cfg.minRow none false := by
      unfold deployAxisFunc
      simp only [axisConcat, ↓reduceIte, hv, Option.bind_eq_bind, Option.bind_some, g1]
    rw [hsame, hd]
    have hn : (R e.1 e.2).nrows = J.length := by unfold Frame.nrows; rw [g3]
    have hpl : deployLens rl.length false
        (((sliceBounds rl).map fun p => (df.ilocRows p.1 p.2).ilocCols (off cw e.1) (off cw (e.1 + 1))).map (·.nrows)) J.length cfg.minRow
        none false = some lens := by
      rw [← h1]
      unfold deployLens
      simp
    rw [hn, hpl, Option.map_some]

/-! ### the keys -/

theorem keyColumn_some [DecidableEq κ] {c : κ} {cs : List (κ × List α)} {x : List α} :
    keyColumn c cs = some x ↔ (cs.filter fun p => decide (p.1 = c)) = [(c, x)] := by
  unfold keyColumn
  constructor
  · intro h
    split at h
    · rename_i p hp
      simp only [Option.some.injEq] at h
      have : p ∈ cs.filter fun p => decide (p.1 = c) := by rw [hp]; simp
      have hc := (List.mem_filter.1 this).2
      rw [hp, ← h, ← (show p.1 = c by simpa using hc)]
    · cases h
  · intro h
    rw [h]

theorem filter_slice_unique [DecidableEq κ] {c : κ} {cs : List (κ × List α)} {p : κ × List α}
    (h : (cs.filter fun p => decide (p.1 = c)) = [p]) {a b : Nat} (hc : c ∈ (pySlice cs a b).map (·.1)) :
    ((pySlice cs a b).filter fun p => decide (p.1 = c)) = [p] := by
  have hs : ((pySlice cs a b).filter fun p => decide (p.1 = c)).Sublist [p] := by
    rw [← h]
    exact List.Sublist.filter _ ((List.take_sublist _ _).trans (List.drop_sublist _ _))
  refine hs.eq_of_length_le ?_
  obtain ⟨q, hq, rfl⟩ := List.mem_map.1 hc
  have : q ∈ (pySlice cs a b).filter fun p => decide (p.1 = q.1) := List.mem_filter.2 ⟨hq, by simp⟩
  exact List.length_pos_of_mem this

theorem groupKeys_some [DecidableEq κ] {by' : List κ} {df : Frame ι κ α} {keys : List (List α)} (h : df.groupKeys by' = some keys) :
    ∀ c ∈ by', ∃ x, keyColumn c df.named = some x := by
  unfold Frame.groupKeys at h
  cases hm : by'.mapM fun c => keyColumn c df.named with
  | none => rw [hm] at h; cases h
  | some cols =>
    clear h
    induction by' generalizing cols with
    | nil => intro c hc; simp at hc
    | cons b bs ih =>
      rw [List.mapM_cons] at hm
      cases hb : keyColumn b df.named with
      | none => rw [hb] at hm; cases hm
      | some x =>
        rw [hb] at hm
        cases hbs : bs.mapM fun c => keyColumn c df.named with
        | none => rw [hbs] at hm; cases hm
        | some xs =>
          intro c hc
          rcases List.mem_cons.1 hc with rfl | hc
          · exact ⟨x, hb⟩
          · exact ih xs hbs c hc

theorem groupKeys_mem [DecidableEq κ] {by' : List κ} {df : Frame ι κ α} {keys : List (List α)} (h : df.groupKeys by' = some keys) :
    ∀ c ∈ by', c ∈ df.columns := by
  intro c hc
  obtain ⟨x, hx⟩ := groupKeys_some h c hc
  have := keyColumn_some.1 hx
  have hm : (c, x) ∈ df.named.filter fun p => decide (p.1 = c) := by rw [this]; simp
  rw [← named_labels df]
  exact List.mem_map.2 ⟨_, (List.mem_filter.1 hm).1, rfl⟩

theorem groupKeys_congr [DecidableEq κ] {by' : List κ} {df df' : Frame ι κ α} (hn : df'.index = df.index)
    (h : ∀ c ∈ by', keyColumn c df'.named = keyColumn c df.named) : df'.groupKeys by' = df.groupKeys by' := by
  unfold Frame.groupKeys Frame.nrows
  rw [hn]
  congr 1
  induction by' with
  | nil => rfl
  | cons b bs ih =>
    rw [List.mapM_cons, List.mapM_cons, h b (by simp), ih fun c hc => h c (by simp [hc])]

/-- the frame of the key columns -/
theorem keyFrame_named [DecidableEq κ] {df : Frame ι κ α} (h : df.WF) (by' : List κ) :
    (df.takeCols (by'.flatMap (positionsOf df.columns))).named = by'.flatMap fun c => df.named.filter fun p => decide (p.1 = c) := by
  rw [named_takeCols h]
  induction by' with
  | nil => rfl
  | cons b bs ih =>
    rw [List.flatMap_cons, List.flatMap_cons, ← ih]
    unfold takeList
    rw [List.filterMap_append]
    congr 1
    have := takeList_positions (fun p : κ × List α => p.1) df.named b
    rw [named_labels] at this
    exact this

theorem keyFrame_columns [DecidableEq κ] {df : Frame ι κ α} (h : df.WF) {by' : List κ} {keys : List (List α)}
    (hk : df.groupKeys by' = some keys) : (df.takeCols (by'.flatMap (positionsOf df.columns))).columns = by' := by
  rw [← named_labels, keyFrame_named h]
  have := groupKeys_some hk
  clear hk
  induction by' with
  | nil => rfl
  | cons b bs ih =>
    obtain ⟨x, hx⟩ := this b (by simp)
    rw [List.flatMap_cons, List.map_append, ih fun c hc => this c (by simp [hc]), keyColumn_some.1 hx]
    rfl

theorem takeCols_wf' {df : Frame ι κ α} (h : df.WF) (ps : List Nat) : (df.takeCols ps).WF := by
  rw [← ofCols_named h, ofCols_takeCols (Frame.named_sized h)]
  exact ofCols_wf ((Frame.named_sized h).takeList _)

theorem addMissed_spec [DecidableEq ι] [DecidableEq κ] {keyFrame b : Frame ι κ α} (hk : keyFrame.WF) (hb : b.WF)
    (hi : keyFrame.index = b.index) :
    ∃ J, addMissed keyFrame b = some J ∧ J.index = b.index ∧
      J.named = b.named ++ keyFrame.named.filter fun p => !b.columns.contains p.1 := by
  unfold addMissed
  split
  · rename_i h0
    refine ⟨b, rfl, rfl, ?_⟩
    have : (keyFrame.named.filter fun p => !b.columns.contains p.1) = [] := by
      rw [← named_labels keyFrame, List.filter_map] at h0
      exact List.map_eq_nil_iff.1 h0
    rw [this, List.append_nil]
  · have hw : ∀ x ∈ [b, keyFrame.withoutCols fun c => b.columns.contains c], x.WF := by
      intro x hx
      simp only [List.mem_cons, List.not_mem_nil, or_false] at hx
      rcases hx with rfl | rfl
      · exact hb
      · exact hk.withoutCols _
    have hx : ∀ x ∈ [b, keyFrame.withoutCols fun c => b.columns.contains c], x.index = b.index := by
      intro x hx
      simp only [List.mem_cons, List.not_mem_nil, or_false] at hx
      rcases hx with rfl | rfl
      · rfl
      · exact hi
    have hh := Frame.hcat_eq (by simp) hx
    refine ⟨_, hh, rfl, ?_⟩
    rw [named_hcat hw hh]
    simp [named_withoutCols hk]

theorem colBand_named {df : Frame ι κ α} (h : df.WF) (cw : List Nat) (j : Nat) :
    (colBand cw df j).named = pySlice df.named (off cw j) (off cw (j + 1)) := named_ilocCols h _ _

theorem colBand_wf {df : Frame ι κ α} (h : df.WF) (cw : List Nat) (j : Nat) : (colBand cw df j).WF := h.ilocCols _ _

/-- a block's keys are the frame's -/
theorem joined_keys [DecidableEq ι] [DecidableEq κ] {df : Frame ι κ α} (h : df.WF) {by' : List κ} (hn : by'.Nodup)
    {keys : List (List α)} (hk : df.groupKeys by' = some keys) (cw : List Nat) (j : Nat) {J : Frame ι κ α} (hi : J.index = df.index)
    (hJ : J.named = (colBand cw df j).named ++
      (df.takeCols (by'.flatMap (positionsOf df.columns))).named.filter fun p => !(colBand cw df j).columns.contains p.1) :
    J.groupKeys by' = some keys := by
  rw [← hk]
  refine groupKeys_congr hi ?_
  intro c hc
  obtain ⟨x, hx⟩ := groupKeys_some hk c hc
  rw [hx]
  have hx' := keyColumn_some.1 hx
  apply keyColumn_some.2
  rw [hJ, List.filter_append]
  by_cases hcb : c ∈ (colBand cw df j).columns
  · have e1 : ((colBand cw df j).named.filter fun p => decide (p.1 = c)) = [(c, x)] := by
      rw [colBand_named h]
      refine filter_slice_unique hx' ?_
      rw [← colBand_named h, named_labels]
      exact hcb
    have e2 : (((df.takeCols (by'.flatMap (positionsOf df.columns))).named.filter fun p =>
        !(colBand cw df j).columns.contains p.1).filter fun p => decide (p.1 = c)) = [] := by
      rw [List.filter_eq_nil_iff]
      intro p hp
      have := (List.mem_filter.1 hp).2
      simp only [Bool.not_eq_true', List.contains_eq_mem, decide_eq_false_iff_not] at this
      simp only [decide_eq_true_eq]
      rintro rfl
      exact this hcb
    rw [e1, e2]
    rfl
  · have e1 : ((colBand cw df j).named.filter fun p => decide (p.1 = c)) = [] := by
      rw [List.filter_eq_nil_iff]
      intro p hp
      simp only [decide_eq_true_eq]
      rintro rfl
      exact hcb (by rw [← named_labels]; exact List.mem_map.2 ⟨p, hp, rfl⟩)
    rw [e1, List.nil_append, List.filter_filter]
    have e2 : ((df.takeCols (by'.flatMap (positionsOf df.columns))).named.filter fun a =>
        decide (a.1 = c) && !(colBand cw df j).columns.contains a.1) =
        (df.takeCols (by'.flatMap (positionsOf df.columns))).named.filter fun p => decide (p.1 = c) := by
      apply List.filter_congr
      intro p _
      by_cases hp : p.1 = c
      · subst hp; simp [hcb]
      · simp [hp]
    rw [e2, keyFrame_named h]
    clear hk hx hJ e1 e2
    induction by' with
    | nil => simp at hc
    | cons b bs ih =>
      rw [List.flatMap_cons, List.filter_append, List.filter_filter]
      have hb := List.nodup_cons.1 hn
      by_cases hbc : b = c
      · subst hbc
        have : ((bs.flatMap fun c => df.named.filter fun p => decide (p.1 = c)).filter fun p => decide (p.1 = b)) = [] := by
          rw [List.filter_eq_nil_iff]
          intro p hp
          obtain ⟨c', hc', hp'⟩ := List.mem_flatMap.1 hp
          have e := (List.mem_filter.1 hp').2
          simp only [decide_eq_true_eq] at e ⊢
          rintro rfl
          exact hb.1 (by rw [e]; exact hc')
        rw [this, List.append_nil]
        simpa using hx'
      · have : (df.named.filter fun a => decide (a.1 = c) && decide (a.1 = b)) = [] := by
          rw [List.filter_eq_nil_iff]
          intro p _
          simp only [Bool.and_eq_true, decide_eq_true_eq, not_and]
          rintro rfl h2
          exact hbc h2.symm
        rw [this, List.nil_append]
        exact ih hb.2 (by rcases List.mem_cons.1 hc with e | e; exact absurd e.symm hbc; exact e)

/-- what is computed on a block does not depend on the key columns added -/
theorem joined_cols [DecidableEq κ] (spec : GroupSpec κ ℓ (GroupFn α)) (by' : List κ) (keys : List (List α)) {b kf : List (κ × List α)}
    (columns : List κ) (hkf : ∀ p ∈ kf, p.1 ∈ by' ∧ p.1 ∉ columns) :
    (spec.inBlock columns).cols by' keys (b ++ kf) = (spec.inBlock columns).cols by' keys b := by
  cases spec with
  | each fns =>
    simp only [GroupSpec.inBlock, GroupSpec.cols]
    have : (kf.filter fun p => !by'.contains p.1) = [] := by
      rw [List.filter_eq_nil_iff]
      intro p hp
      simp [(hkf p hp).1]
    rw [List.filter_append, this, List.append_nil]
  | dict d =>
    simp only [GroupSpec.inBlock, GroupSpec.cols]
    apply flatMap_congr_mem
    intro e he
    have hc : e.1 ∈ columns := by simpa using (List.mem_filter.1 he).2
    have : (kf.filter fun p => decide (p.1 = e.1)) = [] := by
      rw [List.filter_eq_nil_iff]
      intro p hp
      simp only [decide_eq_true_eq]
      intro h
      exact (hkf p hp).2 (by rw [h]; exact hc)
    rw [List.filter_append, this, List.append_nil]

/-! ### all blocks together -/

/-- all block columns side by side -/
theorem named_bands {df : Frame ι κ α} (h : df.WF) {cw : List Nat} (hs : cw.sum = df.ncols) :
    df.named = (List.range cw.length).flatMap fun j => (colBand cw df j).named := by
  have hl : df.named.length = cw.sum := by
    rw [hs, ← List.length_map (·.1), named_labels]
    rfl
  have := covers_lens cw df.named hl
  rw [sliceBounds_eq] at this
  rw [List.map_map] at this
  rw [← this, List.flatMap_def]
  congr 1
  apply List.map_congr_left
  intro j _
  simp only [Function.comp]
  exact (colBand_named h cw j).symm

/-- What the blocks compute together: of a dictionary, the entries in the order of the blocks their columns are in. -/
def GroupSpec.divided {φ : Type} [DecidableEq κ] (cw : List Nat) (columns : List κ) : GroupSpec κ ℓ φ → GroupSpec κ ℓ φ
  | .each fns => .each fns
  | .dict d => .dict ((List.range cw.length).flatMap fun j =>
      d.filter fun e => (pySlice columns (off cw j) (off cw (j + 1))).contains e.1)

theorem filter_flatMap {A B : Type} (p : B → Bool) (f : A → List B) (l : List A) : (l.flatMap f).filter p = l.flatMap fun x => (f x).filter p := by
  induction l with
  | nil => rfl
  | cons a l ih => rw [List.flatMap_cons, List.flatMap_cons, List.filter_append, ih]

theorem colBand_columns (cw : List Nat) (df : Frame ι κ α) (j : Nat) :
    (colBand cw df j).columns = pySlice df.columns (off cw j) (off cw (j + 1)) := rfl

theorem unique_of_nodup [DecidableEq κ] {cs : List (κ × List α)} (hn : (cs.map (·.1)).Nodup) {p : κ × List α} (hp : p ∈ cs) :
    (cs.filter fun q => decide (q.1 = p.1)) = [p] := by
  induction cs with
  | nil => simp at hp
  | cons a cs ih =>
    rw [List.map_cons, List.nodup_cons] at hn
    rw [List.filter_cons]
    rcases List.mem_cons.1 hp with rfl | hp
    · have : (cs.filter fun q => decide (q.1 = p.1)) = [] := by
        rw [List.filter_eq_nil_iff]
        intro q hq
        simp only [decide_eq_true_eq]
        intro h
        exact hn.1 (List.mem_map.2 ⟨q, hq, h⟩)
      simp [this]
    · have hne : a.1 ≠ p.1 := fun h => hn.1 (List.mem_map.2 ⟨p, hp, h.symm⟩)
      simp [hne, ih hn.2 hp]

theorem blocks_cols [DecidableEq κ] (spec : GroupSpec κ ℓ (GroupFn α)) (by' : List κ) (keys : List (List α)) {df : Frame ι κ α} (h : df.WF)
    {cw : List Nat} (hs : cw.sum = df.ncols) (hn : spec.selected ≠ [] → df.columns.Nodup) :
    ((List.range cw.length).flatMap fun j => (spec.inBlock (colBand cw df j).columns).cols by' keys (colBand cw df j).named) =
      (spec.divided cw df.columns).cols by' keys df.named := by
  cases spec with
  | each fns =>
    simp only [GroupSpec.inBlock, GroupSpec.divided, GroupSpec.cols]
    conv => rhs; rw [named_bands h hs]
    rw [filter_flatMap, List.flatMap_assoc]
  | dict d =>
    simp only [GroupSpec.inBlock, GroupSpec.divided, GroupSpec.cols, colBand_columns]
    rw [List.flatMap_assoc]
    apply flatMap_congr_mem
    intro j _
    apply flatMap_congr_mem
    intro e he
    congr 1
    have hmem := (List.mem_filter.1 he)
    have hn' := hn (by
      have : d ≠ [] := List.ne_nil_of_mem hmem.1
      simpa [GroupSpec.selected] using this)
    have hc : e.1 ∈ (colBand cw df j).columns := by
      rw [colBand_columns]
      simpa using hmem.2
    rw [← named_labels] at hc
    obtain ⟨p, hp, hpe⟩ := List.mem_map.1 hc
    rw [colBand_named h] at hp ⊢
    have hu := unique_of_nodup (by rw [named_labels]; exact hn') ((List.take_sublist _ _).trans (List.drop_sublist _ _) |>.subset hp)
    rw [← hpe, hu]
    exact filter_slice_unique hu (List.mem_map.2 ⟨p, hp, rfl⟩)

theorem stackCols_ofCols {A : Type} (J : List ι) (cs : A → List (κ × List α)) (l : List A) :
    Frame.stackCols J (l.map fun x => Frame.ofCols J (cs x)) = Frame.ofCols J (l.flatMap cs) := by
  unfold Frame.stackCols
  have hr := hrows_map (List.range J.length) (l.map fun x => fun i : Nat => (cs x).filterMap (·.2[i]?))
  rw [List.length_range] at hr
  simp only [List.map_map] at hr ⊢
  show Frame.mk J _ _ = Frame.mk J _ _
  congr 1
  · rw [List.map_flatMap, List.flatMap_def]
    rfl
  · refine Eq.trans hr ?_
    apply List.map_congr_left
    intro i _
    rw [List.filterMap_flatMap, List.flatMap_def]
    rfl

/-- the numbers of the blocks in ascending order -/
theorem ascending_eq {n : Nat} {idx : List Nat} (h1 : idx.Pairwise (· < ·)) (h2 : ∀ j ∈ idx, j < n) :
    idx = (List.range n).filter fun j => idx.contains j := by
  have hs1 : idx.Pairwise (· ≤ ·) := h1.imp (fun h => Nat.le_of_lt h)
  have hs2 : ((List.range n).filter fun j => idx.contains j).Pairwise (· ≤ ·) :=
    (List.pairwise_lt_range.imp (fun h => Nat.le_of_lt h)).filter _
  have hp : idx.Perm ((List.range n).filter fun j => idx.contains j) := by
    rw [List.perm_ext_iff_of_nodup (h1.imp (fun h => Nat.ne_of_lt h)) (List.nodup_range.filter _)]
    intro j
    simp only [List.mem_filter, List.mem_range, List.contains_eq_mem, decide_eq_true_eq]
    exact ⟨fun h => ⟨h2 j h, h⟩, fun h => h.2⟩
  exact sorted_perm_eq hs1 hs2 hp

theorem flatMap_filter_empty {A B : Type} (p : A → Bool) {f : A → List B} : ∀ {l : List A}, (∀ x ∈ l, p x = false → f x = []) →
    (l.filter p).flatMap f = l.flatMap f := by
  intro l
  induction l with
  | nil => intro _; rfl
  | cons a l ih =>
    intro h
    have ih' := ih fun x hx => h x (by simp [hx])
    rw [List.filter_cons, List.flatMap_cons]
    cases hp : p a with
    | true => simp [ih']
    | false => simp [ih', h a (by simp) hp]

theorem applied_spec [DecidableEq κ] {m : MFrame ι κ α} {df : Frame ι κ α} {rl cw : List Nat} (hcut : df.IsCut rl cw)
    (hp : m.parts = df.cut rl cw) (hcw : m.colWidths = none ∨ m.colWidths = some cw) (hcol : m.getColumns = df.columns)
    (labels : Option (List κ)) (hl : ∀ l, labels = some l → l ≠ [] ∧ ∀ c ∈ l, c ∈ df.columns) :
    ∃ idx, m.appliedBlocks labels = some idx ∧ idx ≠ [] ∧ idx.Pairwise (· < ·) ∧ (∀ j ∈ idx, j < cw.length) ∧
      (∀ j, j < cw.length → j ∉ idx → ∀ l, labels = some l → ∀ c ∈ (colBand cw df j).columns, c ∉ l) ∧
      (labels = none → idx = List.range cw.length) := by
  unfold MFrame.appliedBlocks
  cases labels with
  | none =>
    have hw : gridWidth m.parts = cw.length := by rw [hp, gridWidth_cut hcut.rl_ne]
    refine ⟨List.range cw.length, by simp only [hw], ?_, List.pairwise_lt_range, ?_, ?_, fun _ => rfl⟩
    · have := List.length_pos_iff.2 hcut.cw_ne
      intro h0
      have h1 := congrArg List.length h0
      rw [List.length_range, List.length_nil] at h1
      omega
    · intro j hj
      exact List.mem_range.1 hj
    · intro j hj hn
      exact absurd (List.mem_range.2 hj) hn
  | some l =>
    obtain ⟨hne, hin⟩ := hl l rfl
    simp only
    rw [hcol, getIndexerFor_present _ _ hin, mapM_id_some, Option.map_some, getColWidths_cut hcut hp hcw]
    have hps : npSort (l.flatMap (positionsOf df.columns)) ≠ [] := by
      intro h0
      have hperm := npSort_perm (l.flatMap (positionsOf df.columns))
      rw [h0] at hperm
      have hnil := hperm.symm.eq_nil
      cases l with
      | nil => exact hne rfl
      | cons c l =>
        have h1 := positionsOf_pos (hin c (by simp))
        rw [List.flatMap_cons] at hnil
        rw [(List.append_eq_nil_iff.1 hnil).1] at h1
        exact absurd h1 (by simp)
    have hmem := fun e => mem_blockDict hcut.cw_ne (npSort_pairwise (l.flatMap (positionsOf df.columns))) hps e
    have hblk : ∀ j, j < cw.length → (∃ x ∈ npSort (l.flatMap (positionsOf df.columns)), digitize (innerEdges cw) x = j) →
        j ∈ (blockDict cw (npSort (l.flatMap (positionsOf df.columns)))).map (·.1) := fun j hj hx =>
      List.mem_map.2 ⟨(j, .list (((npSort (l.flatMap (positionsOf df.columns))).filter fun x =>
        decide (digitize (innerEdges cw) x = j)).map (· - off cw j))), (hmem _).2 ⟨hj, hx, rfl⟩, rfl⟩
    refine ⟨_, rfl, ?_, ?_, ?_, ?_, fun h => nomatch h⟩
    · obtain ⟨x, xs, hx⟩ := List.exists_cons_of_ne_nil hps
      have := hblk _ (digitize_spec hcut.cw_ne x).1 ⟨x, by rw [hx]; simp, rfl⟩
      exact List.ne_nil_of_mem this
    · rw [List.pairwise_map]
      exact blockDict_ordered _ _
    · intro j hj
      obtain ⟨e, he, rfl⟩ := List.mem_map.1 hj
      exact ((hmem e).1 he).1
    · intro j hj hnj l' hl' c hc hcl
      simp only [Option.some.injEq] at hl'
      subst hl'
      apply hnj
      rw [colBand_columns] at hc
      obtain ⟨i, hi⟩ := List.getElem?_of_mem hc
      rw [pySlice_getElem?] at hi
      split at hi
      · rename_i hlt
        have hx : off cw j + i < cw.sum := by
          have := off_le_sum cw (j + 1)
          omega
        have hd := digitize_unique hcut.cw_ne hx (i := j) (by omega) (by omega)
        have hxm : off cw j + i ∈ npSort (l.flatMap (positionsOf df.columns)) := by
          rw [(npSort_perm _).mem_iff]
          exact List.mem_flatMap.2 ⟨c, hcl, mem_positionsOf.2 hi⟩
        exact hblk j hj ⟨off cw j + i, hxm, hd⟩
      · cases hi
