import Verif.Lemmas.Dropna
import Verif.Lemmas.Align
import Verif.Lemmas.Concat
import Verif.Lemmas.Sort
import Verif.Model.Mask
/-
Lemmas for boolean masks and the row-wise broadcast.
-/

variable {ι κ κ' κ'' α β γ : Type}

/-! ### aligning the rows of two frames -/

theorem reindexRows_id {nan : α} {f : Frame ι κ α} (h : f.WF) :
    f.reindexRows nan f.index ((List.range f.index.length).map some) = f :=
  h.mapColumns_id _ (fun c hc => by rw [← hc]; exact pick_range nan c)

theorem reindexRows_wf {nan : α} {J : List ι} {I : List (Option Nat)} (hl : I.length = J.length) {f : Frame ι κ α} (h : f.WF) :
    (f.reindexRows nan J I).WF :=
  h.mapColumns (fun _ : List ι => J) (pick nan I) (fun _ c _ => by rw [pick_length, hl])

/-- relabelling the rows and dividing them as asked -/
theorem reindexRows_cut [DecidableEq ι] [DecidableEq κ] (cfg : Cfg) (hp : 1 ≤ cfg.nPartitions) (hr : 1 ≤ cfg.minRow)
    {nan : α} {J : List ι} {I : List (Option Nat)} (hl : I.length = J.length) {df : Frame ι κ α} (hwf : df.WF) {rl cw : List Nat}
    (hcut : df.IsCut rl cw) (ll : Option (List Nat)) (hll : ∀ l, ll = some l → l ≠ [] ∧ l.sum = J.length) :
    ∃ lens, lens ≠ [] ∧ lens.sum = J.length ∧ (∀ l, ll = some l → lens = l) ∧
      mapAxisPartitions cfg true (fun b => some (b.reindexRows nan J I)) (df.cut rl cw) false none ll
        = some ((df.reindexRows nan J I).cut lens cw) := by
  have hF := columnLocal_mapColumns (κ := κ) (fun _ : List ι => J) (pick nan I)
      (fun _ c _ => by rw [pick_length, hl])
  have hn : ((fun f : Frame ι κ α => f.mapColumns (fun _ => J) (pick nan I)) df).nrows = J.length := rfl
  obtain ⟨lens, ⟨h1, h2, _, h4, h5⟩, h6⟩ := mapAxis_rows_cut' cfg hp hr hF hwf hcut false none
      (by simp) ll (by simp) (by intro l h1 _; rw [hn]; exact (hll l h1).2)
  refine ⟨lens, h1, by rw [h2, hn], fun l h => h4 l h (hll l h).1, ?_⟩
  refine Eq.trans h6 ?_
  congr 1
  unfold Frame.cut
  apply List.map_congr_left
  intro p _
  apply List.map_congr_left
  intro q _
  rw [hwf.mapColumns_ilocCols _ _ (fun _ c _ => by rw [pick_length, hl]), Frame.ilocCols_ilocRows]
  rfl

theorem reindexer_self [DecidableEq ι] (P : JoinOps ι) (first : List ι) (rest : List (List ι)) (i : Nat) :
    reindexer P true first rest i (joinedLabels P true first rest)
      = some ((List.range (joinedLabels P true first rest).length).map some) := by
  simp [reindexer]

theorem joinedLabels_same [DecidableEq ι] (P : JoinOps ι) (first : List ι) :
    joinedLabels P true first [first] = first := by
  simp [joinedLabels, allSame]

/-- the blocks of both frames after alignment -/
theorem copartitionRows_spec [DecidableEq ι] [DecidableEq κ] [DecidableEq κ'] (P : JoinOps ι) (cfg : Cfg)
    (hp : 1 ≤ cfg.nPartitions) (hr : 1 ≤ cfg.minRow) (nanL : α) (nanR : β) {m : MFrame ι κ α} {df : Frame ι κ α}
    (h : m.Represents df) {k : MFrame ι κ' β} {kf : Frame ι κ' β} (hk : k.Represents kf) {J : List ι} {I0 I1 : List (Option Nat)}
    (hJ : joinedLabels P true df.index [kf.index] = J)
    (h0 : reindexer P true df.index [kf.index] 0 df.index = some I0) (l0 : I0.length = J.length)
    (h1 : reindexer P true df.index [kf.index] 1 kf.index = some I1) (l1 : I1.length = J.length) :
    ∃ lens cw cwk, (df.reindexRows nanL J I0).IsCut lens cw ∧ (kf.reindexRows nanR J I1).IsCut lens cwk ∧
      (m.colWidths = none ∨ m.colWidths = some cw) ∧ (df.index = J → m.rowLens = none ∨ m.rowLens = some lens) ∧
      copartitionRows P cfg nanL nanR m k =
        some ((df.reindexRows nanL J I0).cut lens cw, (kf.reindexRows nanR J I1).cut lens cwk, some J, some lens) := by
  obtain ⟨rl, cw, hc, hmp, hrl, hcw⟩ := h.blocks
  obtain ⟨rlk, cwk, hck, hkp, hrlk, hcwk⟩ := hk.blocks
  have gl := getRowLens_cut hc hmp hrl
  have gk := getRowLens_cut hck hkp hrlk
  have idL : df.index = J → df.reindexRows nanL J I0 = df := by
    intro e
    subst e
    have := reindexer_self P df.index [kf.index] 0
    rw [hJ, h0, Option.some.injEq] at this
    rw [this]
    exact reindexRows_id h.wf
  have idR : kf.index = J → kf.reindexRows nanR J I1 = kf := by
    intro e
    subst e
    have := reindexer_self P df.index [kf.index] 1
    rw [hJ, h1, Option.some.injEq] at this
    rw [this]
    exact reindexRows_id hk.wf
  unfold copartitionRows
  rw [h.getIndex, hk.getIndex, gl, gk]
  by_cases hid : kf.index = df.index ∧ rlk = rl
  · obtain ⟨e1, e2⟩ := hid
    subst e2
    have eJ : df.index = J := by rw [← hJ, e1, joinedLabels_same]
    rw [if_pos ⟨e1, rfl⟩, idL eJ, idR (e1.trans eJ), hmp, hkp, eJ]
    exact ⟨rlk, cw, cwk, hc, hck, hcw, fun _ => hrl, rfl⟩
  · rw [if_neg hid]
    have hb : ∃ lens, lens ≠ [] ∧ lens.sum = J.length ∧ (df.index = J → lens = rl) ∧
        rowsBase P cfg nanL m kf.index = some ((df.reindexRows nanL J I0).cut lens cw, lens) := by
      unfold rowsBase
      rw [h.getIndex, gl]
      simp only [hJ]
      by_cases e : df.index = J
      · rw [if_neg (by simp [e]), hmp, idL e]
        exact ⟨rl, hc.rl_ne, by rw [hc.rl_sum, ← e]; rfl, fun _ => rfl, rfl⟩
      · rw [if_pos e, h0, Option.bind_some, hmp]
        obtain ⟨lens, a1, a2, _, a4⟩ := reindexRows_cut cfg hp hr (nan := nanL) l0 h.wf hc none (by simp)
        rw [a4]
        refine ⟨lens, a1, a2, fun e' => absurd e' e, ?_⟩
        rw [Option.map_some]
        congr 2
        have hcut : (df.reindexRows nanL J I0).IsCut lens cw := ⟨a1, hc.cw_ne, a2, hc.cw_sum⟩
        have := getRowLens_cut (m := (⟨(df.reindexRows nanL J I0).cut lens cw, none, none, none, none⟩ : MFrame ι κ α)) hcut rfl (Or.inl rfl)
        simpa [MFrame.getRowLens] using this
    obtain ⟨lens, a1, a2, a3, a4⟩ := hb
    rw [a4, Option.bind_some]
    have ho : rowsOther P cfg nanR df.index lens k = some ((kf.reindexRows nanR J I1).cut lens cwk) := by
      unfold rowsOther
      rw [hk.getIndex, gk]
      simp only [hJ]
      by_cases e : kf.index ≠ J ∨ rlk ≠ lens
      · rw [if_pos e, h1, Option.bind_some, hkp]
        obtain ⟨lens', b1, b2, b3, b4⟩ := reindexRows_cut cfg hp hr (nan := nanR) l1 hk.wf hck (some lens)
          (by intro l e; cases e; exact ⟨a1, a2⟩)
        rw [b4, b3 lens rfl]
      · have e' : kf.index = J ∧ rlk = lens := by
          constructor
          · exact Classical.byContradiction fun hh => e (Or.inl hh)
          · exact Classical.byContradiction fun hh => e (Or.inr hh)
        rw [if_neg e, hkp, idR e'.1, e'.2]
    simp only
    rw [ho, Option.map_some, hJ]
    exact ⟨lens, cw, cwk, ⟨a1, hc.cw_ne, a2, hc.cw_sum⟩, ⟨a1, hck.cw_ne, a2, hck.cw_sum⟩, hcw,
      fun e => by rw [a3 e]; exact hrl, rfl⟩

/-! ### block rows with the block row of the same number -/

theorem zipIdx_pair_mapM {A B C X : Type} (f : X → A) (g : X → B) (H : A → B → Option C) (l : List X) :
    ((l.map f).zipIdx.mapM fun (e : A × Nat) => ((l.map g)[e.2]?).bind (H e.1)) = l.mapM fun x => H (f x) (g x) := by
  have : ∀ (pre l : List X), ((l.map f).zipIdx pre.length).mapM (fun (e : A × Nat) => (((pre ++ l).map g)[e.2]?).bind (H e.1)) =
      l.mapM fun x => H (f x) (g x) := by
    intro pre l
    induction l generalizing pre with
    | nil => rfl
    | cons x l ih =>
      have := ih (pre ++ [x])
      rw [List.append_assoc, List.singleton_append, List.length_append, List.length_singleton] at this
      rw [List.map_cons, List.zipIdx_cons, List.mapM_cons, List.mapM_cons, this]
      congr 1
      simp
  exact this [] l

theorem broadcastRowsApply_cut [DecidableEq ι] (F : Frame ι κ α → Frame ι κ' β → Option (Frame ι κ'' γ)) (df : Frame ι κ α)
    {kf : Frame ι κ' β} (hk : kf.WF) {lens cw cwk : List Nat} (hck : kf.IsCut lens cwk) :
    broadcastRowsApply F (df.cut lens cw) (kf.cut lens cwk) =
      (sliceBounds lens).mapM fun p => (sliceBounds cw).mapM fun q => F ((df.ilocRows p.1 p.2).ilocCols q.1 q.2) (kf.ilocRows p.1 p.2) := by
  unfold broadcastRowsApply Frame.cut
  rw [zipIdx_pair_mapM (fun p : Nat × Nat => (sliceBounds cw).map fun q => (df.ilocRows p.1 p.2).ilocCols q.1 q.2)
    (fun p : Nat × Nat => (sliceBounds cwk).map fun q => (kf.ilocRows p.1 p.2).ilocCols q.1 q.2)
    (fun row others => (Frame.hcat others).bind fun other => row.mapM fun b => F b other)]
  congr 1
  funext p
  rw [Frame.hcat_ilocCols (hk.ilocRows _ _) (sliceBounds_ne_nil hck.cw_ne)
    (by show Covers _ kf.ncols; rw [← hck.cw_sum]; exact covers_lens cwk), Option.bind_some, List.mapM_map]
  rfl

/-! ### the mask -/

theorem one_column_rows {nan : β} {kf : Frame ι κ' β} (hk : kf.WF) (h1 : kf.columns.length = 1) {vs : List β}
    (hv : kf.rows = vs.map fun v => [v]) {J : List ι} {I : List (Option Nat)} (hl : I.length = J.length) :
    (kf.reindexRows nan J I).rows = (pick nan I vs).map fun v => [v] := by
  unfold Frame.reindexRows Frame.mapColumns
  have hc : kf.cols = [vs] := by
    unfold Frame.cols Frame.ncols
    rw [h1]
    simp only [List.range_one, List.map_cons, List.map_nil, List.cons.injEq, and_true]
    unfold Frame.column
    rw [hv, List.filterMap_map]
    simp [Function.comp_def]
  simp only [hc]
  apply List.ext_getElem?
  intro i
  rw [List.getElem?_map, List.getElem?_map]
  by_cases hi : i < J.length
  · rw [List.getElem?_range hi]
    have : i < (pick nan I vs).length := by rw [pick_length]; omega
    rw [List.getElem?_eq_getElem this]
    simp [List.getElem?_eq_getElem this]
  · rw [List.getElem?_eq_none (by simpa using hi), List.getElem?_eq_none (by rw [pick_length]; omega)]
    rfl

/-- the mask's values for the aligned rows -/
def maskAt (vals : List Bool) (I : List (Option Nat)) : Option (List Bool) := I.mapM fun o => o.bind (vals[·]?)

theorem maskAt_length {vals : List Bool} {I : List (Option Nat)} {vs : List Bool} (h : maskAt vals I = some vs) :
    vs.length = I.length := by
  unfold maskAt at h
  induction I generalizing vs with
  | nil => simp only [List.mapM_nil] at h; cases h; rfl
  | cons o I ih =>
    rw [List.mapM_cons] at h
    cases ho : o.bind (vals[·]?) with
    | none => rw [ho] at h; cases h
    | some v =>
      rw [ho] at h
      cases hI : I.mapM (fun o => o.bind (vals[·]?)) with
      | none => rw [hI] at h; cases h
      | some w =>
        rw [hI] at h
        cases h
        simp [ih hI]

theorem pick_mask_some {vals : List Bool} {I : List (Option Nat)} {vs : List Bool} (h : maskAt vals I = some vs) :
    pick none I (vals.map some) = vs.map some := by
  unfold maskAt at h
  unfold pick
  induction I generalizing vs with
  | nil => simp only [List.mapM_nil] at h; cases h; rfl
  | cons o I ih =>
    rw [List.mapM_cons] at h
    cases ho : o.bind (vals[·]?) with
    | none => rw [ho] at h; cases h
    | some v =>
      rw [ho] at h
      cases hI : I.mapM (fun o => o.bind (vals[·]?)) with
      | none => rw [hI] at h; cases h
      | some w =>
        rw [hI] at h
        cases h
        rw [List.map_cons, List.map_cons, ih hI]
        congr 1
        cases o with
        | none => cases ho
        | some i =>
          simp only [Option.bind_some] at ho ⊢
          simp [ho]

theorem pick_mask_none {vals : List Bool} {I : List (Option Nat)} (h : maskAt vals I = none) :
    none ∈ pick none I (vals.map some) := by
  unfold maskAt at h
  unfold pick
  induction I with
  | nil => simp at h
  | cons o I ih =>
    rw [List.mapM_cons] at h
    rw [List.map_cons, List.mem_cons]
    cases ho : o.bind (vals[·]?) with
    | none =>
      left
      cases o with
      | none => rfl
      | some i =>
        simp only [Option.bind_some] at ho ⊢
        simp [ho]
    | some v =>
      right
      rw [ho] at h
      cases hI : I.mapM (fun o => o.bind (vals[·]?)) with
      | none => exact ih hI
      | some w => rw [hI] at h; cases h

theorem mapM_maskCell (vs : List Bool) : (vs.map fun v => [some v]).mapM maskCell = some vs := by
  have := mapM_map_some maskCell (fun v : Bool => [some v]) id vs (fun _ _ => rfl)
  simpa using this

theorem Frame.pickRows_ilocCols (b : Frame ι κ α) (vs : List Bool) (x y : Nat) :
    (b.ilocCols x y).pickRows vs = (b.pickRows vs).ilocCols x y := by
  unfold Frame.pickRows Frame.ilocCols keepWhere
  simp only [Frame.mk.injEq, true_and]
  rw [List.zip_map_right, List.filter_map, List.map_map, List.map_map]
  rfl

/-- every block with its part of the mask -/
theorem selectRows_blocks [DecidableEq ι] {df : Frame ι κ α} (h : df.WF) {kf : Frame ι κ' (Option Bool)} (hk : kf.WF)
    (hi : kf.index = df.index) {lens cw cwk : List Nat} (hc : df.IsCut lens cw) (hck : kf.IsCut lens cwk) {vs : List Bool}
    (hv : kf.rows = vs.map fun v => [some v]) :
    ∃ rl', (df.pickRows vs).IsCut rl' cw ∧
      broadcastRowsApply selectRowsBlock (df.cut lens cw) (kf.cut lens cwk) = some ((df.pickRows vs).cut rl' cw) := by
  have hn : vs.length = df.nrows := by
    have := hk.rows_len
    rw [hv, List.length_map, hi] at this
    exact this
  let fs := (sliceBounds lens).map fun p => (df.ilocRows p.1 p.2).pickRows (pySlice vs p.1 p.2)
  have hfs : ∀ f ∈ fs, f.WF ∧ f.columns = df.columns := by
    intro f hf
    obtain ⟨p, _, rfl⟩ := List.mem_map.1 hf
    exact ⟨Frame.pickRows_wf (h.ilocRows _ _) _, rfl⟩
  have hst : Frame.stackRows df.columns fs = df.pickRows vs := stackRows_pickRows h hc.rl_sum vs hn
  refine ⟨fs.map (·.nrows), ?_, ?_⟩
  · rw [← hst]
    exact stackRows_isCut df.columns (by simpa [fs] using sliceBounds_ne_nil hc.rl_ne) hc.cw_ne hc.cw_sum
  · rw [broadcastRowsApply_cut selectRowsBlock df hk hck, ← hst, ← stack_cut df.columns cw fs hfs]
    unfold fs
    rw [List.map_map]
    apply mapM_congr_some
    intro p _
    simp only [Function.comp_apply]
    apply mapM_congr_some
    intro q _
    unfold selectRowsBlock
    rw [if_pos (by simp [Frame.ilocRows, Frame.ilocCols, hi])]
    have : (kf.ilocRows p.1 p.2).rows.mapM maskCell = some (pySlice vs p.1 p.2) := by
      simp only [Frame.ilocRows, hv]
      rw [show pySlice (vs.map fun v => [some v]) p.1 p.2 = (pySlice vs p.1 p.2).map fun v => [some v] from by
        simp [pySlice, List.map_take, List.map_drop]]
      exact mapM_maskCell _
    rw [this, Option.map_some, Frame.pickRows_ilocCols]

theorem selectRows_none [DecidableEq ι] {df : Frame ι κ α} {kf : Frame ι κ' (Option Bool)} (hk : kf.WF)
    (hi : kf.index = df.index) {lens cw cwk : List Nat} (hc : df.IsCut lens cw) (hck : kf.IsCut lens cwk)
    (hv : [none] ∈ kf.rows) :
    broadcastRowsApply selectRowsBlock (df.cut lens cw) (kf.cut lens cwk) = none := by
  rw [broadcastRowsApply_cut selectRowsBlock df hk hck]
  rw [← bandsOf_rows hk hck] at hv
  obtain ⟨rows, h1, h2⟩ := List.mem_flatten.1 hv
  obtain ⟨b, h3, rfl⟩ := List.mem_map.1 h1
  obtain ⟨p, hp, rfl⟩ := List.mem_map.1 h3
  obtain ⟨q, hq⟩ := List.exists_mem_of_ne_nil _ (sliceBounds_ne_nil hc.cw_ne)
  apply mapM_none _ _ hp
  apply mapM_none _ _ hq
  unfold selectRowsBlock
  rw [if_pos (by simp [Frame.ilocRows, Frame.ilocCols, hi]), mapM_none maskCell _ h2 rfl]
  rfl

/-! ### the left join -/

theorem zipIdx_sorted {le : ι → ι → Bool} {l : List ι} (h : l.Pairwise (le · ·)) :
    sortBy (fun a b : ι × Nat => le a.1 b.1) l.zipIdx = l.zipIdx := by
  apply sortBy_of_pairwise
  have : (l.zipIdx.map Prod.fst).Pairwise (le · ·) := by rw [List.zipIdx_map_fst]; exact h
  rw [List.pairwise_map] at this
  exact this

theorem leftJoin_pairs [DecidableEq ι] {le : ι → ι → Bool} {l r : List ι} (h : l.Pairwise (le · ·)) (hn : r.Nodup) :
    (leftJoinSorted le).join2 l r =
      (l, (List.range l.length).map some, l.map fun x => r.findIdx? (· == x)) := by
  unfold leftJoinSorted
  simp only [zipIdx_sorted h]
  have : (l.zipIdx.flatMap fun e : ι × Nat =>
        if ((List.range r.length).filter fun p => r[p]? == some e.1).isEmpty then [(e.1, some e.2, (none : Option Nat))]
        else ((List.range r.length).filter fun p => r[p]? == some e.1).map fun p => (e.1, some e.2, some p)) =
      l.zipIdx.map fun e => (e.1, some e.2, r.findIdx? (· == e.1)) := by
    rw [← List.flatMap_singleton' (l.zipIdx.map _), List.flatMap_map]
    congr 1
    funext e
    rw [positions_nodup hn]
    cases r.findIdx? (· == e.1) <;> rfl
  rw [this]
  simp only [List.map_map, Function.comp_def, Prod.mk.injEq]
  refine ⟨List.zipIdx_map_fst _ _, ?_, ?_⟩
  · have : l.zipIdx.map (fun x => some x.2) = (l.zipIdx.map Prod.snd).map some := by rw [List.map_map]; rfl
    rw [this]
    simp [List.zipIdx_map_snd, List.range_eq_range']
  · have : l.zipIdx.map (fun x : ι × Nat => r.findIdx? (· == x.1)) = (l.zipIdx.map Prod.fst).map fun x => r.findIdx? (· == x) := by
      rw [List.map_map]; rfl
    rw [this, List.zipIdx_map_fst]

theorem leftJoin_labels [DecidableEq ι] {le : ι → ι → Bool} {l r : List ι}
    (h : r = l ∨ (l.Pairwise (le · ·) ∧ r.Nodup)) : joinedLabels (leftJoinSorted le) true l [r] = l := by
  rcases h with rfl | ⟨h, hn⟩
  · exact joinedLabels_same _ _
  · unfold joinedLabels
    split
    · rfl
    · simp only
      split
      · rw [leftJoin_pairs h hn]
      · exact sortBy_of_pairwise _ h

/-- the positions the mask's rows are taken from -/
def maskIndexer [DecidableEq ι] (l r : List ι) : List (Option Nat) :=
  if r = l then (List.range l.length).map some else l.map fun x => r.findIdx? (· == x)

theorem maskIndexer_length [DecidableEq ι] (l r : List ι) : (maskIndexer l r).length = l.length := by
  unfold maskIndexer
  split <;> simp

theorem leftJoin_indexer [DecidableEq ι] {le : ι → ι → Bool} {l r : List ι}
    (h : r = l ∨ (l.Pairwise (le · ·) ∧ r.Nodup)) :
    reindexer (leftJoinSorted le) true l [r] 0 l = some ((List.range l.length).map some) ∧
    reindexer (leftJoinSorted le) true l [r] 1 r = some (maskIndexer l r) := by
  unfold reindexer
  rw [leftJoin_labels h]
  refine ⟨by simp, ?_⟩
  simp only
  unfold maskIndexer
  by_cases e : r = l
  · rw [if_pos e, if_pos e]
  · rw [if_neg e, if_neg e]
    unfold madeReindexer
    simp only
    rw [leftJoin_labels h]
    rcases h with h | ⟨h, hn⟩
    · exact absurd h e
    split
    · have : joinIndexer (leftJoinSorted le) true l [r] 1 r = l.map fun x => r.findIdx? (· == x) := by
        unfold joinIndexer
        have ha : allSame l [r] = false := by simp [allSame, e]
        rw [ha]
        have hf : (leftJoinSorted le).first = false := rfl
        rw [hf]
        simp only [Bool.or_self, Bool.not_false]
        rw [if_neg (by decide), leftJoin_pairs h hn]
      rw [this, if_pos (by simp)]
    · unfold reindexPositions
      rw [if_neg e, if_pos hn]

theorem maskFor_eq [DecidableEq ι] {l r : List ι} {vals : List Bool} (hv : vals.length = r.length) :
    maskFor r vals l = maskAt vals (maskIndexer l r) := by
  unfold maskFor maskAt maskIndexer
  by_cases e : r = l
  · rw [if_pos e, if_pos e, ← e, ← hv]
    symm
    rw [List.mapM_map]
    have := mapM_map_some (fun i : Nat => vals[i]?) id (fun i => vals.getD i false) (List.range vals.length)
      (fun i hi => by simp at hi; simp [hi])
    rw [List.map_id] at this
    refine Eq.trans ?_ (this.trans ?_)
    · rfl
    · congr 1
      apply List.ext_getElem
      · simp
      · intro i h1 h2
        simp [h2]
  · rw [if_neg e, if_neg e, List.mapM_map]
    rfl

/-! ### the whole operation -/

theorem getitemMask_frame [DecidableEq ι] [DecidableEq κ] [DecidableEq κ'] (le : ι → ι → Bool) (cfg : Cfg)
    (hp : 1 ≤ cfg.nPartitions) (hr : 1 ≤ cfg.minRow) (nan : α) {m : MFrame ι κ α} {df : Frame ι κ α} (h : m.Represents df)
    {k : MFrame ι κ' (Option Bool)} {kf : Frame ι κ' (Option Bool)} (hk : k.Represents kf) (h1 : kf.columns.length = 1)
    {vals : List Bool} (hv : kf.rows = vals.map fun v => [some v])
    (hl : kf.index = df.index ∨ (df.index.Pairwise (le · ·) ∧ kf.index.Nodup)) :
    match df.getMask kf.index vals with
    | none => m.broadcastApplyRows (leftJoinSorted le) cfg false nan none selectRowsBlock .drop k = none
    | some r => ∃ m', m.broadcastApplyRows (leftJoinSorted le) cfg false nan none selectRowsBlock .drop k = some m' ∧
        m'.Represents r := by
  have hvl : vals.length = kf.index.length := by
    have := hk.wf.rows_len
    rwa [hv, List.length_map] at this
  obtain ⟨e0, e1⟩ := leftJoin_indexer hl
  obtain ⟨lens, cw, cwk, c1, c2, c3, c4, c5⟩ := copartitionRows_spec (leftJoinSorted le) cfg hp hr nan none h hk
    (leftJoin_labels hl) e0 (by simp) e1 (maskIndexer_length _ _)
  rw [reindexRows_id h.wf] at c1 c5
  have hwk := reindexRows_wf (nan := (none : Option Bool)) (maskIndexer_length df.index kf.index) hk.wf
  have hrows := one_column_rows (nan := (none : Option Bool)) hk.wf h1 (vs := vals.map some) (by rw [hv, List.map_map]; rfl)
    (maskIndexer_length df.index kf.index)
  unfold Frame.getMask MFrame.broadcastApplyRows
  rw [maskFor_eq hvl, c5]
  simp only [Option.bind_some, Bool.false_eq_true, ↓reduceIte]
  cases hm : maskAt vals (maskIndexer df.index kf.index) with
  | none =>
    simp only [Option.map_none]
    rw [selectRows_none (df := df) hwk rfl c1 c2 (by
      rw [hrows]
      exact List.mem_map.2 ⟨none, pick_mask_none hm, rfl⟩)]
    rfl
  | some vs =>
    simp only [Option.map_some]
    rw [pick_mask_some hm, List.map_map] at hrows
    obtain ⟨rl', d1, d2⟩ := selectRows_blocks (df := df) h.wf hwk rfl c1 c2 (vs := vs) hrows
    rw [d2, Option.bind_some]
    exact represents_mk' ⟨Frame.pickRows_wf h.wf vs, ⟨rl', cw, d1, rfl, Or.inl rfl, c3⟩, Or.inl rfl, h.columns⟩
