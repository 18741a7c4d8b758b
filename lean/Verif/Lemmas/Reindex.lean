import Verif.Model.Reindex
import Verif.Lemmas.LocAssign
import Verif.Lemmas.Mask
import Verif.Lemmas.SeriesOp
import Verif.Lemmas.Duplicated

variable {ι κ α L ι' κ' β : Type}

/-! ### pandas' reindex by positions -/

theorem find?_zip_findIdx? {A B : Type} [DecidableEq A] (x : A) (l : List A) (r : List B) (h : r.length = l.length) :
    ((l.zip r).find? (·.1 == x)).map (·.2) = (l.findIdx? (· == x)).bind (r[·]?) := by
  induction l generalizing r with
  | nil => rfl
  | cons a l ih =>
    cases r with
    | nil => simp at h
    | cons b r =>
      simp only [List.zip_cons_cons, List.find?_cons, List.findIdx?_cons]
      cases hx : (a == x)
      · simp only [Bool.false_eq_true, ↓reduceIte, Option.bind_map]
        rw [ih r (by simpa using h)]
        congr 1
      · simp

/-- where each label of `J` is found -/
def firstPositions [DecidableEq L] (labels J : List L) : List (Option Nat) := J.map fun x => labels.findIdx? (· == x)

theorem reindexRows_rows {nan : α} {J : List ι} {I : List (Option Nat)} (hl : I.length = J.length) {f : Frame ι κ α} (h : f.WF) :
    (f.reindexRows nan J I).rows = I.map fun o => (o.bind (f.rows[·]?)).getD (List.replicate f.ncols nan) := by
  unfold Frame.reindexRows Frame.mapColumns
  apply List.ext_getElem?
  intro i
  simp only [List.getElem?_map]
  by_cases hi : i < J.length
  · have hi' : i < I.length := by omega
    rw [List.getElem?_range hi, List.getElem?_eq_getElem hi']
    simp only [Option.map_some, Option.some.injEq]
    generalize ho : I[i] = o
    have h1 : ∀ c : List α, (pick nan I c)[i]? = some ((o.bind (c[·]?)).getD nan) := by
      intro c
      unfold pick
      rw [List.getElem?_map, List.getElem?_eq_getElem hi', ho]
      rfl
    simp only [h1]
    rw [show (fun c : List α => some ((o.bind (c[·]?)).getD nan)) = some ∘ (fun c : List α => (o.bind (c[·]?)).getD nan) from rfl,
      List.filterMap_eq_map]
    unfold Frame.cols
    rw [List.map_map]
    apply List.ext_getElem?
    intro j
    simp only [List.getElem?_map]
    by_cases hj : j < f.ncols
    · rw [List.getElem?_range hj]
      simp only [Option.map_some]
      cases o with
      | none => simp [hj]
      | some p =>
        simp only [Option.bind_some, Function.comp_apply]
        rw [h.column_getElem? hj]
        cases hp : f.rows[p]? with
        | none => simp [hj]
        | some r =>
          have hr : r.length = f.ncols := h.row_width r (List.mem_of_getElem? hp)
          simp only [Option.bind_some, Option.getD_some]
          rw [List.getElem?_eq_getElem (by omega)]
          rfl
    · rw [List.getElem?_eq_none (by simp; omega), List.getElem?_eq_none]
      · rfl
      · cases o with
        | none => simp; omega
        | some p =>
          simp only [Option.bind_some]
          cases hp : f.rows[p]? with
          | none => simp; omega
          | some r =>
            have hr : r.length = f.ncols := h.row_width r (List.mem_of_getElem? hp)
            simp only [Option.getD_some]; omega
  · rw [List.getElem?_eq_none (by simp; omega), List.getElem?_eq_none (by omega)]
    rfl

theorem reindexIndex_positions [DecidableEq ι] {fill : α} {J : List ι} {f : Frame ι κ α} (h : f.WF) (hne : f.index ≠ J)
    (hnd : f.index.Nodup) : f.reindexIndex fill J = some (f.reindexRows fill J (firstPositions f.index J)) := by
  unfold Frame.reindexIndex
  rw [if_neg hne, if_pos hnd]
  congr 1
  have e : f.reindexRows fill J (firstPositions f.index J)
      = ⟨J, f.columns, (f.reindexRows fill J (firstPositions f.index J)).rows⟩ := rfl
  rw [e, reindexRows_rows (by simp [firstPositions]) h]
  simp only [firstPositions, List.map_map, Function.comp_def]
  congr 1
  apply List.map_congr_left
  intro x _
  rw [find?_zip_findIdx? x _ _ h.rows_len]

theorem reindexColumns_positions [DecidableEq κ] {fill : α} {K : List κ} {f : Frame ι κ α} (h : f.WF) (hne : f.columns ≠ K)
    (hnd : f.columns.Nodup) : f.reindexColumns fill K = some (f.reindexCols fill K (firstPositions f.columns K)) := by
  unfold Frame.reindexColumns Frame.reindexCols Frame.mapRows
  rw [if_neg hne, if_pos hnd]
  congr 2
  apply List.map_congr_left
  intro r hr
  unfold pick firstPositions
  rw [List.map_map]
  apply List.map_congr_left
  intro y _
  rw [find?_zip_findIdx? y _ _ (h.row_width r hr)]
  rfl

/-! ### `apply_full_axis` -/

theorem mapM_map_congr {A B C : Type} {f g : B → Option C} (h : A → B) (l : List A) (e : ∀ x ∈ l, f (h x) = g (h x)) :
    (l.map h).mapM f = (l.map h).mapM g := by
  induction l with
  | nil => rfl
  | cons a l ih =>
    simp only [List.map_cons, List.mapM_cons]
    rw [e a (by simp), ih fun x hx => e x (List.mem_cons_of_mem _ hx)]

theorem mapAxis_rows_congr' [DecidableEq ι] [DecidableEq κ] (cfg : Cfg) {func func' : Frame ι κ α → Option (Frame ι' κ' β)}
    {df : Frame ι κ α} (hwf : df.WF) {rl cw : List Nat} (hcut : df.IsCut rl cw) (keep : Bool) (ns : Option Nat) (ll : Option (List Nat))
    (h : ∀ q ∈ sliceBounds cw, func (df.ilocCols q.1 q.2) = func' (df.ilocCols q.1 q.2)) :
    mapAxisPartitions cfg true func (df.cut rl cw) keep ns ll = mapAxisPartitions cfg true func' (df.cut rl cw) keep ns ll := by
  unfold mapAxisPartitions
  split
  · rfl
  · simp only [↓reduceIte]
    rw [colBlocks_cut hcut.rl_ne]
    rw [mapM_map_congr]
    intro q hq
    have hv : Frame.vcat ((sliceBounds rl).map fun p => (df.ilocRows p.1 p.2).ilocCols q.1 q.2)
        = some (df.ilocCols q.1 q.2) := by
      have := Frame.vcat_ilocCols (vcat_rows_cut hwf hcut) q.1 q.2
      rwa [List.map_map] at this
    unfold deployAxisFunc
    simp only [axisConcat, ↓reduceIte, hv, Option.bind_eq_bind, Option.bind_some, h q hq]

theorem mapAxis_rows_congr [DecidableEq ι] [DecidableEq κ] (cfg : Cfg) {func func' : Frame ι κ α → Option (Frame ι' κ' β)}
    {df : Frame ι κ α} (hwf : df.WF) {rl cw : List Nat} (hcut : df.IsCut rl cw) (keep : Bool) (ns : Option Nat) (ll : Option (List Nat))
    (h : ∀ a b, func (df.ilocCols a b) = func' (df.ilocCols a b)) :
    mapAxisPartitions cfg true func (df.cut rl cw) keep ns ll = mapAxisPartitions cfg true func' (df.cut rl cw) keep ns ll :=
  mapAxis_rows_congr' cfg hwf hcut keep ns ll fun q _ => h q.1 q.2

theorem mapAxis_cols_congr [DecidableEq ι] [DecidableEq κ] (cfg : Cfg) {func func' : Frame ι κ α → Option (Frame ι' κ' β)}
    {df : Frame ι κ α} (hwf : df.WF) {rl cw : List Nat} (hcut : df.IsCut rl cw) (keep : Bool) (ns : Option Nat) (ll : Option (List Nat))
    (h : ∀ a b, func (df.ilocRows a b) = func' (df.ilocRows a b)) :
    mapAxisPartitions cfg false func (df.cut rl cw) keep ns ll = mapAxisPartitions cfg false func' (df.cut rl cw) keep ns ll := by
  unfold mapAxisPartitions
  split
  · rfl
  · simp only [Bool.false_eq_true, ↓reduceIte]
    generalize gridWidth (df.cut rl cw) = w
    rw [show df.cut rl cw = (sliceBounds rl).map fun p => (sliceBounds cw).map fun q => (df.ilocRows p.1 p.2).ilocCols q.1 q.2 from rfl]
    rw [mapM_map_congr]
    intro p _
    have hv : Frame.hcat ((sliceBounds cw).map fun q => (df.ilocRows p.1 p.2).ilocCols q.1 q.2) = some (df.ilocRows p.1 p.2) :=
      Frame.hcat_ilocCols (hwf.ilocRows _ _) (sliceBounds_ne_nil hcut.cw_ne)
        (by show Covers _ df.ncols; rw [← hcut.cw_sum]; exact covers_lens cw)
    unfold deployAxisFunc
    simp only [axisConcat, Bool.false_eq_true, ↓reduceIte, hv, Option.bind_eq_bind, Option.bind_some, h]

theorem deployLens_same {k : Nat} {rl : List Nat} {n mb : Nat} {lens : List Nat} (hk : rl.length = k)
    (h : deployLens k true rl n mb none false = some lens) (hs : n = rl.sum) : lens = rl := by
  unfold deployLens at h
  by_cases h1 : k = 1
  · rw [if_pos h1] at h
    match rl, hk, h1 with
    | [x], _, _ => simp at h hs; rw [← h, hs]
    | [], hk, h1 => simp at hk; omega
    | _ :: _ :: _, hk, h1 => simp at hk; omega
  · rw [if_neg h1] at h
    simp [hk, hs] at h
    exact h.symm

/-- a function of whole columns, of which only the row labels of the result are new -/
theorem applyFullColumns_shows [DecidableEq ι] [DecidableEq κ] [DecidableEq ι'] [DecidableEq κ'] (cfg : Cfg) (hp : 1 ≤ cfg.nPartitions)
    (hr : 1 ≤ cfg.minRow) {m : LFrame ι κ α} {df : Frame ι κ α} (h : m.Shows df) {func : Frame ι κ α → Option (Frame ι' κ' β)}
    {F : Frame ι κ α → Frame ι' κ' β} (hF : ColumnLocal F) (hcomm : ∀ a b, F (df.ilocCols a b) = (F df).ilocCols a b)
    (hfunc : ∀ a b, func (df.ilocCols a b) = some (F (df.ilocCols a b))) (hn : (F df).ncols = df.ncols) :
    ∃ m', m.applyFullColumns cfg func (some (F df).index) (some (F df).columns) = some m' ∧ m'.Shows (F df) := by
  obtain ⟨m1, e1, h1⟩ := synced_spec h
  obtain ⟨rl, cw, hc, hpp, hrl, hcw⟩ := h1.blocks
  obtain ⟨lens, ⟨h2, h3, h4, _, _⟩, h5⟩ := mapAxis_rows_cut' cfg hp hr hF h.wf hc true none (by simp) none (by simp) (by simp)
  rw [← mapAxis_rows_congr cfg h.wf hc true none none hfunc] at h5
  have h6 : ((sliceBounds lens).map fun p => (sliceBounds cw).map fun q => (F (df.ilocCols q.1 q.2)).ilocRows p.1 p.2)
      = (F df).cut lens cw := by
    unfold Frame.cut
    simp only [hcomm, Frame.ilocCols_ilocRows]
  rw [h6] at h5
  have hwf' := hF.1 df h.wf
  have hc' : (F df).IsCut lens cw := ⟨h2, hc.cw_ne, h3, by rw [hc.cw_sum, hn]⟩
  unfold LFrame.applyFullColumns
  rw [e1, Option.bind_some, hpp, h5, Option.bind_some]
  have hs : LFrame.Shows ⟨⟨(F df).cut lens cw, some (F df).index, some (F df).columns,
      (some (F df).index).bind fun i => m1.rowLens.bind fun l => if i.length = l.sum ∧ l.all (· != 0) then some l else none,
      (some (F df).columns).bind fun c => if gridWidth ((F df).cut lens cw) = 1 then some [c.length] else none⟩, true, true⟩ (F df) := by
    refine ⟨hwf', ⟨F df, lens, cw, hwf', rfl, rfl, hc', rfl, ?_, ?_, fun _ => rfl, fun _ => rfl⟩, Or.inr rfl, Or.inr rfl⟩
    · rcases hrl with e | e
      · left; simp [e]
      · simp only [e, Option.bind_some]
        split
        · rename_i hcond
          right
          rw [deployLens_same rfl (h4 rfl rfl) hcond.1]
        · exact Or.inl rfl
    · simp only [Option.bind_some]
      rw [gridWidth_cut h2]
      split
      · rename_i hcond
        right
        match cw, hcond, hc'.cw_sum with
        | [w], _, hw => rw [show w = (F df).columns.length by simpa [Frame.ncols] using hw]
      · exact Or.inl rfl
  obtain ⟨r, e3, e4⟩ := mk'_shows hs
  refine ⟨_, ?_, e4⟩
  rw [e3]
  rfl

/-- a function of whole rows, of which only the column labels of the result are new -/
theorem applyFullLines_shows [DecidableEq ι] [DecidableEq κ] [DecidableEq ι'] [DecidableEq κ'] (cfg : Cfg) (hp : 1 ≤ cfg.nPartitions)
    (hr : 1 ≤ cfg.minCol) {m : LFrame ι κ α} {df : Frame ι κ α} (h : m.Shows df) {func : Frame ι κ α → Option (Frame ι' κ' β)}
    {F : Frame ι κ α → Frame ι' κ' β} (hF : RowLocal F) (hcomm : ∀ a b, F (df.ilocRows a b) = (F df).ilocRows a b)
    (hfunc : ∀ a b, func (df.ilocRows a b) = some (F (df.ilocRows a b))) (hn : (F df).nrows = df.nrows) :
    ∃ m', m.applyFullLines cfg func (some (F df).index) (some (F df).columns) = some m' ∧ m'.Shows (F df) := by
  obtain ⟨m1, e1, h1⟩ := synced_spec h
  obtain ⟨rl, cw, hc, hpp, hrl, hcw⟩ := h1.blocks
  obtain ⟨lens, ⟨h2, h3, h4, _, _⟩, h5⟩ := mapAxis_cols_cut' cfg hp hr hF h.wf hc true none (by simp) none (by simp) (by simp)
  rw [← mapAxis_cols_congr cfg h.wf hc true none none hfunc] at h5
  have h6 : ((sliceBounds rl).map fun p => (sliceBounds lens).map fun q => (F (df.ilocRows p.1 p.2)).ilocCols q.1 q.2)
      = (F df).cut rl lens := by
    unfold Frame.cut
    simp only [hcomm]
  rw [h6] at h5
  have hwf' := hF.1 df h.wf
  have hc' : (F df).IsCut rl lens := ⟨hc.rl_ne, h2, by rw [hc.rl_sum, hn], h3⟩
  unfold LFrame.applyFullLines
  rw [e1, Option.bind_some, hpp, h5, Option.bind_some]
  have hs : LFrame.Shows ⟨⟨(F df).cut rl lens, some (F df).index, some (F df).columns,
      (some (F df).index).bind fun i => if ((F df).cut rl lens).length = 1 then some [i.length] else none,
      (some (F df).columns).bind fun c => m1.colWidths.bind fun w => if c.length = w.sum ∧ w.all (· != 0) then some w else none⟩,
      true, true⟩ (F df) := by
    refine ⟨hwf', ⟨F df, rl, lens, hwf', rfl, rfl, hc', rfl, ?_, ?_, fun _ => rfl, fun _ => rfl⟩, Or.inr rfl, Or.inr rfl⟩
    · simp only [Option.bind_some]
      split
      · rename_i hcond
        right
        have hl : rl.length = 1 := by simpa [Frame.cut, sliceBounds_length] using hcond
        match rl, hl, hc'.rl_sum with
        | [w], _, hw => rw [show w = (F df).index.length by simpa [Frame.nrows] using hw]
      · exact Or.inl rfl
    · rcases hcw with e | e
      · left; simp [e]
      · simp only [e, Option.bind_some]
        split
        · rename_i hcond
          right
          rw [deployLens_same rfl (h4 rfl rfl) hcond.1]
        · exact Or.inl rfl
  obtain ⟨r, e3, e4⟩ := mk'_shows hs
  refine ⟨_, ?_, e4⟩
  rw [e3]
  rfl

/-! ### `reindex` -/

theorem columnLocal_id [DecidableEq ι] : ColumnLocal (fun f : Frame ι κ α => f) :=
  ⟨fun _ h => h, fun fs f _ h => by simpa using h⟩

theorem rowLocal_id [DecidableEq κ] : RowLocal (fun f : Frame ι κ α => f) :=
  ⟨fun _ h => h, fun fs f _ h => by simpa using h⟩

theorem reindexRowsTo_some [DecidableEq ι] [DecidableEq κ] (cfg : Cfg) (hp : 1 ≤ cfg.nPartitions) (hr : 1 ≤ cfg.minRow) (fill : α)
    {J : List ι} {m : LFrame ι κ α} {df df' : Frame ι κ α} (h : m.Shows df) (e : df.reindexIndex fill J = some df') :
    ∃ m', m.reindexRowsTo cfg fill J = some m' ∧ m'.Shows df' := by
  unfold LFrame.reindexRowsTo canReindex
  rw [h.getIndex, h.getColumns]
  by_cases h1 : df.index = J
  · simp only [h1, decide_true, Bool.true_or, ↓reduceIte]
    have e2 : df' = df := by unfold Frame.reindexIndex at e; rw [if_pos h1] at e; exact (Option.some.inj e).symm
    subst e2
    have := applyFullColumns_shows cfg hp hr h (func := fun b => b.reindexIndex fill J) columnLocal_id (fun _ _ => rfl)
      (fun a b => if_pos h1) rfl
    rw [← h1]
    rw [← h1] at this
    exact this
  · by_cases h2 : df.index.Nodup
    · simp only [h1, h2, decide_true, Bool.or_true, ↓reduceIte]
      rw [reindexIndex_positions h.wf h1 h2] at e
      cases e
      have hl : (firstPositions df.index J).length = J.length := by simp [firstPositions]
      refine applyFullColumns_shows cfg hp hr h (F := fun f => f.reindexRows fill J (firstPositions df.index J))
        (columnLocal_mapColumns (fun _ : List ι => J) (pick fill (firstPositions df.index J)) (fun _ c _ => by rw [pick_length, hl]))
        ?_ ?_ rfl
      · intro a b
        exact h.wf.mapColumns_ilocCols _ _ (fun _ c _ => by rw [pick_length, hl]) _ _
      · intro a b
        exact reindexIndex_positions (h.wf.ilocCols a b) h1 h2
    · unfold Frame.reindexIndex at e
      rw [if_neg h1, if_neg h2] at e
      cases e

theorem reindexRowsTo_none [DecidableEq ι] [DecidableEq κ] (cfg : Cfg) (fill : α) {J : List ι}
    {m : LFrame ι κ α} {df : Frame ι κ α} (h : m.Shows df) (e : df.reindexIndex fill J = none) :
    m.reindexRowsTo cfg fill J = none := by
  unfold LFrame.reindexRowsTo canReindex
  rw [h.getIndex]
  unfold Frame.reindexIndex at e
  by_cases h1 : df.index = J
  · rw [if_pos h1] at e; cases e
  · by_cases h2 : df.index.Nodup
    · rw [if_neg h1, if_pos h2] at e; cases e
    · simp [h1, h2]

theorem reindexColsTo_some [DecidableEq L] (cfg : Cfg) (hp : 1 ≤ cfg.nPartitions) (hr : 1 ≤ cfg.minCol) (fill : α) {K : List L}
    {m : LFrame L L α} {df df' : Frame L L α} (h : m.Shows df) (e : df.reindexColumns fill K = some df') :
    ∃ m', m.reindexColsTo cfg fill K = some m' ∧ m'.Shows df' := by
  unfold LFrame.reindexColsTo canReindex
  rw [h.getIndex, h.getColumns]
  by_cases h1 : df.columns = K
  · simp only [h1, decide_true, Bool.true_or, ↓reduceIte]
    have e2 : df' = df := by unfold Frame.reindexColumns at e; rw [if_pos h1] at e; exact (Option.some.inj e).symm
    subst e2
    have := applyFullLines_shows cfg hp hr h (func := fun b => b.reindexColumns fill K) rowLocal_id (fun _ _ => rfl)
      (fun a b => if_pos h1) rfl
    rw [← h1]
    rw [← h1] at this
    exact this
  · by_cases h2 : df.columns.Nodup
    · simp only [h1, h2, decide_true, Bool.or_true, ↓reduceIte]
      rw [reindexColumns_positions h.wf h1 h2] at e
      cases e
      have hl : (firstPositions df.columns K).length = K.length := by simp [firstPositions]
      refine applyFullLines_shows cfg hp hr h (F := fun f => f.reindexCols fill K (firstPositions df.columns K))
        (rowLocal_mapRows (fun _ : List L => K) (pick fill (firstPositions df.columns K)) (fun _ c _ => by rw [pick_length, hl]))
        ?_ ?_ rfl
      · intro a b
        exact Frame.mapRows_ilocRows _ _ _ _ _
      · intro a b
        exact reindexColumns_positions (h.wf.ilocRows a b) h1 h2
    · unfold Frame.reindexColumns at e
      rw [if_neg h1, if_neg h2] at e
      cases e

theorem reindexColsTo_none [DecidableEq L] (cfg : Cfg) (fill : α) {K : List L}
    {m : LFrame L L α} {df : Frame L L α} (h : m.Shows df) (e : df.reindexColumns fill K = none) :
    m.reindexColsTo cfg fill K = none := by
  unfold LFrame.reindexColsTo canReindex
  rw [h.getColumns]
  unfold Frame.reindexColumns at e
  by_cases h1 : df.columns = K
  · rw [if_pos h1] at e; cases e
  · by_cases h2 : df.columns.Nodup
    · rw [if_neg h1, if_pos h2] at e; cases e
    · simp [h1, h2]

/-! ### enlarging -/

theorem find_zip_self {A B : Type} [DecidableEq A] {l : List A} (hnd : l.Nodup) {r : List B} (h : r.length = l.length) (d : B) :
    (l.map fun x => (((l.zip r).find? (·.1 == x)).map (·.2)).getD d) = r := by
  induction l generalizing r with
  | nil => cases r with
    | nil => rfl
    | cons b r => simp at h
  | cons a l ih =>
    cases r with
    | nil => simp at h
    | cons b r =>
      have hn := List.nodup_cons.1 hnd
      simp only [List.map_cons, List.zip_cons_cons, List.find?_cons, beq_self_eq_true, Option.map_some, Option.getD_some,
        List.cons.injEq, true_and]
      conv => rhs; rw [← ih hn.2 (r := r) (by simpa using h)]
      apply List.map_congr_left
      intro x hx
      have : (a == x) = false := by
        rw [beq_eq_false_iff_ne]; rintro rfl; exact hn.1 hx
      rw [this]

theorem find_zip_absent {A B : Type} [DecidableEq A] {l : List A} {x : A} (hx : x ∉ l) (r : List B) (d : B) :
    (((l.zip r).find? (·.1 == x)).map (·.2)).getD d = d := by
  have : (l.zip r).find? (·.1 == x) = none := by
    rw [List.find?_eq_none]
    intro e he
    have := List.of_mem_zip he
    intro hc
    rw [beq_iff_eq] at hc
    exact hx (hc ▸ this.1)
  rw [this]
  rfl

theorem reindexIndex_add [DecidableEq ι] {df : Frame ι κ α} (h : df.WF) (hnd : df.index.Nodup) {x : ι} (hx : x ∉ df.index) (fill : α) :
    df.reindexIndex fill (df.index ++ [x]) = some (df.addRow x (List.replicate df.ncols fill)) := by
  unfold Frame.reindexIndex
  rw [if_neg (by intro e; simpa using congrArg List.length e), if_pos hnd]
  unfold Frame.addRow
  congr 2
  rw [List.map_append, find_zip_self hnd h.rows_len]
  simp only [List.map_cons, List.map_nil]
  rw [find_zip_absent hx]

theorem reindexColumns_add [DecidableEq κ] {df : Frame ι κ α} (h : df.WF) (hnd : df.columns.Nodup) {ys : List κ}
    (hy : ∀ y ∈ ys, y ∉ df.columns) (fill : α) :
    df.reindexColumns fill (df.columns ++ ys) = some (df.addColumns ys fill) := by
  unfold Frame.reindexColumns Frame.addColumns
  by_cases h0 : ys = []
  · subst h0
    rw [if_pos (by simp)]
    simp
  rw [if_neg (by intro e; have := congrArg List.length e; simp at this; exact h0 this), if_pos hnd]
  congr 2
  apply List.map_congr_left
  intro r hr
  rw [List.map_append, find_zip_self hnd (h.row_width r hr)]
  congr 1
  rw [← List.map_const']
  apply List.map_congr_left
  intro y hy'
  exact find_zip_absent (hy y hy') r fill

theorem addRow_wf {df : Frame ι κ α} (h : df.WF) (x : ι) {row : List α} (hr : row.length = df.ncols) : (df.addRow x row).WF := by
  refine ⟨by simp [Frame.addRow, h.rows_len], ?_⟩
  intro r hr'
  simp only [Frame.addRow, List.mem_append, List.mem_singleton] at hr' ⊢
  rcases hr' with h' | rfl
  · exact h.row_width r h'
  · exact hr

theorem addRow_assign {df : Frame ι κ α} (h : df.WF) (x : ι) {row base : List α} (hr : row.length = df.ncols) (hb : base.length = df.ncols)
    {value : Nat → Nat → Option α} (hv : ∀ j, j < df.ncols → value 0 j = row[j]?) :
    (df.addRow x base).assign [df.nrows] (List.range df.ncols) value = df.addRow x row := by
  unfold Frame.addRow Frame.assign
  congr 1
  simp only
  rw [List.mapIdx_append]
  have hn : df.nrows = df.rows.length := h.rows_len.symm
  congr 1
  · apply List.ext_getElem?
    intro i
    simp only [List.getElem?_mapIdx]
    cases hi : df.rows[i]? with
    | none => rfl
    | some r =>
      have hlt : i < df.rows.length := (List.getElem?_eq_some_iff.1 hi).1
      simp only [Option.map_some, Option.some.injEq, lastPos_singleton]
      rw [if_neg (by omega)]
      apply List.ext_getElem?
      intro j
      simp
  · simp only [List.mapIdx_cons, List.mapIdx_nil, Nat.zero_add, lastPos_singleton]
    rw [if_pos hn]
    congr 1
    apply List.ext_getElem?
    intro j
    simp only [List.getElem?_mapIdx]
    by_cases hj : j < df.ncols
    · rw [List.getElem?_eq_getElem (by omega)]
      simp only [Option.map_some]
      rw [lastPos_range _ _ hj]
      simp only
      rw [hv j hj, List.getElem?_eq_getElem (by omega)]
      rfl
    · rw [List.getElem?_eq_none (by omega), List.getElem?_eq_none (by omega)]
      rfl

theorem addressed_list_length [DecidableEq L] {labels ys : List L} (hnd : labels.Nodup) {cs : List Nat}
    (h : (LKey.list ys).addressed labels = some cs) : cs.length = ys.length := by
  unfold LKey.addressed at h
  simp only at h
  split at h
  · rename_i hall
    cases h
    rw [List.length_flatMap]
    induction ys with
    | nil => rfl
    | cons y ys ih =>
      have hy := hall y (by simp)
      obtain ⟨q, hq⟩ := List.getElem?_of_mem hy
      have hc : labels.count y = 1 := by
        have h1 := List.nodup_iff_count.1 hnd y
        have h2 := List.count_pos_iff.2 hy
        omega
      have := positionsOf_unique hq hc
      unfold positionsOf at this
      simp only [List.map_cons, List.sum_cons, List.length_cons]
      rw [this, ih fun x hx => hall x (List.mem_cons_of_mem _ hx)]
      simp; omega
  · cases h
