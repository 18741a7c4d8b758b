import Verif.Model.Duplicated
import Verif.Lemmas.Reduce
import Verif.Lemmas.Shuffle
import Verif.Lemmas.Labels
/-
Lemmas about `duplicated`.
-/

variable {ι κ α ι' κ' β K T D : Type}

/-! ### a function applied to the only block column -/

theorem mapAxis_single_col_keep [DecidableEq ι] [DecidableEq κ] [DecidableEq ι'] [DecidableEq κ'] (cfg : Cfg) (hr : 1 ≤ cfg.minRow)
    (F : Frame ι κ α → Frame ι' κ' β) {df : Frame ι κ α} (hwf : df.WF) (hF : (F df).WF) (hn : (F df).nrows = df.nrows)
    {rl : List Nat} {w : Nat} (hcut : df.IsCut rl [w]) :
    mapAxisPartitions cfg true (fun b => some (F b)) (df.cut rl [w]) true none none = some ((F df).cut rl [(F df).ncols]) := by
  have hw : w = df.ncols := by simpa using hcut.cw_sum
  subst hw
  have hparts : df.cut rl [df.ncols] = (sliceBounds rl).map fun p => [df.ilocRows p.1 p.2] := by
    unfold Frame.cut
    apply List.map_congr_left
    intro p _
    simp only [sliceBounds_single, List.map_cons, List.map_nil]
    rw [show df.ncols = (df.ilocRows p.1 p.2).ncols from rfl, (hwf.ilocRows p.1 p.2).ilocCols_all]
  have hcol : colBlocks (df.cut rl [df.ncols]) = [(sliceBounds rl).map fun p => df.ilocRows p.1 p.2] := by
    rw [hparts]
    exact colBlocks_matrix (sliceBounds rl) [()] (fun p _ => df.ilocRows p.1 p.2) (sliceBounds_ne_nil hcut.rl_ne)
  have hlen : (df.cut rl [df.ncols]).length = rl.length := by simp [Frame.cut, sliceBounds_length]
  have hpos : 1 ≤ rl.length := List.length_pos_iff.2 hcut.rl_ne
  have hd := deploy_rows_eq F rl.length true ((sliceBounds rl).map fun p => df.ilocRows p.1 p.2) cfg.minRow none false df
    (vcat_rows_cut hwf hcut) hF
  have hnr : ((sliceBounds rl).map fun p => df.ilocRows p.1 p.2).map (·.nrows) = rl := by
    rw [List.map_map]; exact sliceBounds_nrows hcut
  have hl : deployLens rl.length true (((sliceBounds rl).map fun p => df.ilocRows p.1 p.2).map (·.nrows)) (F df).nrows
      cfg.minRow none false = some rl := by
    rw [hnr]
    unfold deployLens
    have hs := hcut.rl_sum
    split
    · rename_i h1
      obtain ⟨x, rfl⟩ := List.length_eq_one_iff.mp h1
      simp only [List.sum_cons, List.sum_nil, Nat.add_zero] at hs
      rw [hn, hs]
    · simp only [Bool.false_eq_true, ↓reduceIte, ne_eq, not_true_eq_false, decide_false, Bool.not_true, Bool.or_self, hs, hn]
  rw [hl, Option.map_some] at hd
  unfold mapAxisPartitions truthyLengths axisNumSplits
  simp only [Option.isSome_none, Bool.and_false, Bool.false_eq_true, ↓reduceIte, Option.isNone_none, Bool.and_true,
    hcol, List.mapM_cons, List.mapM_nil, hlen]
  rw [hd]
  simp only [Option.bind_eq_bind, Option.bind_some, Option.pure_def]
  congr 1
  have := colBlocks_matrix [()] (sliceBounds rl) (fun _ p => (F df).ilocRows p.1 p.2) (by simp)
  simp only [List.map_cons, List.map_nil] at this
  rw [this]
  unfold Frame.cut
  apply List.map_congr_left
  intro p _
  simp only [sliceBounds_single, List.map_cons, List.map_nil]
  rw [show (F df).ncols = ((F df).ilocRows p.1 p.2).ncols from rfl, (hF.ilocRows p.1 p.2).ilocCols_all]

theorem keepNonzero_length_le {τ : Type} (l : List τ) (ls : List Nat) : (keepNonzero l ls).length ≤ l.length := by
  induction l generalizing ls with
  | nil => simp [keepNonzero]
  | cons x l ih =>
    cases ls with
    | nil => simp [keepNonzero]
    | cons n ls =>
      unfold keepNonzero
      have := ih ls
      split <;> simp <;> omega

theorem keepNonzero_mem {τ : Type} (l : List τ) (ls : List Nat) : ∀ x ∈ keepNonzero l ls, x ∈ l := by
  induction l generalizing ls with
  | nil => simp [keepNonzero]
  | cons y l ih =>
    cases ls with
    | nil => simp [keepNonzero]
    | cons n ls =>
      intro x hx
      unfold keepNonzero at hx
      split at hx
      · rcases List.mem_cons.1 hx with h | h
        · simp [h]
        · exact List.mem_cons_of_mem _ (ih ls x h)
      · exact List.mem_cons_of_mem _ (ih ls x hx)

theorem filterEmpties_width {m : MFrame ι κ α} {k : Nat} (h : ∀ row ∈ m.parts, row.length ≤ k) :
    ∀ row ∈ (filterEmpties m).parts, row.length ≤ k := by
  unfold filterEmpties
  split
  · split
    · exact h
    · intro row hrow
      simp only [List.mem_map] at hrow
      obtain ⟨r, hr, rfl⟩ := hrow
      exact Nat.le_trans (keepNonzero_length_le _ _) (h r (keepNonzero_mem _ _ r hr))
  · exact h

theorem mapM_mem {A B : Type} {f : A → Option B} {l : List A} {r : List B} (h : l.mapM f = some r) :
    ∀ y ∈ r, ∃ x ∈ l, f x = some y := by
  induction l generalizing r with
  | nil => simp at h; subst h; simp
  | cons a l ih =>
    rw [List.mapM_cons] at h
    cases ha : f a with
    | none => rw [ha] at h; simp at h
    | some b =>
      rw [ha] at h
      cases hl : l.mapM f with
      | none => rw [hl] at h; simp at h
      | some bs =>
        rw [hl] at h
        simp at h
        subst h
        intro y hy
        rcases List.mem_cons.1 hy with rfl | hy
        · exact ⟨a, by simp, ha⟩
        · obtain ⟨x, hx, e⟩ := ih hl y hy
          exact ⟨x, by simp [hx], e⟩

theorem mapM_length {A B : Type} {f : A → Option B} {l : List A} {r : List B} (h : l.mapM f = some r) : r.length = l.length := by
  induction l generalizing r with
  | nil => simp at h; subst h; rfl
  | cons a l ih =>
    rw [List.mapM_cons] at h
    cases ha : f a with
    | none => rw [ha] at h; simp at h
    | some b =>
      rw [ha] at h
      cases hl : l.mapM f with
      | none => rw [hl] at h; simp at h
      | some bs =>
        rw [hl] at h
        simp at h
        subst h
        simp [ih hl]

theorem propagate_width {m m1 : LFrame ι κ α} {k : Nat} {a b : Bool} (h : ∀ row ∈ m.parts, row.length ≤ k)
    (e : m.propagate a b = some m1) : ∀ row ∈ m1.parts, row.length ≤ k := by
  unfold LFrame.propagate at e
  simp only at e
  split at e
  · rw [Option.map_eq_some_iff] at e
    obtain ⟨g, hg, rfl⟩ := e
    intro row hrow
    obtain ⟨x, hx, e2⟩ := mapM_mem hg row hrow
    rw [mapM_length e2, List.length_zip]
    have := filterEmpties_width h x.1 (List.of_mem_zip hx).1
    omega
  · cases e

theorem synced_width {m m1 : LFrame ι κ α} {k : Nat} (h : ∀ row ∈ m.parts, row.length ≤ k) (e : m.synced = some m1) :
    ∀ row ∈ m1.parts, row.length ≤ k := by
  unfold LFrame.synced at e
  split at e
  · exact propagate_width h e
  · split at e
    · exact propagate_width h e
    · split at e
      · exact propagate_width h e
      · rw [Option.some.injEq] at e
        subst e
        exact h

/-- a frame held in one block column, after writing the pending labels -/
theorem synced_single {m : LFrame ι κ α} {df : Frame ι κ α} (h : m.Shows df) (hw : gridWidth m.parts ≤ 1) :
    ∃ m1 rl w, m.synced = some m1 ∧ df.IsCut rl [w] ∧ m1.parts = df.cut rl [w] ∧ (m1.rowLens = none ∨ m1.rowLens = some rl) := by
  obtain ⟨df0, rl0, cw0, hwf0, _, _, hc0, hp0, _⟩ := h.blocks
  rw [hp0, gridWidth_cut hc0.rl_ne] at hw
  obtain ⟨m1, e1, e2⟩ := synced_spec h
  have hall : ∀ row ∈ m1.parts, row.length ≤ 1 := by
    refine synced_width ?_ e1
    intro row hrow
    rw [hp0] at hrow
    simp only [Frame.cut, List.mem_map] at hrow
    obtain ⟨p, _, rfl⟩ := hrow
    simpa [sliceBounds_length] using hw
  obtain ⟨rl, cw, hc, hp, hrl, _⟩ := e2.blocks
  have hcw : cw.length ≤ 1 := by
    obtain ⟨p, t, hb⟩ := List.exists_cons_of_ne_nil (sliceBounds_ne_nil hc.rl_ne)
    have := hall ((sliceBounds cw).map fun q => (df.ilocRows p.1 p.2).ilocCols q.1 q.2) (by
      rw [hp]; unfold Frame.cut; rw [hb]; simp)
    simpa [sliceBounds_length] using this
  obtain ⟨w, rfl⟩ : ∃ w, cw = [w] := by
    cases cw with
    | nil => exact absurd rfl hc.cw_ne
    | cons x t =>
      cases t with
      | nil => exact ⟨x, rfl⟩
      | cons _ _ => simp at hcw
  exact ⟨m1, rl, w, e1, hc, hp, hrl⟩

theorem applyFullColumns_spec [DecidableEq ι] [DecidableEq κ] [DecidableEq κ'] (cfg : Cfg) (hr : 1 ≤ cfg.minRow) {m : LFrame ι κ α}
    {df : Frame ι κ α} (h : m.Shows df) (hw : gridWidth m.parts ≤ 1) (F : Frame ι κ α → Frame ι κ' β) (hF : (F df).WF)
    (hi : (F df).index = df.index) (newIndex : Option (List ι)) (hni : newIndex = none ∨ newIndex = some df.index) :
    ∃ m', m.applyFullColumns cfg (fun b => some (F b)) newIndex (some (F df).columns) = some m' ∧ m'.Shows (F df) := by
  obtain ⟨m1, rl, w, e1, hc, hp, hrl⟩ := synced_single h hw
  have hn : (F df).nrows = df.nrows := by unfold Frame.nrows; rw [hi]
  have e2 := mapAxis_single_col_keep cfg hr F h.wf hF hn hc
  have hc' : (F df).IsCut rl [(F df).ncols] := ⟨hc.rl_ne, by simp, by rw [hc.rl_sum, hn], by simp⟩
  have hg : gridWidth ((F df).cut rl [(F df).ncols]) = 1 := by rw [gridWidth_cut hc.rl_ne]; rfl
  unfold LFrame.applyFullColumns
  rw [e1, Option.bind_some, hp, e2, Option.bind_some]
  have hs : LFrame.Shows ⟨⟨(F df).cut rl [(F df).ncols], newIndex, some (F df).columns,
      newIndex.bind fun i => m1.rowLens.bind fun l => if i.length = l.sum ∧ l.all (· != 0) then some l else none,
      some [(F df).columns.length]⟩, newIndex.isSome, true⟩ (F df) := by
    refine ⟨hF, ⟨F df, rl, _, hF, rfl, rfl, hc', rfl, ?_, Or.inr rfl, fun _ => rfl, fun _ => rfl⟩, ?_, Or.inr rfl⟩
    · rcases hni with rfl | rfl
      · exact Or.inl rfl
      · rcases hrl with e | e
        · left; simp [e]
        · simp only [e, Option.bind_some]
          split
          · exact Or.inr rfl
          · exact Or.inl rfl
    · rcases hni with rfl | rfl
      · exact Or.inl ⟨rfl, rfl⟩
      · exact Or.inr (by rw [hi])
  obtain ⟨r, e3, e4⟩ := mk'_shows hs
  refine ⟨_, ?_, e4⟩
  simp only [Option.bind_some, hg, ↓reduceIte, Option.isSome_some]
  rw [e3]
  rfl

/-! ### the marks -/

theorem duplicatedMarks_length [DecidableEq K] (keep : DupKeep) (keys : List K) : (duplicatedMarks keep keys).length = keys.length := by
  simp [duplicatedMarks]

/-- the marks depend only on which keys are equal -/
theorem duplicatedMarks_congr {A : Type} [DecidableEq K] [DecidableEq D] (keep : DupKeep) (rows : List A) (f : A → K) (g : A → D)
    (h : ∀ r ∈ rows, ∀ s ∈ rows, f r = f s ↔ g r = g s) : duplicatedMarks keep (rows.map f) = duplicatedMarks keep (rows.map g) := by
  unfold duplicatedMarks
  simp only [List.zipIdx_map, List.map_map, List.any_map]
  apply List.map_congr_left
  intro e he
  have h1 := List.mem_zipIdx' he
  simp only [Function.comp_def]
  rw [Bool.eq_iff_iff, List.any_eq_true, List.any_eq_true]
  constructor <;> rintro ⟨o, ho, h3⟩ <;> refine ⟨o, ho, ?_⟩ <;> have h2 := List.mem_zipIdx' ho
  all_goals
    simp only [Function.comp_def, Prod.map, Bool.and_eq_true, decide_eq_true_eq, id_eq] at h3 ⊢
    refine ⟨h3.1, ?_⟩
    have hh := h o.1 (h2.2 ▸ List.getElem_mem _) e.1 (h1.2 ▸ List.getElem_mem _)
    first | exact hh.1 h3.2 | exact hh.2 h3.2

theorem Frame.WF.duplicated [DecidableEq K] {df : Frame ι κ α} (h : df.WF) (label : String) (key : α → K) (keep : DupKeep) :
    (df.duplicated label key keep).WF := by
  unfold Frame.duplicated
  split
  · exact ⟨rfl, by simp⟩
  · refine ⟨by simp [duplicatedMarks_length, h.rows_len], ?_⟩
    intro r hr
    simp only [List.mem_map] at hr
    obtain ⟨b, _, rfl⟩ := hr
    rfl

theorem duplicated_columns [DecidableEq K] (df : Frame ι κ α) (label : String) (key : α → K) (keep : DupKeep) :
    (df.duplicated label key keep).columns = [label] := by
  unfold Frame.duplicated; split <;> rfl

theorem duplicated_index [DecidableEq K] {df : Frame ι κ α} (label : String) (key : α → K) (keep : DupKeep) (h : 0 < df.ncols) :
    (df.duplicated label key keep).index = df.index := by
  unfold Frame.duplicated
  rw [if_neg (by unfold Frame.ncols at h; omega)]

/-- comparing digests of rows -/
theorem duplicated_reduceRows [DecidableEq K] [DecidableEq D] (df : Frame ι κ α) (h : 0 < df.ncols) (label : String) (key : α → K)
    (f : List α → D) (keep : DupKeep) (hf : ∀ r ∈ df.rows, ∀ s ∈ df.rows, r.map key = s.map key ↔ f r = f s) :
    (df.reduceRows unnamed f).duplicated label id keep = df.duplicated label key keep := by
  unfold Frame.duplicated Frame.reduceRows
  rw [if_neg (by simp), if_neg (by unfold Frame.ncols at h; omega)]
  simp only [List.map_map, Frame.mk.injEq, true_and]
  congr 1
  refine (duplicatedMarks_congr keep df.rows _ _ ?_).symm
  intro r hr s hs
  rw [hf r hr s hs]
  simp

theorem mk'_widths_one {m r : MFrame ι κ α} (h : m.colWidths = some [1]) (e : m.mk' = some r) : r.colWidths = some [1] := by
  unfold MFrame.mk' at e
  split at e
  · rw [Option.some.injEq] at e
    subst e
    unfold filterEmpties
    split
    · rename_i rl cw _ h2
      rw [h] at h2
      cases h2
      split
      · exact h
      · rfl
    · exact h
  · cases e

theorem fullReduce1_widths [DecidableEq ι] [DecidableEq κ] {cfg : Cfg} {f : List α → β} {m : MFrame ι κ α} {r : MFrame ι String β}
    (e : fullReduce1 cfg f m = some r) : r.colWidths = some [1] := by
  unfold fullReduce1 at e
  rw [Option.bind_eq_some_iff] at e
  obtain ⟨g, _, e⟩ := e
  unfold reduceMeta1 at e
  exact mk'_widths_one rfl e
