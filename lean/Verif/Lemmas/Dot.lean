import Verif.Model.Dot
import Verif.Lemmas.Ranks
import Verif.Lemmas.LocGet
import Verif.Lemmas.Duplicated
import Verif.Props.Reindex

variable {L α ι κ ι' κ' β : Type}

/-! ### one block column, any result -/

theorem mapAxis_one_col [DecidableEq ι] [DecidableEq κ] [DecidableEq ι'] [DecidableEq κ'] (cfg : Cfg) (hr : 1 ≤ cfg.minRow)
    {func : Frame ι κ α → Option (Frame ι' κ' β)} {R : Frame ι' κ' β} (hR : R.WF) {df : Frame ι κ α} (hwf : df.WF)
    (hfunc : func df = some R) {rl : List Nat} {w : Nat} (hcut : df.IsCut rl [w]) :
    ∃ lens, lens ≠ [] ∧ lens.sum = R.nrows ∧ deployLens rl.length true rl R.nrows cfg.minRow none false = some lens ∧
      mapAxisPartitions cfg true func (df.cut rl [w]) true none none = some (R.cut lens [R.ncols]) := by
  have hw : w = df.ncols := by simpa using hcut.cw_sum
  subst hw
  have hb : sliceBounds [df.ncols] = [(0, df.ncols)] := sliceBounds_single _
  rw [mapAxis_rows_congr' cfg hwf hcut true none none (func' := fun _ => some R) (by
    intro q hq
    rw [hb] at hq
    obtain rfl : q = (0, df.ncols) := by simpa using hq
    simp only
    rw [Frame.ilocCols_all hwf]
    exact hfunc)]
  have hparts : df.cut rl [df.ncols] = (sliceBounds rl).map fun p => [df.ilocRows p.1 p.2] := by
    unfold Frame.cut
    apply List.map_congr_left
    intro p _
    simp only [sliceBounds_single, List.map_cons, List.map_nil]
    rw [show df.ncols = (df.ilocRows p.1 p.2).ncols from rfl, (hwf.ilocRows p.1 p.2).ilocCols_all]
  have hcol : colBlocks (df.cut rl [df.ncols]) = [(sliceBounds rl).map fun p => df.ilocRows p.1 p.2] := by
    rw [hparts]
    exact colBlocks_matrix (sliceBounds rl) [()] (fun p _ => df.ilocRows p.1 p.2) (sliceBounds_ne_nil hcut.rl_ne)
  have hlen : (df.cut rl [df.ncols]).length = rl.length := by simp [Frame.cut, sliceBounds_length]
  have hpos : 1 ≤ rl.length := List.length_pos_iff.2 hcut.rl_ne
  have hd := deploy_rows_eq (fun _ => R) rl.length true ((sliceBounds rl).map fun p => df.ilocRows p.1 p.2) cfg.minRow none false df
    (vcat_rows_cut hwf hcut) hR
  have hnr : ((sliceBounds rl).map fun p => df.ilocRows p.1 p.2).map (·.nrows) = rl := by
    rw [List.map_map]; exact sliceBounds_nrows hcut
  rw [hnr] at hd
  obtain ⟨lens, hl, hlne, hls⟩ := deployLens_ok rl.length hpos true rl R.nrows cfg.minRow hr none false (by simp)
  refine ⟨lens, hlne, hls, hl, ?_⟩
  rw [hl, Option.map_some] at hd
  unfold mapAxisPartitions truthyLengths axisNumSplits
  simp only [Option.isSome_none, Bool.and_false, Bool.false_eq_true, ↓reduceIte, Option.isNone_none, Bool.and_true,
    hcol, List.mapM_cons, List.mapM_nil, hlen]
  rw [hd]
  simp only [Option.bind_eq_bind, Option.bind_some, Option.pure_def]
  congr 1
  have := colBlocks_matrix [()] (sliceBounds lens) (fun _ p => R.ilocRows p.1 p.2) (by simp)
  simp only [List.map_cons, List.map_nil] at this
  rw [this]
  unfold Frame.cut
  apply List.map_congr_left
  intro p _
  simp only [sliceBounds_single, List.map_cons, List.map_nil]
  rw [show R.ncols = (R.ilocRows p.1 p.2).ncols from rfl, (hR.ilocRows p.1 p.2).ilocCols_all]

theorem unsynced_single_shows [DecidableEq ι] [DecidableEq κ] [DecidableEq ι'] [DecidableEq κ'] (cfg : Cfg)
    (hr : 1 ≤ cfg.minRow) {m : LFrame ι κ α} {df : Frame ι κ α} (h : m.Shows df) (hw : gridWidth m.parts ≤ 1)
    {func : Frame ι κ α → Option (Frame ι' κ' β)} {R : Frame ι' κ' β} (hR : R.WF) (hfunc : func df = some R)
    {newIndex : Option (List ι')} {newColumns : Option (List κ')} (hi : newIndex = none ∨ newIndex = some R.index)
    (hk : newColumns = none ∨ newColumns = some R.columns) :
    ∃ m', m.applyFullUnsynced cfg true func newIndex newColumns = some m' ∧ m'.Shows R := by
  obtain ⟨m1, rl, w, e1, hc, hp, hrl⟩ := synced_single h hw
  obtain ⟨lens, h2, h3, h4, h5⟩ := mapAxis_one_col cfg hr hR h.wf hfunc hc
  have hc' : R.IsCut lens [R.ncols] := ⟨h2, by simp, h3, by simp⟩
  have hg : gridWidth (R.cut lens [R.ncols]) = 1 := by rw [gridWidth_cut h2]; rfl
  have hrep : ∃ m', MFrame.mk' ⟨R.cut lens [R.ncols], newIndex, newColumns,
      newIndex.bind fun i => m1.rowLens.bind fun l => if i.length = l.sum ∧ l.all (· != 0) then some l else none,
      newColumns.bind fun c => if gridWidth (R.cut lens [R.ncols]) = 1 then some [c.length] else none⟩ = some m' ∧ m'.Represents R := by
    refine represents_mk' ⟨hR, ⟨lens, _, hc', rfl, ?_, ?_⟩, hi, hk⟩
    · rcases hi with rfl | rfl
      · exact Or.inl rfl
      · rcases hrl with e | e
        · left; simp [e]
        · simp only [e, Option.bind_some]
          split
          · rename_i hcond
            right
            rw [deployLens_same rfl h4 hcond.1]
          · exact Or.inl rfl
    · rcases hk with rfl | rfl
      · exact Or.inl rfl
      · right
        simp only [Option.bind_some, hg, ↓reduceIte]
        rfl
  obtain ⟨m', e2, e3⟩ := hrep
  refine ⟨_, ?_, represents_shows e3⟩
  unfold LFrame.applyFullUnsynced LFrame.operation
  rw [e1, Option.bind_some]
  simp only [hp, h5, Option.bind_some, ↓reduceIte]
  rw [e2]
  rfl

/-! ### aligning -/

theorem dotCommon_again [DecidableEq L] {P : DotOps L α} (hP : ∀ l, (P.arrange l).Perm l) {xs ys c : List L} (h : dotCommon P xs ys = some c) :
    dotCommon P xs c = some c := by
  unfold dotCommon at h
  split at h
  · cases h
  · rename_i hc
    simp only [Option.some.injEq] at h
    rw [h] at hc
    have hu : labelUnion P xs c = c ∧ c.length = xs.length := by
      unfold labelUnion at h
      split at h
      · subst h; exact ⟨by unfold labelUnion; rw [if_pos rfl], rfl⟩
      · have hp := (hP (xs ++ ys.filter (fun y => decide (y ∉ xs)))).length_eq
        rw [h, List.length_append] at hp
        have h0 : ys.filter (fun y => decide (y ∉ xs)) = [] := List.length_eq_zero_iff.1 (by omega)
        rw [h0, List.append_nil] at h
        have hpx := hP xs
        rw [h] at hpx
        refine ⟨?_, hpx.length_eq⟩
        unfold labelUnion
        split
        · assumption
        · have : c.filter (fun y => decide (y ∉ xs)) = [] := by
            rw [List.filter_eq_nil_iff]
            intro y hy
            simp [hpx.mem_iff.1 hy]
          rw [this, List.append_nil, h]
    unfold dotCommon
    rw [hu.1, if_neg (by omega)]

/-- a row, for the labels `c` -/
def fitRow [DecidableEq L] (nan : α) (cols c : List L) (row : List α) : List α :=
  if cols = c then row else c.map fun y => (((cols.zip row).find? (·.1 == y)).map (·.2)).getD nan

theorem reindexColumns_fit [DecidableEq L] (nan : α) {f : Frame L L α} (hnd : f.columns.Nodup) (c : List L) :
    ∃ l, f.reindexColumns nan c = some l ∧ l.rows = f.rows.map (fitRow nan f.columns c) := by
  unfold Frame.reindexColumns fitRow
  by_cases h : f.columns = c
  · exact ⟨f, if_pos h, by simp [h]⟩
  · refine ⟨_, by rw [if_neg h, if_pos hnd], ?_⟩
    simp [h]

/-- the labels of the columns of the result -/
def DotArg.labels (P : DotOps L α) : DotArg L α → List L
  | .frame f => f.columns
  | .series _ _ => [P.num 0]
  | .matrix k _ => (List.range k).map P.num
  | .vector _ => [P.num 0]

/-- the operand is aligned already -/
def DotReady [DecidableEq L] (P : DotOps L α) (labels : List L) : DotArg L α → Prop
  | .frame f => dotCommon P labels f.index = some f.index
  | .series index _ => dotCommon P labels index = some index
  | .matrix _ rows => labels.length = rows.length
  | .vector values => labels.length = values.length

/-- one row of the result -/
def dotRow [DecidableEq L] (P : DotOps L α) (cols : List L) (arg : DotArg L α) (row : List α) : List α :=
  match arg with
  | .frame r => (List.range r.ncols).map fun j => P.inner (fitRow P.nan cols r.index row) (jthCells r.rows j)
  | .series index values => [P.inner (fitRow P.nan cols index row) values]
  | .matrix k rows => (List.range k).map fun j => P.inner row (jthCells rows j)
  | .vector values => [P.inner row values]

theorem dotRow_length [DecidableEq L] (P : DotOps L α) (cols : List L) (arg : DotArg L α) (row : List α) :
    (dotRow P cols arg row).length = (arg.labels P).length := by
  cases arg <;> simp [dotRow, DotArg.labels, Frame.ncols]

theorem labels_numCols (P : DotOps L α) (arg : DotArg L α) : (arg.labels P).length = arg.numCols := by
  cases arg <;> simp [DotArg.labels, DotArg.numCols, Frame.ncols]

theorem reindexIndex_self [DecidableEq ι] (nan : α) (f : Frame ι κ α) : f.reindexIndex nan f.index = some f := by
  unfold Frame.reindexIndex; rw [if_pos rfl]

theorem valuesFor_self [DecidableEq L] (nan : α) (l : List L) (vs : List α) : valuesFor nan l l vs = some vs := by
  unfold valuesFor; rw [if_pos rfl]

theorem dot_ready [DecidableEq L] (P : DotOps L α) (arg : DotArg L α) (f : Frame L L α) (hnd : f.columns.Nodup)
    (hr : DotReady P f.columns arg) :
    ∃ out, f.dot P arg = some out ∧ out.toFrame P = ⟨f.index, arg.labels P, f.rows.map (dotRow P f.columns arg)⟩ := by
  cases arg with
  | frame r =>
    obtain ⟨l, e1, e2⟩ := reindexColumns_fit P.nan hnd r.index
    simp only [DotReady] at hr
    refine ⟨_, by simp only [Frame.dot, hr, Option.bind_some, e1, reindexIndex_self, Option.map_some]; rfl, ?_⟩
    simp only [DotOut.toFrame, DotArg.labels, e2, List.map_map]
    rfl
  | series index values =>
    obtain ⟨l, e1, e2⟩ := reindexColumns_fit P.nan hnd index
    simp only [DotReady] at hr
    refine ⟨_, by simp only [Frame.dot, hr, Option.bind_some, e1, valuesFor_self, Option.map_some]; rfl, ?_⟩
    simp only [DotOut.toFrame, DotArg.labels, e2, List.map_map]
    rfl
  | matrix k rows =>
    simp only [DotReady] at hr
    refine ⟨_, by simp only [Frame.dot, Frame.ncols, hr, ↓reduceIte]; rfl, ?_⟩
    simp only [DotOut.toFrame, DotArg.labels]
    rfl
  | vector values =>
    simp only [DotReady] at hr
    refine ⟨_, by simp only [Frame.dot, Frame.ncols, hr, ↓reduceIte]; rfl, ?_⟩
    simp only [DotOut.toFrame, DotArg.labels, List.map_map]
    rfl

/-! ### the compiler's function -/

theorem dotKernel_eq [DecidableEq L] (P : DotOps L α) (un : L) (ai ac : Bool) (arg : DotArg L α) (f : Frame L L α) (hnd : f.columns.Nodup)
    (hr : DotReady P f.columns arg) (hc : ac = true → arg.numCols = 1) (hi : ai = true → f.index.length = 1) :
    dotKernel P un false ai ac arg f = some ⟨if ai then [un] else f.index, if ac then [un] else arg.labels P,
      f.rows.map (dotRow P f.columns arg)⟩ := by
  obtain ⟨out, e1, e2⟩ := dot_ready P arg f hnd hr
  unfold dotKernel
  simp only [Bool.false_eq_true, ↓reduceIte, e1, Option.bind_some, e2]
  have h1 : (if ac = true then (⟨f.index, arg.labels P, f.rows.map (dotRow P f.columns arg)⟩ : Frame L L α).setColumns [un]
      else some ⟨f.index, arg.labels P, f.rows.map (dotRow P f.columns arg)⟩)
      = some ⟨f.index, if ac then [un] else arg.labels P, f.rows.map (dotRow P f.columns arg)⟩ := by
    cases ac with
    | false => simp
    | true =>
      simp only [↓reduceIte, Frame.setColumns]
      rw [if_pos (by rw [labels_numCols, hc rfl]; rfl)]
  rw [h1, Option.bind_some]
  cases ai with
  | false => simp
  | true =>
    simp only [↓reduceIte, Frame.setIndex]
    rw [if_pos (by rw [hi rfl]; rfl)]

theorem dotCompiled_many [DecidableEq L] (cfg : Cfg) (hp : 1 ≤ cfg.nPartitions) (hmc : 1 ≤ cfg.minCol) (P : DotOps L α) (un : L)
    {m : LFrame L L α} {df : Frame L L α} (h : m.Shows df) (hn : df.ncols ≠ 1) (hnd : df.columns.Nodup) (arg : DotArg L α)
    (hr : DotReady P df.columns arg) :
    ∃ m', m.dotCompiled cfg P un false arg = some m' ∧
      m'.Shows ⟨df.index, if arg.numCols = 1 then [un] else arg.labels P, df.rows.map (dotRow P df.columns arg)⟩ := by
  unfold LFrame.dotCompiled
  have hn' : ¬ df.columns.length = 1 := hn
  simp only [h.getColumns, h.getIndex, if_neg hn']
  let F : Frame L L α → Frame L L α := fun f => f.mapRows (fun _ => if arg.numCols = 1 then [un] else arg.labels P) (dotRow P df.columns arg)
  refine unsynced_lines_shows (F := F) cfg hp hmc h (rowLocal_mapRows _ _ ?_) (fun a b => Frame.mapRows_ilocRows _ _ _ a b) ?_ rfl (Or.inr rfl) ?_
  · intro cs r _
    rw [dotRow_length]
    by_cases h1 : arg.numCols = 1
    · simp [h1, labels_numCols]
    · simp [h1]
  · intro a b
    rw [dotKernel_eq P un _ _ arg (df.ilocRows a b) hnd hr (by simp) (by simp)]
    by_cases h1 : arg.numCols = 1 <;> simp [F, Frame.mapRows, Frame.ilocRows, h1]
  · by_cases h1 : arg.numCols = 1 <;> simp [F, Frame.mapRows, h1]

theorem dotCompiled_one [DecidableEq L] (cfg : Cfg) (hmr : 1 ≤ cfg.minRow) (P : DotOps L α) (un : L)
    {m : LFrame L L α} {df : Frame L L α} (h : m.Shows df) (hn : df.ncols = 1) (hw : gridWidth m.parts ≤ 1) (arg : DotArg L α)
    (hr : DotReady P df.columns arg) :
    ∃ m', m.dotCompiled cfg P un false arg = some m' ∧
      m'.Shows ⟨if df.nrows = 1 ∧ arg.numCols = 1 then [un] else df.index, arg.labels P, df.rows.map (dotRow P df.columns arg)⟩ := by
  have hnd : df.columns.Nodup := by
    obtain ⟨c, hc⟩ := List.length_eq_one_iff.1 hn
    rw [hc]; simp
  unfold LFrame.dotCompiled
  have hn' : df.columns.length = 1 := hn
  simp only [h.getColumns, h.getIndex, if_pos hn']
  have hcase : (((decide (df.index.length = 1) || false) && decide (arg.numCols = 1)) = true) ↔ (df.nrows = 1 ∧ arg.numCols = 1) := by
    simp [Frame.nrows]
  simp only [Bool.false_and, Bool.false_eq_true, ↓reduceIte]
  refine unsynced_single_shows cfg hmr h hw ?_ ?_ ?_ (Or.inl rfl)
  · refine ⟨?_, ?_⟩
    · split
      · rename_i h1
        have := h.wf.rows_len
        simp only [List.length_map, this]
        exact h1.1
      · simp [h.wf.rows_len]
    · intro r hr'
      obtain ⟨x, _, rfl⟩ := List.mem_map.1 hr'
      exact dotRow_length _ _ _ _
  · rw [dotKernel_eq P un _ _ arg df hnd hr (by simp) (fun e => (hcase.1 e).1)]
    by_cases h1 : df.nrows = 1 ∧ arg.numCols = 1
    · rw [if_pos (hcase.2 h1), if_pos h1]; rfl
    · rw [if_neg (fun e => h1 (hcase.1 e)), if_neg h1]; rfl
  · by_cases h1 : df.nrows = 1 ∧ arg.numCols = 1
    · rw [if_pos (hcase.2 h1), if_pos h1]; exact Or.inr rfl
    · rw [if_neg (fun e => h1 (hcase.1 e))]; exact Or.inl rfl

/-! ### the other operand -/

theorem dotAligned_spec [DecidableEq L] (cfg : Cfg) (hp : 1 ≤ cfg.nPartitions) (hmr : 1 ≤ cfg.minRow) (hmc : 1 ≤ cfg.minCol) (P : DotOps L α)
    (labels : List L) {o : LFrame L L α} {f : Frame L L α} (h : o.Shows f) (hnd : f.index.Nodup) :
    match dotCommon P labels f.index with
    | none => LFrame.dotAligned cfg P labels o = none
    | some c => ∃ r, f.reindexIndex P.nan c = some r ∧ LFrame.dotAligned cfg P labels o = some r ∧ r.index = c ∧ r.columns = f.columns := by
  unfold dotCommon LFrame.dotAligned
  rw [h.getIndex]
  by_cases hc : (labelUnion P labels f.index).length > labels.length ∨ (labelUnion P labels f.index).length > f.index.length
  · simp only [hc, ↓reduceIte]
  · simp only [hc, ↓reduceIte]
    have := C56_reindex_partial cfg hp hmr hmc P.nan P.nan o f h (some ⟨true, labelUnion P labels f.index⟩) none (by simp)
    have hre : ∃ r, f.reindexIndex P.nan (labelUnion P labels f.index) = some r ∧ r.index = labelUnion P labels f.index ∧
        r.columns = f.columns := by
      unfold Frame.reindexIndex
      by_cases he : f.index = labelUnion P labels f.index
      · exact ⟨f, by rw [if_pos he], he, rfl⟩
      · rw [if_neg he, if_pos hnd]; exact ⟨_, rfl, rfl, rfl⟩
    obtain ⟨r, e1, e2, e3⟩ := hre
    simp only [Frame.reindex, Option.map_some, Option.map_none, Frame.reindexIndex?, Frame.reindexColumns?, e1, Option.bind_some] at this
    obtain ⟨m', e4, _, e5⟩ := this
    exact ⟨r, e1, by rw [e4, Option.bind_some, e5], e2, e3⟩

theorem dot_aligned_frame [DecidableEq L] {P : DotOps L α} (hP : ∀ l, (P.arrange l).Perm l) (df f r : Frame L L α) {c : List L}
    (hc : dotCommon P df.columns f.index = some c) (hr : f.reindexIndex P.nan c = some r) (hi : r.index = c) (hk : r.columns = f.columns) :
    df.dot P (.frame f) = df.dot P (.frame r) := by
  have h1 := dotCommon_again hP hc
  simp only [Frame.dot, hc, hi, h1, Option.bind_some, hr, Option.map_some]
  rw [show r.reindexIndex P.nan c = some r by rw [← hi]; exact reindexIndex_self _ _]
  simp only [Option.map_some, Frame.ncols, hk]

theorem find_zip_map {A B C : Type} [DecidableEq A] (g : B → C) (l : List A) (r : List B) (x : A) :
    ((l.zip (r.map g)).find? (·.1 == x)).map (·.2) = (((l.zip r).find? (·.1 == x)).map (·.2)).map g := by
  induction l generalizing r with
  | nil => simp
  | cons a l ih =>
    cases r with
    | nil => simp
    | cons b r =>
      simp only [List.map_cons, List.zip_cons_cons, List.find?_cons]
      split
      · simp
      · exact ih r

theorem jthCells_singles (vs : List α) : jthCells (vs.map fun v => [v]) 0 = vs := by
  unfold jthCells
  induction vs with
  | nil => rfl
  | cons v vs ih => rw [List.map_cons, List.filterMap_cons]; simp [ih]

theorem reindex_series [DecidableEq L] (nan : α) (idx : List L) (c : L) (vals : List α) (common : List L) (hnd : idx.Nodup) :
    ∃ w, valuesFor nan idx common vals = some w ∧
      (⟨idx, [c], vals.map fun v => [v]⟩ : Frame L L α).reindexIndex nan common = some ⟨common, [c], w.map fun v => [v]⟩ := by
  unfold valuesFor Frame.reindexIndex
  by_cases h : idx = common
  · exact ⟨vals, by simp [h], by simp [h]⟩
  · refine ⟨_, by simp only [h, hnd, ↓reduceIte]; rfl, ?_⟩
    simp only [h, hnd, ↓reduceIte, List.map_map]
    congr 2
    apply List.map_congr_left
    intro x _
    rw [find_zip_map]
    simp only [Function.comp, Frame.ncols]
    cases ((idx.zip vals).find? (·.1 == x)).map (·.2) <;> simp

theorem dot_aligned_series [DecidableEq L] {P : DotOps L α} (hP : ∀ l, (P.arrange l).Perm l) (df : Frame L L α) (idx : List L) (vals w : List α)
    {c : List L} (hc : dotCommon P df.columns idx = some c) (hw : valuesFor P.nan idx c vals = some w) :
    df.dot P (.series idx vals) = df.dot P (.series c w) := by
  have h1 := dotCommon_again hP hc
  simp only [Frame.dot, hc, h1, Option.bind_some, hw, Option.map_some, valuesFor_self]

/-! ### the result as the user sees it -/

theorem asSeries_shows [DecidableEq L] (nan : α) (un : L) {m : LFrame L L α} {idx : List L} {c : L} {rows : List (List α)}
    (h : m.Shows ⟨idx, [c], rows⟩) (hi : idx ≠ [un]) :
    m.asSeries nan un = some (.series (if c = un then none else some c) idx (jthCells rows 0)) := by
  unfold LFrame.asSeries LFrame.columnarize
  rw [h.getColumns, h.getIndex]
  rw [if_neg, Option.bind_some, (h.observed nan).1]
  · rfl
  · rintro (h1 | ⟨h1, h2⟩)
    · exact h1 rfl
    · obtain ⟨x, hx⟩ := List.length_eq_one_iff.1 h1
      simp only at hx h2
      subst hx
      simp only [List.head?_cons, Option.some.injEq] at h2
      exact hi (by rw [h2])

/-! ### Series on the left -/

/-- the column of results -/
def dotColumn [DecidableEq L] (P : DotOps L α) (idx : List L) (vals : List α) : DotArg L α → List α
  | .frame r => (List.range r.ncols).map fun j => P.inner (((valuesFor P.nan idx r.index vals)).getD []) (jthCells r.rows j)
  | .series index values => [P.inner ((valuesFor P.nan idx index vals).getD []) values]
  | .matrix k rows => (List.range k).map fun j => P.inner vals (jthCells rows j)
  | .vector values => [P.inner vals values]

/-- the form of the result -/
def DotArg.seriesOut (nan : α) (name : Option L) (col : List α) : DotArg L α → DotOut L α
  | .frame r => .series name r.columns col
  | .series _ _ => .scalar (col.headD nan)
  | .matrix _ _ => .array col
  | .vector _ => .scalar (col.headD nan)

theorem valuesFor_some [DecidableEq L] (nan : α) {idx : List L} (h : idx.Nodup) (c : List L) (vals : List α) :
    valuesFor nan idx c vals = some ((valuesFor nan idx c vals).getD []) := by
  unfold valuesFor
  by_cases h1 : idx = c
  · simp [h1]
  · simp [h1, h]

theorem seriesDot_ready [DecidableEq L] (P : DotOps L α) (name : Option L) {idx : List L} {vals : List α} (hl : vals.length = idx.length)
    (hnd : idx.Nodup) (arg : DotArg L α) (hr : DotReady P idx arg) :
    seriesDot P name idx vals arg = some (arg.seriesOut P.nan name (dotColumn P idx vals arg)) := by
  cases arg with
  | frame r =>
    simp only [DotReady] at hr
    simp only [seriesDot, hr, Option.bind_some, reindexIndex_self, Option.map_some]
    rw [valuesFor_some P.nan hnd]
    rfl
  | series index values =>
    simp only [DotReady] at hr
    simp only [seriesDot, hr, Option.bind_some, valuesFor_self, Option.map_some]
    rw [valuesFor_some P.nan hnd]
    rfl
  | matrix k rows =>
    simp only [DotReady] at hr
    simp only [seriesDot, hl, hr, ↓reduceIte, dotColumn, DotArg.seriesOut]
  | vector values =>
    simp only [DotReady] at hr
    simp only [seriesDot, hl, hr, ↓reduceIte, dotColumn, DotArg.seriesOut, List.headD]

theorem series_aligned_frame [DecidableEq L] {P : DotOps L α} (hP : ∀ l, (P.arrange l).Perm l) (name : Option L) (idx : List L) (vals : List α)
    (f r : Frame L L α) {c : List L}
    (hc : dotCommon P idx f.index = some c) (hr : f.reindexIndex P.nan c = some r) (hi : r.index = c) (hk : r.columns = f.columns) :
    seriesDot P name idx vals (.frame f) = seriesDot P name idx vals (.frame r) := by
  have h1 := dotCommon_again hP hc
  simp only [seriesDot, hc, hi, h1, Option.bind_some, hr, Option.map_some]
  rw [show r.reindexIndex P.nan c = some r by rw [← hi]; exact reindexIndex_self _ _]
  simp only [Option.map_some, Frame.ncols, hk]

theorem series_aligned_series [DecidableEq L] {P : DotOps L α} (hP : ∀ l, (P.arrange l).Perm l) (name : Option L) (idx : List L) (vals : List α)
    (idx' : List L) (vals' w : List α)
    {c : List L} (hc : dotCommon P idx idx' = some c) (hw : valuesFor P.nan idx' c vals' = some w) :
    seriesDot P name idx vals (.series idx' vals') = seriesDot P name idx vals (.series c w) := by
  have h1 := dotCommon_again hP hc
  simp only [seriesDot, hc, h1, Option.bind_some, hw, Option.map_some, valuesFor_self]

/-- the row labels of the column of results in the block -/
def DotArg.seriesLabels (P : DotOps L α) : DotArg L α → List L
  | .frame f => f.columns
  | .series _ _ => [P.num 0]
  | .matrix k _ => (List.range k).map P.num
  | .vector _ => [P.num 0]

/-- the label of the column of results in the block -/
def DotArg.seriesName (P : DotOps L α) (c : L) : DotArg L α → L
  | .frame _ => c
  | _ => P.num 0

theorem dotColumn_length [DecidableEq L] (P : DotOps L α) (idx : List L) (vals : List α) (arg : DotArg L α) :
    (dotColumn P idx vals arg).length = arg.numCols := by
  cases arg <;> simp [dotColumn, DotArg.numCols]

theorem seriesLabels_length (P : DotOps L α) (arg : DotArg L α) : (arg.seriesLabels P).length = arg.numCols := by
  cases arg <;> simp [DotArg.seriesLabels, DotArg.numCols, Frame.ncols]

theorem seriesCompiled [DecidableEq L] (cfg : Cfg) (hmr : 1 ≤ cfg.minRow) (P : DotOps L α) (un : L)
    {m : LFrame L L α} {idx : List L} {c : L} {vals : List α} (h : m.Shows ⟨idx, [c], vals.map fun v => [v]⟩) (hw : gridWidth m.parts ≤ 1)
    (hnd : idx.Nodup) (arg : DotArg L α) (hr : DotReady P idx arg) :
    ∃ m', m.dotCompiled cfg P un true arg = some m' ∧
      m'.Shows ⟨if arg.numCols = 1 then [un] else arg.seriesLabels P, [if arg.numCols = 1 then un else arg.seriesName P c],
        (dotColumn P idx vals arg).map fun v => [v]⟩ := by
  have hl : vals.length = idx.length := by have := h.wf.rows_len; simpa using this
  unfold LFrame.dotCompiled
  simp only [h.getColumns, h.getIndex, List.length_singleton, ↓reduceIte, Bool.or_true, Bool.true_and]
  refine unsynced_single_shows cfg hmr h hw ?_ ?_ ?_ ?_
  · refine ⟨?_, ?_⟩
    · rw [List.length_map, dotColumn_length]
      split
      · rename_i e; simp [e]
      · rw [seriesLabels_length]
    · intro r hr'
      obtain ⟨x, _, rfl⟩ := List.mem_map.1 hr'
      rfl
  · have e1 : (⟨idx, [c], vals.map fun v => [v]⟩ : Frame L L α).squeezedDot P arg = seriesDot P (some c) idx vals arg := by
      simp only [Frame.squeezedDot, jthCells_singles]
    unfold dotKernel
    simp only [↓reduceIte, e1]
    rw [seriesDot_ready P (some c) hl hnd arg hr, Option.bind_some]
    have e2 : DotOut.toFrame P (arg.seriesOut P.nan (some c) (dotColumn P idx vals arg))
        = ⟨arg.seriesLabels P, [arg.seriesName P c], (dotColumn P idx vals arg).map fun v => [v]⟩ := by
      cases arg <;> simp [DotArg.seriesOut, DotOut.toFrame, DotArg.seriesLabels, DotArg.seriesName, dotColumn]
    rw [e2]
    by_cases h1 : arg.numCols = 1
    · simp only [h1, decide_true, ↓reduceIte, Frame.setColumns, Option.bind_some, Frame.setIndex]
      rw [if_pos (by rfl), Option.bind_some]
      simp only
      rw [if_pos (by rw [seriesLabels_length, h1]; rfl)]
    · simp [h1]
  · by_cases h1 : arg.numCols = 1 <;> simp [h1]
  · by_cases h1 : arg.numCols = 1 <;> simp [h1]
