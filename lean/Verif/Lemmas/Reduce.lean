import Verif.Model.Reduce
import Verif.Lemmas.NAry

variable {ι κ α ι' κ' β γ : Type}

/-! ### columns and rows of glued frames -/

/-- the consecutive pieces of a list, of the given lengths -/
def piecesOf (lens : List Nat) (c : List α) : List (List α) :=
  (sliceBounds lens).map fun p => pySlice c p.1 p.2

theorem piecesOf_flatten {lens : List Nat} {c : List α} (h : lens.sum = c.length) :
    (piecesOf lens c).flatten = c := by
  unfold piecesOf
  rw [sliceBounds_flatten, h, List.take_length]

theorem piecesOf_lengths {lens : List Nat} {c : List α} (h : lens.sum = c.length) :
    (piecesOf lens c).map List.length = lens := by
  unfold piecesOf
  rw [List.map_map]
  exact sliceBounds_lengths c lens (Nat.le_of_eq h)

theorem filterMap_flatten' {A B : Type} (f : A → Option B) (ls : List (List A)) :
    ls.flatten.filterMap f = (ls.map (·.filterMap f)).flatten := by
  induction ls with
  | nil => rfl
  | cons l ls ih => simp [List.filterMap_append, ih]

theorem Frame.WF.column_ilocRows {f : Frame ι κ α} (h : f.WF) {j : Nat} (hj : j < f.ncols) (a b : Nat) :
    (f.ilocRows a b).column j = pySlice (f.column j) a b := by
  unfold Frame.column
  rw [pySlice_filterMap_some]
  · rfl
  · intro r hr
    have := h.row_width r hr
    simp only [Frame.ncols] at hj
    rw [List.getElem?_eq_getElem (by omega)]
    rfl

theorem filterMap_getElem?_map {A B : Type} (l : List A) (f : A → B) (k : Nat)
    (g : A → Option B) (h : ∀ x ∈ l, g x = some (f x)) : (l.filterMap g)[k]? = l[k]?.map f := by
  induction l generalizing k with
  | nil => simp
  | cons x xs ih =>
    rw [List.filterMap_cons, h x (by simp)]
    cases k with
    | zero => simp
    | succ k => simpa using ih k (fun y hy => h y (by simp [hy]))

/-- the columns of a column-wise result -/
theorem Frame.WF.column_mapColumns {f : Frame ι κ α} (hwf : f.WF) (g : List ι → List ι')
    (h : List α → List β) (hl : ∀ c : List α, c.length = f.index.length → (h c).length = (g f.index).length)
    {j : Nat} (hj : j < f.ncols) : (f.mapColumns g h).column j = h (f.column j) := by
  have hlj := hl (f.column j) (hwf.column_length hj)
  unfold Frame.column Frame.mapColumns
  simp only [List.filterMap_map, Function.comp_def]
  have : ∀ i ∈ List.range (g f.index).length,
      (f.cols.filterMap fun c => (h c)[i]?)[j]? = (h (f.column j))[i]? := by
    intro i hi
    simp only [List.mem_range] at hi
    have hall : ∀ c ∈ f.cols, ∃ y, (h c)[i]? = some y := by
      intro c hc
      unfold Frame.cols at hc
      simp only [List.mem_map, List.mem_range] at hc
      obtain ⟨j', hj', rfl⟩ := hc
      have := hl (f.column j') (hwf.column_length hj')
      exact ⟨_, List.getElem?_eq_getElem (by omega)⟩
    have key : ∀ (l : List (List α)) (k : Nat), (∀ c ∈ l, ∃ y, (h c)[i]? = some y) →
        (l.filterMap fun c => (h c)[i]?)[k]? = l[k]?.bind fun c => (h c)[i]? := by
      intro l
      induction l with
      | nil => simp
      | cons x xs ih =>
        intro k hx
        obtain ⟨y, hy⟩ := hx x (by simp)
        rw [List.filterMap_cons, hy]
        cases k with
        | zero => simp [hy]
        | succ k => simpa using ih k (fun c hc => hx c (by simp [hc]))
    rw [key _ _ hall]
    unfold Frame.cols
    rw [List.getElem?_map, List.getElem?_range hj]
    rfl
  have hcongr : (List.range (g f.index).length).filterMap
      (fun i => (f.cols.filterMap fun c => (h c)[i]?)[j]?)
      = (List.range (h (f.column j)).length).filterMap (fun i => (h (f.column j))[i]?) := by
    rw [hlj]
    exact filterMap_congr' this
  rw [hcongr, range_filterMap_getElem?]
  rfl

theorem columnLocal_mapColumnsI [DecidableEq ι] [DecidableEq ι'] (g : List ι → List ι')
    (h : List ι → List α → List β)
    (hl : ∀ (idx₀ idx : List ι) (c : List α), c.length = idx.length → (h idx₀ c).length = (g idx).length) :
    ColumnLocal (fun f : Frame ι κ α => f.mapColumns g (h f.index)) := by
  refine ⟨fun f hwf => hwf.mapColumns g _ (hl f.index), ?_⟩
  intro fs f hwf hcat
  have := (columnLocal_mapColumns (κ := κ) g (h f.index) (hl f.index)).2 fs f hwf hcat
  rw [← this]
  congr 1
  apply List.map_congr_left
  intro x hx
  show x.mapColumns g (h x.index) = _
  rw [(Frame.hcat_index hcat).2 x hx]

theorem rowLocal_mapRowsI [DecidableEq κ] [DecidableEq κ'] (g : List κ → List κ')
    (h : List κ → List α → List β)
    (hl : ∀ (cs₀ cs : List κ) (r : List α), r.length = cs.length → (h cs₀ r).length = (g cs).length) :
    RowLocal (fun f : Frame ι κ α => f.mapRows g (h f.columns)) := by
  refine ⟨fun f hwf => (rowLocal_mapRows g _ (hl f.columns)).1 f hwf, ?_⟩
  intro fs f hwf hcat
  have := (rowLocal_mapRows (ι := ι) g (h f.columns) (hl f.columns)).2 fs f hwf hcat
  rw [← this]
  congr 1
  apply List.map_congr_left
  intro x hx
  show x.mapRows g (h x.columns) = _
  rw [(Frame.vcat_cols hcat).2 x hx]

/-! ### one value per column -/

theorem mapColumns_one (lab : ι') (h : List α → β) (f : Frame ι κ α) :
    f.mapColumns (fun _ => [lab]) (fun c => [h c]) = f.reduceColumns lab h := by
  simp only [Frame.mapColumns, Frame.reduceColumns, List.length_singleton, List.range_one, List.map_cons,
    List.map_nil, List.getElem?_cons_zero]
  rw [show (fun c => some (h c)) = (some ∘ h) from rfl, List.filterMap_eq_map]

theorem mapRows_one (lab : κ') (h : List α → β) (f : Frame ι κ α) :
    f.mapRows (fun _ => [lab]) (fun r => [h r]) = f.reduceRows lab h := rfl

theorem zerosLast_sum_one {lens : List Nat} (hz : ZerosLast lens) (hs : lens.sum = 1) :
    ∃ zs, lens = 1 :: zs := by
  cases lens with
  | nil => simp at hs
  | cons a as =>
    by_cases ha : a = 0
    · have : ∀ x ∈ as, x = 0 := fun x hx => (List.pairwise_cons.1 hz).1 x hx ha
      have h0 : ∀ l : List Nat, (∀ x ∈ l, x = 0) → l.sum = 0 := by
        intro l hl
        induction l with
        | nil => rfl
        | cons y ys ih => simp [hl y (by simp), ih (fun z hz => hl z (by simp [hz]))]
      rw [List.sum_cons, ha, h0 _ this] at hs
      omega
    · rw [List.sum_cons] at hs
      exact ⟨as, by rw [show a = 1 by omega]⟩

theorem sliceBounds_one (zs : List Nat) : ∃ t, sliceBounds (1 :: zs) = (0, 1) :: t := by
  unfold sliceBounds
  rw [consecutive_cumsumFrom_cons]
  exact ⟨_, rfl⟩

theorem reduceMeta0_spec {m : MFrame ι κ α} {df : Frame ι κ α} {rl cw : List Nat} (hcut : df.IsCut rl cw)
    (hp : m.parts = df.cut rl cw) (hcw : m.colWidths = none ∨ m.colWidths = some cw)
    (hcol : m.getColumns = df.columns) (hpos : 0 < df.ncols)
    {R : Frame String κ β} (hwf : R.WF) (hi : R.index = [unnamed]) (hc : R.columns = df.columns)
    {lens : List Nat} (hz : ZerosLast lens) (hs : lens.sum = 1) :
    ∃ m', reduceMeta0 m (R.cut lens cw) = some m' ∧ m'.Represents R := by
  obtain ⟨zs, rfl⟩ := zerosLast_sum_one hz hs
  obtain ⟨t, ht⟩ := sliceBounds_one zs
  obtain ⟨t', ht'⟩ := sliceBounds_one []
  have h1 : sliceBounds [1] = [(0, 1)] := by rfl
  have hcs := hcut.cw_sum
  have hpos' : df.columns.length ≠ 0 := Nat.pos_iff_ne_zero.1 hpos
  have hcut' : R.IsCut [1] (cw.filter (· ≠ 0)) := by
    refine ⟨by simp, ?_, by simp [Frame.nrows, hi], ?_⟩
    · intro h0
      have := filter_nonzero_sum cw
      rw [h0, hcs] at this
      exact hpos' this.symm
    · rw [filter_nonzero_sum, hcs, Frame.ncols, Frame.ncols, hc]
  unfold reduceMeta0
  rw [getColWidths_cut hcut hp hcw, hcol]
  refine ⟨⟨R.cut [1] (cw.filter (· ≠ 0)), some [unnamed], some df.columns, some [1], some (cw.filter (· ≠ 0))⟩,
    ?_, hwf, ⟨_, _, hcut', rfl, Or.inr rfl, Or.inr rfl⟩, Or.inr (by rw [hi]), Or.inr (by rw [hc])⟩
  unfold MFrame.mk' validAxis filterEmpties
  have hk : keepNonzero (R.cut (1 :: zs) cw) [1] = R.cut [1] cw := by
    unfold Frame.cut
    rw [ht, h1]
    simp [keepNonzero]
  have hk2 := keepNonzero_cut [1] cw R
  have hk3 : keepNonzero (R.cut [1] cw) [1] = R.cut [1] cw := by
    unfold Frame.cut
    rw [h1]
    rfl
  rw [hk3, show ([1] : List Nat).filter (· ≠ 0) = [1] from rfl] at hk2
  have hsum : cw.sum = df.columns.length := hcs
  have hne : df.columns ≠ [] := fun h => by rw [h] at hpos'; exact hpos' rfl
  simp [hsum, hk, hk2, hne]

theorem reduceMeta1_spec {m : MFrame ι κ α} {df : Frame ι κ α} {rl cw : List Nat} (hcut : df.IsCut rl cw)
    (hp : m.parts = df.cut rl cw) (hrl : m.rowLens = none ∨ m.rowLens = some rl)
    (hidx : m.getIndex = df.index) (hpos : 0 < df.nrows)
    {R : Frame ι String β} (hwf : R.WF) (hi : R.columns = [unnamed]) (hc : R.index = df.index)
    {lens : List Nat} (hz : ZerosLast lens) (hs : lens.sum = 1) :
    ∃ m', reduceMeta1 m (R.cut rl lens) = some m' ∧ m'.Represents R := by
  obtain ⟨zs, rfl⟩ := zerosLast_sum_one hz hs
  obtain ⟨t, ht⟩ := sliceBounds_one zs
  have h1 : sliceBounds [1] = [(0, 1)] := by rfl
  have hcs := hcut.rl_sum
  have hpos' : df.index.length ≠ 0 := Nat.pos_iff_ne_zero.1 hpos
  have hcut' : R.IsCut (rl.filter (· ≠ 0)) [1] := by
    refine ⟨?_, by simp, ?_, by simp [Frame.ncols, hi]⟩
    · intro h0
      have := filter_nonzero_sum rl
      rw [h0, hcs] at this
      exact hpos' this.symm
    · rw [filter_nonzero_sum, hcs, Frame.nrows, Frame.nrows, hc]
  unfold reduceMeta1
  rw [getRowLens_cut hcut hp hrl, hidx]
  refine ⟨⟨R.cut (rl.filter (· ≠ 0)) [1], some df.index, some [unnamed], some (rl.filter (· ≠ 0)), some [1]⟩,
    ?_, hwf, ⟨_, _, hcut', rfl, Or.inr rfl, Or.inr rfl⟩, Or.inr (by rw [hc]), Or.inr (by rw [hi])⟩
  unfold MFrame.mk' validAxis filterEmpties
  have hk : (keepNonzero (R.cut rl (1 :: zs)) rl).map (fun row => keepNonzero row [1])
      = (keepNonzero (R.cut rl [1]) rl).map (fun row => keepNonzero row [1]) := by
    unfold Frame.cut
    rw [keepNonzero_map, keepNonzero_map, List.map_map, List.map_map]
    apply List.map_congr_left
    intro p _
    simp only [Function.comp_def]
    rw [ht, h1]
    simp [keepNonzero]
  have hk2 := keepNonzero_cut rl [1] R
  rw [show ([1] : List Nat).filter (· ≠ 0) = [1] from rfl, ← hk] at hk2
  have hsum : rl.sum = df.index.length := hcs
  have hne : df.index ≠ [] := fun h => by rw [h] at hpos'; exact hpos' rfl
  simp [hsum, hk2, hne]

/-! ### tree reductions -/

/-- the frame of all block results, axis 0 -/
def mapped0 (labs : List ι') (mapc : List α → List β) (rl : List Nat) (df : Frame ι κ α) : Frame ι' κ β :=
  { index := (List.replicate rl.length labs).flatten, columns := df.columns,
    rows := ((sliceBounds rl).map fun p => ((df.ilocRows p.1 p.2).mapColumns (fun _ => labs) mapc).rows).flatten }

theorem mapped0_spec {df : Frame ι κ α} (hwf : df.WF) {rl cw : List Nat} (hcut : df.IsCut rl cw)
    (labs : List ι') (mapc : List α → List β) (hl : ∀ c, (mapc c).length = labs.length) :
    (mapped0 labs mapc rl df).WF ∧
    baseMapPartitions (fun b => some (b.mapColumns (fun _ => labs) mapc)) (df.cut rl cw)
      = some ((mapped0 labs mapc rl df).cut (List.replicate rl.length labs.length) cw) ∧
    ∀ j, j < df.ncols → (mapped0 labs mapc rl df).column j = ((piecesOf rl (df.column j)).map mapc).flatten := by
  let bs := (sliceBounds rl).map fun p => (df.ilocRows p.1 p.2).mapColumns (fun _ => labs) mapc
  have hbs : bs.length = rl.length := by simp [bs, sliceBounds_length]
  have hbwf : ∀ x ∈ bs, x.WF := by
    intro x hx
    simp only [bs, List.mem_map] at hx
    obtain ⟨p, _, rfl⟩ := hx
    exact (hwf.ilocRows _ _).mapColumns _ _ (fun _ c _ => hl c)
  have hbc : ∀ x ∈ bs, x.columns = df.columns := by
    intro x hx
    simp only [bs, List.mem_map] at hx
    obtain ⟨p, _, rfl⟩ := hx
    rfl
  have hbi : bs.map (·.index) = List.replicate rl.length labs := by
    rw [← hbs, List.eq_replicate_iff]
    refine ⟨by simp, ?_⟩
    intro x hx
    simp only [bs, List.mem_map] at hx
    obtain ⟨_, ⟨p, _, rfl⟩, rfl⟩ := hx
    rfl
  have hM : mapped0 labs mapc rl df
      = { index := (bs.map (·.index)).flatten, columns := df.columns, rows := (bs.map (·.rows)).flatten } := by
    unfold mapped0
    rw [hbi]
    simp only [bs, List.map_map, Function.comp_def]
  have hn : bs.map (·.nrows) = List.replicate rl.length labs.length := by
    have : bs.map (·.nrows) = (bs.map (·.index)).map List.length := by simp [List.map_map, Frame.nrows]
    rw [this, hbi, List.map_replicate]
  have hsplit := vcat_split_self bs df.columns hbc hbwf
  rw [← hM, hn] at hsplit
  refine ⟨?_, ?_, ?_⟩
  · rw [hM]
    constructor
    · simp only [List.length_flatten, List.map_map]
      congr 1
      apply List.map_congr_left
      intro x hx
      exact (hbwf x hx).rows_len
    · intro r hr
      simp only [List.mem_flatten, List.mem_map] at hr
      obtain ⟨_, ⟨x, hx, rfl⟩, hr⟩ := hr
      rw [(hbwf x hx).row_width r hr, hbc x hx]
  · have hcutM : (mapped0 labs mapc rl df).cut (List.replicate rl.length labs.length) cw
        = bs.map fun b => (sliceBounds cw).map fun q => b.ilocCols q.1 q.2 := by
      unfold Frame.cut
      conv => rhs; rw [← hsplit, List.map_map]
      rfl
    rw [hcutM]
    unfold baseMapPartitions Frame.cut
    have : (fun row : List (Frame ι κ α) => row.mapM fun b => some (b.mapColumns (fun _ => labs) mapc))
        = fun row => some (row.map fun b => b.mapColumns (fun _ => labs) mapc) := by
      funext row; exact mapM_some _ _
    rw [this, mapM_some]
    simp only [bs, List.map_map, Option.some.injEq]
    apply List.map_congr_left
    intro p _
    simp only [Function.comp_def, List.map_map]
    apply List.map_congr_left
    intro q _
    exact (hwf.ilocRows _ _).mapColumns_ilocCols _ _ (fun _ c _ => hl c) _ _
  · intro j hj
    rw [hM]
    unfold Frame.column
    rw [filterMap_flatten', List.map_map]
    unfold piecesOf
    simp only [bs, List.map_map]
    congr 1
    apply List.map_congr_left
    intro p _
    simp only [Function.comp_def]
    show ((df.ilocRows p.1 p.2).mapColumns (fun _ => labs) mapc).column j = _
    rw [(hwf.ilocRows _ _).column_mapColumns _ _ (fun c _ => hl c) hj, hwf.column_ilocRows hj]
    rfl

theorem treeReduce0_spec [DecidableEq κ] [DecidableEq ι'] (cfg : Cfg) (hp : 1 ≤ cfg.nPartitions)
    (hr : 1 ≤ cfg.minRow) {m : MFrame ι κ α} {df : Frame ι κ α} (hm : m.Represents df) (hpos : 0 < df.ncols)
    (labs : List ι') (mapc : List α → List β) (hl : ∀ c, (mapc c).length = labs.length)
    (red : List ι' → List β → γ) (h : List α → γ)
    (hlaw : ∀ bs : List (List α), bs.map List.length = m.getRowLens →
      red (List.replicate bs.length labs).flatten (bs.map mapc).flatten = h bs.flatten) :
    ∃ m', treeReduce0 cfg (fun b => some (b.mapColumns (fun _ => labs) mapc))
        (fun f => some (f.mapColumns (fun _ => [unnamed]) (fun c => [red f.index c]))) m = some m' ∧
      m'.Represents (df.reduceColumns unnamed h) := by
  obtain ⟨rl, cw, hcut, hparts, hrl, hcw⟩ := hm.blocks
  obtain ⟨h1, h2, h3⟩ := mapped0_spec hm.wf hcut labs mapc hl
  have hlens := getRowLens_cut hcut hparts hrl
  unfold treeReduce0
  rw [hparts, h2, Option.bind_some]
  have hMcut : (mapped0 labs mapc rl df).IsCut (List.replicate rl.length labs.length) cw := by
    refine ⟨?_, hcut.cw_ne, ?_, hcut.cw_sum⟩
    · intro h0
      have := congrArg List.length h0
      rw [List.length_replicate] at this
      exact hcut.rl_ne (List.length_eq_zero_iff.1 this)
    · show _ = (List.replicate rl.length labs).flatten.length
      simp [List.length_flatten, List.map_replicate]
  have hF := columnLocal_mapColumnsI (ι := ι') (κ := κ) (fun _ : List ι' => [unnamed])
    (fun idx c => [red idx c]) (fun _ _ _ _ => rfl)
  have hR : (mapped0 labs mapc rl df).mapColumns (fun _ => [unnamed])
      (fun c => [red (mapped0 labs mapc rl df).index c]) = df.reduceColumns unnamed h := by
    rw [mapColumns_one]
    unfold Frame.reduceColumns
    simp only [Frame.mk.injEq, true_and, List.cons.injEq, and_true]
    refine ⟨rfl, ?_⟩
    unfold Frame.cols
    rw [List.map_map, List.map_map]
    apply List.map_congr_left
    intro j hj
    have hj : j < df.ncols := List.mem_range.1 hj
    simp only [Function.comp_def]
    rw [h3 j hj]
    have hlen := hm.wf.column_length hj
    have hs : rl.sum = (df.column j).length := by rw [hlen, hcut.rl_sum]
    have := hlaw (piecesOf rl (df.column j)) (by rw [piecesOf_lengths hs, hlens])
    rw [piecesOf_flatten hs] at this
    rw [← this]
    congr 1
    show (List.replicate rl.length labs).flatten = _
    unfold piecesOf
    simp [sliceBounds_length]
  obtain ⟨lens, ⟨_, h5, _, _, h6⟩, h7⟩ := mapAxis_rows_cut' cfg hp hr hF h1 hMcut false none (by simp)
    none (by simp) (by simp)
  have h7' : mapAxisPartitions cfg true
      (fun f : Frame ι' κ β => some (f.mapColumns (fun _ => [unnamed]) (fun c => [red f.index c])))
      ((mapped0 labs mapc rl df).cut (List.replicate rl.length labs.length) cw) false none none
      = some ((df.reduceColumns unnamed h).cut lens cw) := by
    refine Eq.trans h7 ?_
    congr 1
    unfold Frame.cut
    apply List.map_congr_left
    intro p _
    apply List.map_congr_left
    intro q _
    rw [← hR, ← Frame.ilocCols_ilocRows]
    congr 1
    exact h1.mapColumns_ilocCols (fun _ => [unnamed]) (fun c => [red (mapped0 labs mapc rl df).index c])
      (fun _ _ _ => rfl) _ _
  rw [h7', Option.bind_some]
  refine reduceMeta0_spec hcut hparts hcw hm.getColumns hpos ?_ rfl rfl (h6 rfl rfl) ?_
  · rw [← hR]; exact hF.1 _ h1
  · rw [h5]
    rfl

theorem mapped1_spec {df : Frame ι κ α} (hwf : df.WF) {rl cw : List Nat} (hcut : df.IsCut rl cw)
    (labs : List κ') (mapc : List α → List β) (hl : ∀ c, (mapc c).length = labs.length) :
    baseMapPartitions (fun b => some (b.mapRows (fun _ => labs) mapc)) (df.cut rl cw)
      = some ((df.mapRows (fun _ => (List.replicate cw.length labs).flatten)
          (fun r => ((piecesOf cw r).map mapc).flatten)).cut rl (List.replicate cw.length labs.length)) := by
  unfold baseMapPartitions Frame.cut
  have : (fun row : List (Frame ι κ α) => row.mapM fun b => some (b.mapRows (fun _ => labs) mapc))
      = fun row => some (row.map fun b => b.mapRows (fun _ => labs) mapc) := by
    funext row; exact mapM_some _ _
  rw [this, mapM_some]
  simp only [List.map_map, Option.some.injEq]
  apply List.map_congr_left
  intro p _
  simp only [Function.comp_def, List.map_map]
  apply List.ext_getElem
  · simp [sliceBounds_length]
  · intro k hk hk'
    simp only [List.length_map] at hk hk'
    simp only [List.getElem_map]
    have hkn : k < cw.length := by rw [sliceBounds_length] at hk; exact hk
    have hlabs := sliceBounds_flatten_self_get (List.replicate cw.length labs)
      (List.replicate cw.length labs.length) (by simp [List.map_replicate]) k hk'
      (by simpa using hkn)
    have hrow : ∀ r : List α, pySlice ((piecesOf cw r).map mapc).flatten
        (sliceBounds (List.replicate cw.length labs.length))[k].1
        (sliceBounds (List.replicate cw.length labs.length))[k].2
        = mapc (pySlice r (sliceBounds cw)[k].1 (sliceBounds cw)[k].2) := by
      intro r
      rw [sliceBounds_flatten_self_get ((piecesOf cw r).map mapc) (List.replicate cw.length labs.length)
        (by rw [List.eq_replicate_iff]; refine ⟨by simp [piecesOf, sliceBounds_length], ?_⟩
            intro b hb; simp only [List.mem_map] at hb
            obtain ⟨_, ⟨c, _, rfl⟩, rfl⟩ := hb; exact hl c) k hk'
        (by simpa [piecesOf, sliceBounds_length] using hkn)]
      simp [piecesOf]
    simp only [Frame.mapRows, Frame.ilocRows, Frame.ilocCols, Frame.mk.injEq, true_and, List.map_map]
    refine ⟨?_, ?_⟩
    · rw [hlabs]; simp
    · rw [pySlice_map, List.map_map]
      apply List.map_congr_left
      intro r _
      simp only [Function.comp_def, hrow]

theorem treeReduce1_spec [DecidableEq ι] [DecidableEq κ'] (cfg : Cfg) (hp : 1 ≤ cfg.nPartitions)
    (hr : 1 ≤ cfg.minCol) {m : MFrame ι κ α} {df : Frame ι κ α} (hm : m.Represents df) (hpos : 0 < df.nrows)
    (labs : List κ') (mapc : List α → List β) (hl : ∀ c, (mapc c).length = labs.length)
    (red : List κ' → List β → γ) (h : List α → γ)
    (hlaw : ∀ bs : List (List α), bs.map List.length = m.getColWidths →
      red (List.replicate bs.length labs).flatten (bs.map mapc).flatten = h bs.flatten) :
    ∃ m', treeReduce1 cfg (fun b => some (b.mapRows (fun _ => labs) mapc))
        (fun f => some (f.mapRows (fun _ => [unnamed]) (fun c => [red f.columns c]))) m = some m' ∧
      m'.Represents (df.reduceRows unnamed h) := by
  obtain ⟨rl, cw, hcut, hparts, hrl, hcw⟩ := hm.blocks
  have h2 := mapped1_spec hm.wf hcut labs mapc hl
  have hlens := getColWidths_cut hcut hparts hcw
  have h1 : (df.mapRows (fun _ => (List.replicate cw.length labs).flatten)
          (fun r => ((piecesOf cw r).map mapc).flatten)).WF := by
    constructor
    · simp [Frame.mapRows, hm.wf.rows_len]
    · intro r hr
      simp only [Frame.mapRows, List.mem_map] at hr ⊢
      obtain ⟨x, _, rfl⟩ := hr
      rw [List.length_flatten, List.length_flatten, List.map_map]
      congr 1
      rw [List.map_replicate, List.eq_replicate_iff]
      refine ⟨by simp [piecesOf, sliceBounds_length], ?_⟩
      intro b hb
      simp only [List.mem_map, Function.comp] at hb
      obtain ⟨c, _, rfl⟩ := hb
      exact hl c
  unfold treeReduce1
  rw [hparts, h2, Option.bind_some]
  generalize hMd : df.mapRows (fun _ => (List.replicate cw.length labs).flatten)
          (fun r => ((piecesOf cw r).map mapc).flatten) = M at *
  have hMc : M.columns = (List.replicate cw.length labs).flatten := by rw [← hMd]; rfl
  have hMr : M.rows = df.rows.map (fun r => ((piecesOf cw r).map mapc).flatten) := by rw [← hMd]; rfl
  have hMi : M.index = df.index := by rw [← hMd]; rfl
  have hMcut : M.IsCut rl (List.replicate cw.length labs.length) := by
    refine ⟨hcut.rl_ne, ?_, ?_, ?_⟩
    · intro h0
      have := congrArg List.length h0
      rw [List.length_replicate] at this
      exact hcut.cw_ne (List.length_eq_zero_iff.1 this)
    · rw [Frame.nrows, hMi]; exact hcut.rl_sum
    · rw [Frame.ncols, hMc]
      simp [List.length_flatten, List.map_replicate]
  have hF := rowLocal_mapRowsI (ι := ι) (κ := κ') (fun _ : List κ' => [unnamed])
    (fun idx c => [red idx c]) (fun _ _ _ _ => rfl)
  have hR : M.mapRows (fun _ => [unnamed]) (fun c => [red M.columns c]) = df.reduceRows unnamed h := by
    rw [mapRows_one]
    unfold Frame.reduceRows
    simp only [Frame.mk.injEq, true_and, hMi, hMr, hMc, List.map_map]
    apply List.map_congr_left
    intro r hr
    have hs : cw.sum = r.length := by rw [hcut.cw_sum, hm.wf.row_width r hr]; rfl
    have := hlaw (piecesOf cw r) (by rw [piecesOf_lengths hs, hlens])
    rw [piecesOf_flatten hs] at this
    simp only [Function.comp_def]
    rw [← this]
    congr 2
    unfold piecesOf
    simp [sliceBounds_length]
  obtain ⟨lens, ⟨_, h5, _, _, h6⟩, h7⟩ := mapAxis_cols_cut' cfg hp hr hF h1 hMcut false none (by simp)
    none (by simp) (by simp)
  have h7' : mapAxisPartitions cfg false
      (fun f : Frame ι κ' β => some (f.mapRows (fun _ => [unnamed]) (fun c => [red f.columns c])))
      (M.cut rl (List.replicate cw.length labs.length)) false none none
      = some ((df.reduceRows unnamed h).cut rl lens) := by
    refine Eq.trans h7 ?_
    congr 1
    unfold Frame.cut
    apply List.map_congr_left
    intro p _
    apply List.map_congr_left
    intro q _
    rw [← hR]
    congr 1
    exact Frame.mapRows_ilocRows _ _ _ _ _
  rw [h7', Option.bind_some]
  refine reduceMeta1_spec hcut hparts hrl hm.getIndex hpos ?_ rfl rfl (h6 rfl rfl) ?_
  · rw [← hR]; exact hF.1 _ h1
  · rw [h5]
    rfl

/-! ### full-axis reductions -/

theorem fullReduce0_spec [DecidableEq ι] [DecidableEq κ] (cfg : Cfg) (hp : 1 ≤ cfg.nPartitions)
    (hr : 1 ≤ cfg.minRow) {m : MFrame ι κ α} {df : Frame ι κ α} (hm : m.Represents df) (hpos : 0 < df.ncols)
    (h : List α → β) :
    ∃ m', fullReduce0 cfg h m = some m' ∧ m'.Represents (df.reduceColumns unnamed h) := by
  obtain ⟨rl, cw, hcut, hparts, hrl, hcw⟩ := hm.blocks
  have hF := columnLocal_mapColumns (ι := ι) (κ := κ) (fun _ : List ι => [unnamed])
    (fun c : List α => [h c]) (fun _ _ _ => rfl)
  obtain ⟨lens, ⟨_, h5, _, _, h6⟩, h7⟩ := mapAxis_rows_cut' cfg hp hr hF hm.wf hcut false none (by simp)
    none (by simp) (by simp)
  have h7' : mapAxisPartitions cfg true (fun b => some (reduceBlock0 h b)) (df.cut rl cw) false none none
      = some ((df.reduceColumns unnamed h).cut lens cw) := by
    refine Eq.trans h7 ?_
    congr 1
    unfold Frame.cut
    apply List.map_congr_left
    intro p _
    apply List.map_congr_left
    intro q _
    rw [← mapColumns_one, ← Frame.ilocCols_ilocRows]
    congr 1
    exact hm.wf.mapColumns_ilocCols (fun _ => [unnamed]) (fun c => [h c]) (fun _ _ _ => rfl) _ _
  unfold fullReduce0
  rw [hparts, h7', Option.bind_some]
  refine reduceMeta0_spec hcut hparts hcw hm.getColumns hpos ?_ rfl rfl (h6 rfl rfl) ?_
  · rw [← mapColumns_one]; exact hF.1 _ hm.wf
  · rw [h5]
    rfl

theorem fullReduce1_spec [DecidableEq ι] [DecidableEq κ] (cfg : Cfg) (hp : 1 ≤ cfg.nPartitions)
    (hr : 1 ≤ cfg.minCol) {m : MFrame ι κ α} {df : Frame ι κ α} (hm : m.Represents df) (hpos : 0 < df.nrows)
    (h : List α → β) :
    ∃ m', fullReduce1 cfg h m = some m' ∧ m'.Represents (df.reduceRows unnamed h) := by
  obtain ⟨rl, cw, hcut, hparts, hrl, hcw⟩ := hm.blocks
  have hF := rowLocal_mapRows (ι := ι) (κ := κ) (fun _ : List κ => [unnamed])
    (fun c : List α => [h c]) (fun _ _ _ => rfl)
  obtain ⟨lens, ⟨_, h5, _, _, h6⟩, h7⟩ := mapAxis_cols_cut' cfg hp hr hF hm.wf hcut false none (by simp)
    none (by simp) (by simp)
  have h7' : mapAxisPartitions cfg false (fun b => some (reduceBlock1 h b)) (df.cut rl cw) false none none
      = some ((df.reduceRows unnamed h).cut rl lens) := by
    refine Eq.trans h7 ?_
    congr 1
    unfold Frame.cut
    apply List.map_congr_left
    intro p _
    apply List.map_congr_left
    intro q _
    rw [← mapRows_one, Frame.mapRows_ilocRows]
  unfold fullReduce1
  rw [hparts, h7', Option.bind_some]
  refine reduceMeta1_spec hcut hparts hrl hm.getIndex hpos ?_ rfl rfl (h6 rfl rfl) ?_
  · rw [← mapRows_one]; exact hF.1 _ hm.wf
  · rw [h5]
    rfl

/-! ### combining the results of blocks -/

/-- sums, products, minima and maxima all have this form -/
def numRed (fold : List Int → Int) (skipna : Bool) (minCount : Nat) (c : List (Option Int)) : Option Int :=
  if !skipna && c.contains none then none
  else if (c.filterMap id).length < minCount then none
  else some (fold (c.filterMap id))

theorem numRed_true (fold : List Int → Int) (mc : Nat) (c : List (Option Int)) :
    numRed fold true mc c = if (c.filterMap id).length < mc then none else some (fold (c.filterMap id)) := by
  simp [numRed]

theorem filterMap_id_flatten (bs : List (List (Option Int))) :
    bs.flatten.filterMap id = (bs.map (·.filterMap id)).flatten := filterMap_flatten' _ _

theorem contains_none_flatten (bs : List (List (Option Int))) :
    bs.flatten.contains none = bs.any (·.contains none) := by
  rw [Bool.eq_iff_iff]
  simp

theorem filterMap_id_map_some {A : Type} (l : List A) (f : A → Int) :
    (l.map fun x => some (f x)).filterMap id = l.map f := by
  induction l with
  | nil => rfl
  | cons x xs ih => simp

theorem flatten_filter_nonempty {A : Type} (ls : List (List A)) :
    (ls.filter (· ≠ [])).flatten = ls.flatten := by
  induction ls with
  | nil => rfl
  | cons l ls ih =>
    by_cases h : l = []
    · subst h
      rw [List.filter_cons_of_neg (by simp), ih]
      rfl
    · rw [List.filter_cons_of_pos (by simpa using h), List.flatten_cons, ih, List.flatten_cons]

theorem numRed_contains_none {fold : List Int → Int} {mc : Nat} (bs : List (List (Option Int)))
    (h : bs.flatten.contains none = true) : (bs.map (numRed fold false mc)).contains none = true := by
  rw [contains_none_flatten, List.any_eq_true] at h
  obtain ⟨b, hb, hn⟩ := h
  rw [List.contains_iff_mem, List.mem_map]
  refine ⟨b, hb, ?_⟩
  rw [numRed, hn]
  simp

/-- sums and products, no minimum count -/
theorem numRed_law0 {fold : List Int → Int} (hflat : ∀ ls : List (List Int), fold ls.flatten = fold (ls.map fold))
    (skipna : Bool) (bs : List (List (Option Int))) :
    numRed fold skipna 0 (bs.map (numRed fold skipna 0)) = numRed fold skipna 0 bs.flatten := by
  have key : ∀ bs : List (List (Option Int)),
      (bs.map fun b => some (fold (b.filterMap id))).filterMap id = (bs.map (·.filterMap id)).map fold := by
    intro bs
    rw [filterMap_id_map_some, List.map_map]
    rfl
  cases skipna with
  | true =>
    have h1 : (numRed fold true 0) = fun b => some (fold (b.filterMap id)) := by
      funext b; simp [numRed_true]
    rw [h1]
    show some _ = some _
    rw [key, filterMap_id_flatten, hflat]
  | false =>
    by_cases hn : bs.flatten.contains none = true
    · have := numRed_contains_none (fold := fold) (mc := 0) bs hn
      rw [numRed, this, numRed, hn]
      simp
    · have hall : ∀ b ∈ bs, b.contains none = false := by
        intro b hb
        rw [contains_none_flatten, List.any_eq_true] at hn
        cases hc : b.contains none with
        | false => rfl
        | true => exact absurd ⟨b, hb, hc⟩ hn
      have h1 : bs.map (numRed fold false 0) = bs.map fun b => some (fold (b.filterMap id)) := by
        apply List.map_congr_left
        intro b hb
        rw [numRed, hall b hb]
        simp
      have h2 : (bs.map fun b => some (fold (b.filterMap id))).contains none = false := by
        rw [← Bool.not_eq_true, List.contains_iff_mem]
        simp
      have h3 : bs.flatten.contains none = false := by simpa using hn
      rw [h1, numRed, h2, numRed, h3, key, filterMap_id_flatten, hflat]
      simp

/-- at least one value is needed: missing values are skipped, or no block is empty -/
theorem numRed_law1 {fold : List Int → Int}
    (hflat : ∀ ls : List (List Int), (∀ l ∈ ls, l ≠ []) → fold ls.flatten = fold (ls.map fold))
    (skipna : Bool) (bs : List (List (Option Int))) (hne : skipna = false → ∀ b ∈ bs, b ≠ []) :
    numRed fold skipna 1 (bs.map (numRed fold skipna 1)) = numRed fold skipna 1 bs.flatten := by
  cases skipna with
  | true =>
    have h1 : ∀ bs : List (List (Option Int)), (bs.map (numRed fold true 1)).filterMap id
        = ((bs.map (·.filterMap id)).filter (· ≠ [])).map fold := by
      intro bs
      induction bs with
      | nil => rfl
      | cons b bs ih =>
        rw [List.map_cons, List.filterMap_cons, ih, List.map_cons]
        by_cases hb : b.filterMap id = []
        · rw [List.filter_cons_of_neg (by simpa using hb), numRed_true, hb]
          simp
        · rw [List.filter_cons_of_pos (by simpa using hb), numRed_true, if_neg]
          · rfl
          · have := List.length_pos_iff.2 hb
            omega
    rw [numRed_true, numRed_true, h1, filterMap_id_flatten]
    rw [← flatten_filter_nonempty (bs.map (·.filterMap id))]
    have hnn : ∀ l ∈ (bs.map (·.filterMap id)).filter (· ≠ []), l ≠ [] := by
      intro l hl
      have := (List.mem_filter.1 hl).2
      simpa using this
    generalize (bs.map (·.filterMap id)).filter (· ≠ []) = ls at hnn
    rw [hflat ls hnn]
    cases ls with
    | nil => simp
    | cons l ls =>
      have : 0 < l.length := List.length_pos_iff.2 (hnn l (by simp))
      rw [if_neg (by simp), if_neg (by rw [List.flatten_cons, List.length_append]; omega)]
  | false =>
    have hne := hne rfl
    by_cases hn : bs.flatten.contains none = true
    · have := numRed_contains_none (fold := fold) (mc := 1) bs hn
      rw [numRed, this, numRed, hn]
      simp
    · have hall : ∀ b ∈ bs, b.contains none = false := by
        intro b hb
        rw [contains_none_flatten, List.any_eq_true] at hn
        cases hc : b.contains none with
        | false => rfl
        | true => exact absurd ⟨b, hb, hc⟩ hn
      have hv : ∀ b ∈ bs, b.filterMap id ≠ [] := by
        intro b hb h0
        have h1 := hall b hb
        cases b with
        | nil => exact hne _ hb rfl
        | cons x xs =>
          cases x with
          | none => simp at h1
          | some v => simp at h0
      have h1 : bs.map (numRed fold false 1) = bs.map fun b => some (fold (b.filterMap id)) := by
        apply List.map_congr_left
        intro b hb
        have := List.length_pos_iff.2 (hv b hb)
        rw [numRed, hall b hb]
        simp only [Bool.not_false, Bool.and_false, Bool.false_eq_true, ↓reduceIte]
        rw [if_neg (by omega)]
      have h2 : (bs.map fun b => some (fold (b.filterMap id))).contains none = false := by
        rw [← Bool.not_eq_true, List.contains_iff_mem]
        simp
      have h3 : bs.flatten.contains none = false := by simpa using hn
      rw [h1, numRed, h2, numRed, h3, filterMap_id_map_some, filterMap_id_flatten, hflat]
      · cases bs with
        | nil => simp
        | cons b bs =>
          have := List.length_pos_iff.2 (hv b (by simp))
          simp only [Bool.not_false, Bool.and_false, Bool.false_eq_true, ↓reduceIte]
          rw [if_neg (by simp), if_neg (by rw [List.map_cons, List.flatten_cons, List.length_append]; omega), List.map_map]
          rfl
      · intro l hl
        obtain ⟨b, hb, rfl⟩ := List.mem_map.1 hl
        exact hv b hb

theorem fold_flatten_of_append {fold : List Int → Int} {op : Int → Int → Int} (hone : ∀ x, fold [x] = x)
    (happ : ∀ a b : List Int, a ≠ [] → b ≠ [] → fold (a ++ b) = op (fold a) (fold b))
    (ls : List (List Int)) (hne : ∀ l ∈ ls, l ≠ []) : fold ls.flatten = fold (ls.map fold) := by
  induction ls with
  | nil => rfl
  | cons l ls ih =>
    have ih := ih (fun x hx => hne x (by simp [hx]))
    cases ls with
    | nil => simp [hone]
    | cons l2 ls =>
      have h2 : l2 ≠ [] := hne l2 (by simp)
      rw [List.flatten_cons, happ _ _ (hne l (by simp)) (by simp [h2]), ih]
      have : (l :: l2 :: ls).map fold = [fold l] ++ (l2 :: ls).map fold := rfl
      rw [this, happ _ _ (by simp) (by simp), hone]

theorem sum_eq_numRed (skipna : Bool) (mc : Nat) : Pandas.sum skipna mc = numRed List.sum skipna mc := rfl
theorem prod_eq_numRed (skipna : Bool) (mc : Nat) : Pandas.prod skipna mc = numRed Pandas.product skipna mc := rfl

theorem product_append (a b : List Int) : Pandas.product (a ++ b) = Pandas.product a * Pandas.product b := by
  induction a with
  | nil => simp [Pandas.product]
  | cons x xs ih => simp [Pandas.product, ih, Int.mul_assoc]

theorem isum_flatten (ls : List (List Int)) : ls.flatten.sum = (ls.map List.sum).sum := by
  induction ls with
  | nil => rfl
  | cons l ls ih => simp [ih]

theorem product_flatten (ls : List (List Int)) :
    Pandas.product ls.flatten = Pandas.product (ls.map Pandas.product) := by
  induction ls with
  | nil => rfl
  | cons l ls ih => rw [List.flatten_cons, product_append, ih]; rfl

theorem foldl_assoc {op : Int → Int → Int} (ha : ∀ a b c, op (op a b) c = op a (op b c)) (x y : Int) (l : List Int) :
    l.foldl op (op x y) = op x (l.foldl op y) := by
  induction l generalizing y with
  | nil => rfl
  | cons z zs ih => rw [List.foldl_cons, ha, ih, List.foldl_cons]

theorem least_append (a b : List Int) (ha : a ≠ []) (hb : b ≠ []) :
    (Pandas.least (a ++ b)).getD 0 = min ((Pandas.least a).getD 0) ((Pandas.least b).getD 0) := by
  cases a with
  | nil => exact absurd rfl ha
  | cons x xs =>
    cases b with
    | nil => exact absurd rfl hb
    | cons y ys =>
      simp only [Pandas.least, List.cons_append, Option.getD_some, List.foldl_append, List.foldl_cons]
      exact foldl_assoc (op := min) (fun a b c => by omega) _ _ _

theorem greatest_append (a b : List Int) (ha : a ≠ []) (hb : b ≠ []) :
    (Pandas.greatest (a ++ b)).getD 0 = max ((Pandas.greatest a).getD 0) ((Pandas.greatest b).getD 0) := by
  cases a with
  | nil => exact absurd rfl ha
  | cons x xs =>
    cases b with
    | nil => exact absurd rfl hb
    | cons y ys =>
      simp only [Pandas.greatest, List.cons_append, Option.getD_some, List.foldl_append, List.foldl_cons]
      exact foldl_assoc (op := max) (fun a b c => by omega) _ _ _

theorem min_eq_numRed (skipna : Bool) :
    Pandas.min skipna = numRed (fun l => (Pandas.least l).getD 0) skipna 1 := by
  funext c
  unfold Pandas.min numRed
  split
  · rfl
  · cases c.filterMap id <;> simp [Pandas.least]

theorem max_eq_numRed (skipna : Bool) :
    Pandas.max skipna = numRed (fun l => (Pandas.greatest l).getD 0) skipna 1 := by
  funext c
  unfold Pandas.max numRed
  split
  · rfl
  · cases c.filterMap id <;> simp [Pandas.greatest]

/-- when a reduction through blocks is right: without a minimum count always, with a minimum count of
    one if missing values are skipped or no block is empty -/
def TreeSafe (skipna : Bool) (minCount : Nat) (lens : List Nat) : Prop :=
  minCount = 0 ∨ (minCount = 1 ∧ (skipna = true ∨ 0 ∉ lens))

theorem nonempty_of_lengths {A : Type} {bs : List (List A)} {lens : List Nat} (h : bs.map List.length = lens)
    (h0 : 0 ∉ lens) : ∀ b ∈ bs, b ≠ [] := by
  intro b hb he
  subst he
  apply h0
  rw [← h]
  exact List.mem_map.2 ⟨[], hb, rfl⟩

theorem sumOp_law {skipna : Bool} {mc : Nat} {lens : List Nat} (hs : TreeSafe skipna mc lens)
    (bs : List (List (Option Int))) (hb : bs.map List.length = lens) :
    (sumOp skipna mc).reduce (bs.map (sumOp skipna mc).map) = Pandas.sum skipna mc bs.flatten := by
  rcases hs with rfl | ⟨rfl, hs⟩
  · exact numRed_law0 isum_flatten _ _
  · exact numRed_law1 (fun ls _ => isum_flatten ls) _ _ (fun h => nonempty_of_lengths hb (by
      rcases hs with h' | h'
      · rw [h] at h'; cases h'
      · exact h'))

theorem prodOp_law {skipna : Bool} {mc : Nat} {lens : List Nat} (hs : TreeSafe skipna mc lens)
    (bs : List (List (Option Int))) (hb : bs.map List.length = lens) :
    (prodOp skipna mc).reduce (bs.map (prodOp skipna mc).map) = Pandas.prod skipna mc bs.flatten := by
  rcases hs with rfl | ⟨rfl, hs⟩
  · exact numRed_law0 product_flatten _ _
  · exact numRed_law1 (fun ls _ => product_flatten ls) _ _ (fun h => nonempty_of_lengths hb (by
      rcases hs with h' | h'
      · rw [h] at h'; cases h'
      · exact h'))

theorem minOp_law {skipna : Bool} {lens : List Nat} (hs : skipna = true ∨ 0 ∉ lens)
    (bs : List (List (Option Int))) (hb : bs.map List.length = lens) :
    (minOp skipna).reduce (bs.map (minOp skipna).map) = Pandas.min skipna bs.flatten := by
  unfold minOp
  simp only [min_eq_numRed]
  exact numRed_law1 (fold_flatten_of_append (fun _ => rfl) least_append) _ _ (fun h => nonempty_of_lengths hb (by
      rcases hs with h' | h'
      · rw [h] at h'; cases h'
      · exact h'))

theorem maxOp_law {skipna : Bool} {lens : List Nat} (hs : skipna = true ∨ 0 ∉ lens)
    (bs : List (List (Option Int))) (hb : bs.map List.length = lens) :
    (maxOp skipna).reduce (bs.map (maxOp skipna).map) = Pandas.max skipna bs.flatten := by
  unfold maxOp
  simp only [max_eq_numRed]
  exact numRed_law1 (fold_flatten_of_append (fun _ => rfl) greatest_append) _ _ (fun h => nonempty_of_lengths hb (by
      rcases hs with h' | h'
      · rw [h] at h'; cases h'
      · exact h'))

theorem countOp_law (bs : List (List (Option Int))) :
    countOp.reduce (bs.map countOp.map) = some ((Pandas.count bs.flatten : Nat) : Int) := by
  unfold countOp Pandas.sum
  simp only [Bool.not_true, Bool.false_and, Bool.false_eq_true, ↓reduceIte, Nat.not_lt_zero, Option.some.injEq]
  rw [filterMap_id_map_some]
  induction bs with
  | nil => rfl
  | cons b bs ih =>
    rw [List.map_cons, List.sum_cons, ih]
    simp only [Pandas.count, List.flatten_cons, List.filterMap_append, List.length_append]
    omega

theorem anyOp_law (skipna : Bool) (bs : List (List (Option Int))) :
    (anyOp skipna).reduce (bs.map (anyOp skipna).map) = Pandas.any skipna bs.flatten := by
  unfold anyOp Pandas.any
  simp only
  rw [List.filter_eq_self.2 (by simp), List.filter_flatten, List.any_flatten, List.any_map, List.any_map]
  congr 1
  funext b
  simp only [Function.comp]
  cases (b.filter fun v => !skipna || v.isSome).any Pandas.truthy <;> rfl

theorem allOp_law (skipna : Bool) (bs : List (List (Option Int))) :
    (allOp skipna).reduce (bs.map (allOp skipna).map) = Pandas.all skipna bs.flatten := by
  unfold allOp Pandas.all
  simp only
  rw [List.filter_eq_self.2 (by simp), List.filter_flatten, List.all_flatten, List.all_map, List.all_map]
  congr 1
  funext b
  simp only [Function.comp]
  cases (b.filter fun v => !skipna || v.isSome).all Pandas.truthy <;> rfl

/-! ### mean -/

theorem cellsAt_mean (f g : List (Option Int) → Option Int) (bs : List (List (Option Int))) :
    cellsAt MeanLabel.sum (List.replicate bs.length [MeanLabel.sum, .count]).flatten (bs.map fun b => [f b, g b]).flatten
      = bs.map f ∧
    cellsAt MeanLabel.count (List.replicate bs.length [MeanLabel.sum, .count]).flatten (bs.map fun b => [f b, g b]).flatten
      = bs.map g := by
  unfold cellsAt
  induction bs with
  | nil => exact ⟨rfl, rfl⟩
  | cons b bs ih =>
    have h1 : ∀ l : List MeanLabel, ∀ c : List (Option Int),
        ((([MeanLabel.sum, .count] ++ l).zip ([f b, g b] ++ c)))
          = (MeanLabel.sum, f b) :: (MeanLabel.count, g b) :: l.zip c := fun _ _ => rfl
    rw [List.length_cons, List.replicate_succ, List.flatten_cons, List.map_cons, List.flatten_cons, h1]
    simp only [List.filter_cons, decide_true, ↓reduceIte, List.map_cons, reduceCtorEq, decide_false,
      Bool.false_eq_true, ih.1, ih.2, and_self]

theorem mean_law (skipna : Bool) (bs : List (List (Option Int))) :
    meanReduceCells (List.replicate bs.length [MeanLabel.sum, .count]).flatten (bs.map (meanMapCells skipna)).flatten
      = Pandas.mean skipna bs.flatten := by
  have hc := cellsAt_mean (Pandas.sum skipna 0) (fun b => some ((Pandas.count b : Nat) : Int)) bs
  unfold meanReduceCells
  rw [show bs.map (meanMapCells skipna) = bs.map fun b => [Pandas.sum skipna 0 b, some ((Pandas.count b : Nat) : Int)]
    from rfl, hc.1, hc.2]
  have hcount : Pandas.sum false 0 (bs.map fun b => some ((Pandas.count b : Nat) : Int))
      = some ((Pandas.count bs.flatten : Nat) : Int) := by
    have := countOp_law bs
    rw [← this]
    unfold countOp Pandas.sum
    have h2 : (bs.map fun b => some ((Pandas.count b : Nat) : Int)).contains none = false := by
      rw [← Bool.not_eq_true, List.contains_iff_mem]
      simp
    simp only [h2, Bool.and_false, Bool.false_eq_true, ↓reduceIte, Bool.not_true, Bool.false_and]
  have hsum : Pandas.sum false 0 (bs.map (Pandas.sum skipna 0)) = Pandas.sum skipna 0 bs.flatten := by
    cases skipna with
    | false => exact numRed_law0 isum_flatten _ _
    | true =>
      have := numRed_law0 isum_flatten true bs
      rw [sum_eq_numRed, sum_eq_numRed, ← this]
      have h1 : (numRed List.sum true 0) = fun b => some (b.filterMap id).sum := by
        funext b; simp [numRed_true]
      have h2 : (bs.map fun b => some (b.filterMap id).sum).contains none = false := by
        rw [← Bool.not_eq_true, List.contains_iff_mem]
        simp
      rw [h1, numRed, h2]
      simp
  rw [hcount, hsum]
  unfold Pandas.mean Pandas.sum Pandas.count
  by_cases hn : (!skipna && bs.flatten.contains none) = true
  · rw [if_pos hn, if_pos hn]
  · rw [if_neg hn, if_neg hn, if_neg (Nat.not_lt_zero _)]
    by_cases h0 : bs.flatten.filterMap id = []
    · rw [h0]; rfl
    · rw [if_neg h0]
      simp only
      rw [if_neg]
      · rfl
      · have := List.length_pos_iff.2 h0
        omega
