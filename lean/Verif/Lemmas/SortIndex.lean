import Verif.Lemmas.Reindex
import Verif.Lemmas.Shuffle
import Verif.Lemmas.Merge
import Verif.Model.SortIndex
import Verif.Props.Reduce

variable {ι κ α β L : Type}

/-! ### sorting labels -/

theorem sortedLabels_length (num : Option (Nat → ι)) (l : List ι) : (sortedLabels num l).length = l.length := by
  unfold sortedLabels; cases num <;> simp

theorem columnLocal_relabel [DecidableEq ι] (g : List ι → List ι) (hg : ∀ l, (g l).length = l.length)
    {F : Frame ι κ α → Frame ι κ β} (hF : ColumnLocal F) :
    ColumnLocal (fun f : Frame ι κ α => (⟨g (F f).index, (F f).columns, (F f).rows⟩ : Frame ι κ β)) := by
  refine ⟨fun f h => ⟨?_, (hF.1 f h).row_width⟩, ?_⟩
  · show (F f).rows.length = (g (F f).index).length
    rw [hg]; exact (hF.1 f h).rows_len
  intro fs f hwf hcat
  have h1 := hF.2 fs f hwf hcat
  obtain ⟨hne, hidx⟩ := Frame.hcat_index h1
  rw [Frame.hcat_eq hne hidx] at h1
  have hne' : fs ≠ [] := by simpa using hne
  rw [Frame.hcat_eq (r := g (F f).index) (by simpa using hne')]
  · simp only [Option.some.injEq] at h1
    congr 1
    rw [Frame.mk.injEq]
    refine ⟨rfl, ?_, ?_⟩
    · conv => rhs; rw [← h1]
      simp only [List.map_map]; rfl
    · conv => rhs; rw [← h1]
      simp only [List.map_map, hg]; rfl
  · intro x hx
    obtain ⟨y, hy, rfl⟩ := List.mem_map.mp hx
    simp only
    rw [hidx (F y) (List.mem_map.mpr ⟨y, hy, rfl⟩)]

theorem sortRows_shows [DecidableEq ι] [DecidableEq κ] (cfg : Cfg) (hp : 1 ≤ cfg.nPartitions) (hr : 1 ≤ cfg.minRow)
    (order : List ι → List Nat) (num : Option (Nat → ι)) {m : LFrame ι κ α} {df : Frame ι κ α} (h : m.Shows df) :
    ∃ m', m.sortRows cfg order num = some m' ∧ m'.Shows (df.sortIndex order num) := by
  unfold LFrame.sortRows
  rw [h.getIndex, h.getColumns]
  exact applyFullColumns_shows cfg hp hr h
    (F := fun f => ⟨sortedLabels num (f.takeRows (order df.index)).index, (f.takeRows (order df.index)).columns,
      (f.takeRows (order df.index)).rows⟩)
    (columnLocal_relabel _ (sortedLabels_length num) (columnLocal_takeRows (order df.index)))
    (fun a b => by simp only [Frame.takeRows_ilocCols]; rfl) (fun a b => rfl) rfl

theorem sortCols_shows [DecidableEq ι] [DecidableEq κ] (cfg : Cfg) (hp : 1 ≤ cfg.nPartitions) (hr : 1 ≤ cfg.minCol)
    (order : List κ → List Nat) (num : Option (Nat → κ)) {m : LFrame ι κ α} {df : Frame ι κ α} (h : m.Shows df) :
    ∃ m', m.sortCols cfg order num = some m' ∧ m'.Shows (df.sortColumns order num) := by
  unfold LFrame.sortCols
  rw [h.getIndex, h.getColumns]
  exact applyFullLines_shows cfg hp hr h
    (F := fun f => f.mapRows (fun cs => sortedLabels num (takeList cs (order df.columns))) (takeList · (order df.columns)))
    (rowLocal_mapRows _ _ (fun cs r hl => by rw [sortedLabels_length]; exact takeList_length_congr hl _))
    (fun a b => Frame.mapRows_ilocRows _ _ _ _ _) (fun a b => rfl) rfl

theorem takeList_zip {τ σ : Type} {a : List τ} {b : List σ} (h : b.length = a.length) (P : List Nat) :
    takeList (a.zip b) P = (takeList a P).zip (takeList b P) := by
  induction P with
  | nil => rfl
  | cons i P ih =>
    by_cases hi : i < a.length
    · rw [takeList_cons (by simp; omega), takeList_cons hi, takeList_cons (by omega), ih]
      simp
    · have e1 : a[i]? = none := List.getElem?_eq_none (by omega)
      have e2 : b[i]? = none := List.getElem?_eq_none (by omega)
      have e3 : (a.zip b)[i]? = none := List.getElem?_eq_none (by simp; omega)
      simp only [takeList, List.filterMap_cons, e1, e2, e3] at ih ⊢
      exact ih

theorem takeList_snd_zipIdx {τ : Type} (l : List τ) (S : List (τ × Nat)) (h : ∀ x ∈ S, x ∈ l.zipIdx) :
    takeList l (S.map (·.2)) = S.map (·.1) := by
  induction S with
  | nil => rfl
  | cons x S ih =>
    have hx := List.mem_zipIdx' (h x (by simp))
    rw [List.map_cons, List.map_cons, takeList_cons hx.1, ih fun y hy => h y (List.mem_cons_of_mem _ hy)]
    exact congrArg (· :: _) hx.2.symm

theorem map_fst_zipIdx_zip {τ σ : Type} (a : List τ) (b : List σ) (h : b.length = a.length) :
    ((a.zip b).zipIdx.map fun p => (p.1.1, p.2)) = a.zipIdx := by
  apply List.ext_getElem?
  intro i
  simp only [List.getElem?_map, List.getElem?_zipIdx, List.getElem?_zip_eq_some, List.zip_eq_zipWith, List.getElem?_zipWith]
  by_cases hi : i < a.length
  · rw [List.getElem?_eq_getElem hi, List.getElem?_eq_getElem (by omega)]
    rfl
  · rw [List.getElem?_eq_none (by omega)]
    rfl

/-- taking both labels and values in the stable order of the labels is the stable sort of the pairs -/
theorem stableOrder_zip {τ σ : Type} (le : τ → τ → Bool) (a : List τ) (b : List σ) (h : b.length = a.length) :
    (takeList a (stableOrder le a)).zip (takeList b (stableOrder le a)) = sortBy (fun x y => le x.1 y.1) (a.zip b) := by
  rw [← takeList_zip h]
  have e1 : stableOrder le a = (sortBy (fun x y : (τ × σ) × Nat => le x.1.1 y.1.1) (a.zip b).zipIdx).map (·.2) := by
    unfold stableOrder
    rw [← map_fst_zipIdx_zip a b h, ← sortBy_map (fun x y : (τ × σ) × Nat => le x.1.1 y.1.1) (fun x y : τ × Nat => le x.1 y.1)
      (fun p => (p.1.1, p.2)) (fun _ _ => rfl)]
    simp
  rw [e1, takeList_snd_zipIdx _ _ fun x hx => mem_sortBy.mp hx]
  rw [sortBy_map (fun x y : (τ × σ) × Nat => le x.1.1 y.1.1) (fun x y : τ × σ => le x.1 y.1) (·.1) (fun _ _ => rfl)]
  congr 1
  simp

/-! ### `nlargest`, `nsmallest` -/

theorem Frame.ilocCols_all {f : Frame ι κ α} (h : f.WF) : f.ilocCols 0 f.ncols = f := by
  unfold Frame.ilocCols
  cases f with
  | mk index columns rows =>
    simp only [Frame.mk.injEq, true_and]
    refine ⟨by simp [pySlice, Frame.ncols], ?_⟩
    conv => rhs; rw [← List.map_id rows]
    apply List.map_congr_left
    intro r hr
    have := h.row_width r hr
    simp only [Frame.ncols] at this ⊢
    simp [pySlice, ← this]

/-- rows taken from a frame held in one block column; the row labels are read from the blocks -/
theorem applyFullColumns_take [DecidableEq ι] [DecidableEq κ] (cfg : Cfg) (hp : 1 ≤ cfg.nPartitions) (hr : 1 ≤ cfg.minRow)
    {m : LFrame ι κ α} {df : Frame ι κ α} (h : m.Shows df) (hw : gridWidth m.parts ≤ 1) {func : Frame ι κ α → Option (Frame ι κ α)}
    (P : List Nat) (hfunc : func df = some (df.takeRows P)) (cols : List κ) (hcols : cols.length = df.ncols) :
    ∃ m', m.applyFullColumns cfg func none (some cols) = some m' ∧
      m'.Shows ⟨(df.takeRows P).index, cols, (df.takeRows P).rows⟩ := by
  obtain ⟨m1, rl, w, e1, hc, hpp, hrl⟩ := synced_single h hw
  obtain rfl : w = df.ncols := by simpa using hc.cw_sum
  obtain ⟨lens, ⟨h2, h3, _, _, _⟩, h5⟩ := mapAxis_rows_cut' cfg hp hr (columnLocal_takeRows P) h.wf hc true none (by simp) none (by simp) (by simp)
  have hb : sliceBounds [df.ncols] = [(0, df.ncols)] := sliceBounds_single _
  rw [← mapAxis_rows_congr' cfg h.wf hc true none none (func := func) (by
    intro q hq
    rw [hb] at hq
    obtain rfl : q = (0, df.ncols) := by simpa using hq
    simp only
    rw [Frame.ilocCols_all h.wf]
    exact hfunc)] at h5
  have h6 : ((sliceBounds lens).map fun p => (sliceBounds [df.ncols]).map fun q => ((df.ilocCols q.1 q.2).takeRows P).ilocRows p.1 p.2)
      = (df.takeRows P).cut lens [df.ncols] := takeRows_ilocCols_grid _ _
  rw [h6] at h5
  have hwf' := h.wf.takeRows P
  have hc' : (df.takeRows P).IsCut lens [df.ncols] := ⟨h2, by simp, h3, hc.cw_sum⟩
  unfold LFrame.applyFullColumns
  rw [e1, Option.bind_some, hpp, h5, Option.bind_some]
  have hs : LFrame.Shows ⟨⟨(df.takeRows P).cut lens [df.ncols], none, some cols, none, some [cols.length]⟩, false, true⟩
      ⟨(df.takeRows P).index, cols, (df.takeRows P).rows⟩ := by
    refine ⟨⟨hwf'.rows_len, ?_⟩, ⟨df.takeRows P, lens, [df.ncols], hwf', rfl, hcols.symm, hc', rfl, Or.inl rfl, Or.inr (by rw [hcols]),
      fun _ => rfl, fun e => by cases e⟩, Or.inl ⟨rfl, rfl⟩, Or.inr rfl⟩
    intro r hr
    show r.length = cols.length
    rw [hcols]
    exact hwf'.row_width r hr
  obtain ⟨r, e3, e4⟩ := mk'_shows hs
  refine ⟨_, ?_, e4⟩
  have hg : gridWidth ((df.takeRows P).cut lens [df.ncols]) = 1 := by rw [gridWidth_cut h2]; rfl
  simp only [Option.bind_some, Option.bind_none, hg, ↓reduceIte, Option.isSome_some, Option.isSome_none]
  rw [e3]
  rfl

theorem mapM_some_all {A B : Type} {f : A → Option B} {l : List A} {r : List B} (h : l.mapM f = some r) : ∀ x ∈ l, ∃ y, f x = some y := by
  induction l generalizing r with
  | nil => simp
  | cons a l ih =>
    rw [List.mapM_cons] at h
    cases ha : f a with
    | none => rw [ha] at h; simp at h
    | some b =>
      cases hl : l.mapM f with
      | none => rw [ha, hl] at h; simp at h
      | some bs =>
        intro x hx
        rcases List.mem_cons.1 hx with rfl | hx
        · exact ⟨b, ha⟩
        · exact ih hl x hx

/-- if the function fails on one column partition, the whole operation fails -/
theorem mapAxis_rows_fails [DecidableEq ι] [DecidableEq κ] (cfg : Cfg) {func : Frame ι κ α → Option (Frame ι κ α)}
    {df : Frame ι κ α} (hwf : df.WF) {rl cw : List Nat} (hcut : df.IsCut rl cw) (keep : Bool) (ns : Option Nat) (ll : Option (List Nat))
    {q : Nat × Nat} (hq : q ∈ sliceBounds cw) (h : func (df.ilocCols q.1 q.2) = none) :
    mapAxisPartitions cfg true func (df.cut rl cw) keep ns ll = none := by
  unfold mapAxisPartitions
  split
  · rfl
  · simp only [↓reduceIte]
    rw [colBlocks_cut hcut.rl_ne]
    cases e : List.mapM (fun parts => deployAxisFunc true func (axisNumSplits cfg keep ns (truthyLengths ll) (df.cut rl cw).length) keep parts
        cfg.minRow (truthyLengths ll) (truthyLengths ll).isSome)
        ((sliceBounds cw).map fun q => (sliceBounds rl).map fun p => (df.ilocRows p.1 p.2).ilocCols q.1 q.2) with
    | none => rfl
    | some r =>
      exfalso
      obtain ⟨y, hy⟩ := mapM_some_all e _ (List.mem_map.mpr ⟨q, hq, rfl⟩)
      have hv : Frame.vcat ((sliceBounds rl).map fun p => (df.ilocRows p.1 p.2).ilocCols q.1 q.2)
          = some (df.ilocCols q.1 q.2) := by
        have := Frame.vcat_ilocCols (vcat_rows_cut hwf hcut) q.1 q.2
        rwa [List.map_map] at this
      unfold deployAxisFunc at hy
      simp [axisConcat, hv, h] at hy

theorem nodup_slices {k : κ} {cols : List κ} (hn : cols.Nodup) {a b : Nat} (h1 : k ∈ pySlice cols 0 a) (h2 : k ∈ pySlice cols a (a + b)) :
    False := by
  unfold pySlice at h1 h2
  simp only [List.drop_zero] at h1
  rw [← List.take_append_drop a cols, List.nodup_append] at hn
  rw [Nat.sub_zero] at h1
  exact hn.2.2 k h1 k (List.mem_of_mem_take h2) rfl

/-! ### the first and the last valid label -/

theorem least_spec {l : List Int} {x : Int} (h : Pandas.least l = some x) : x ∈ l ∧ ∀ y ∈ l, x ≤ y := by
  cases l with
  | nil => cases h
  | cons a l =>
    simp only [Pandas.least, Option.some.injEq] at h
    subst h
    induction l generalizing a with
    | nil => simp
    | cons b l ih =>
      rw [List.foldl_cons]
      have := ih (min a b)
      have h1 := this.2 (min a b) (by simp)
      refine ⟨?_, ?_⟩
      · rcases List.mem_cons.1 this.1 with e | e
        · rw [e]
          by_cases hab : a ≤ b
          · rw [show min a b = a by omega]; simp
          · rw [show min a b = b by omega]; simp
        · simp [e]
      · intro y hy
        rcases List.mem_cons.1 hy with rfl | hy
        · omega
        · rcases List.mem_cons.1 hy with rfl | hy
          · omega
          · exact this.2 y (by simp [hy])

theorem greatest_spec {l : List Int} {x : Int} (h : Pandas.greatest l = some x) : x ∈ l ∧ ∀ y ∈ l, y ≤ x := by
  cases l with
  | nil => cases h
  | cons a l =>
    simp only [Pandas.greatest, Option.some.injEq] at h
    subst h
    induction l generalizing a with
    | nil => simp
    | cons b l ih =>
      rw [List.foldl_cons]
      have := ih (max a b)
      have h1 := this.2 (max a b) (by simp)
      refine ⟨?_, ?_⟩
      · rcases List.mem_cons.1 this.1 with e | e
        · rw [e]
          by_cases hab : a ≤ b
          · rw [show max a b = b by omega]; simp
          · rw [show max a b = a by omega]; simp
        · simp [e]
      · intro y hy
        rcases List.mem_cons.1 hy with rfl | hy
        · omega
        · rcases List.mem_cons.1 hy with rfl | hy
          · omega
          · exact this.2 y (by simp [hy])

/-- what the two methods compute -/
theorem validIndex_eq [DecidableEq ι] [DecidableEq κ] (cfg : Cfg) (hp : 1 ≤ cfg.nPartitions) (hmr : 1 ≤ cfg.minRow) (hmc : 1 ≤ cfg.minCol)
    {m : LFrame ι κ α} {df : Frame ι κ α} (h : m.Shows df) (hpos : 0 < df.ncols) (pos : List α → Option Nat)
    (op : TreeOp (Option Int) (Option Int) (Option Int)) (hop : List (Option Int) → Option Int)
    (hlaw : ∀ bs : List (List (Option Int)), op.reduce (bs.map op.map) = hop bs.flatten) :
    m.validIndex cfg pos op =
      if (df.cols.map fun c => (pos c).map Int.ofNat).all Option.isSome then
        (hop (df.cols.map fun c => (pos c).map Int.ofNat)).bind fun i => df.index[i.toNat]?
      else none := by
  obtain ⟨r, e1, h1⟩ := operation_shows h (fun m1 hm1 => fullReduce0_spec cfg hp hmr hm1 hpos fun c => (pos c).map Int.ofNat)
  obtain ⟨s, e2, h2⟩ := operation_shows h1 (fun m1 hm1 => treeReduceOp1_spec cfg hp hmc hm1 (by simp [Frame.nrows, Frame.reduceColumns]) op hop
    (fun bs _ => hlaw bs))
  unfold LFrame.validIndex
  rw [e1, Option.bind_some, e2, Option.bind_some, (h1.observed none).1, Option.bind_some, (h2.observed none).1, Option.bind_some, h.getIndex]
  simp only [Frame.reduceColumns, Frame.reduceRows, List.map_cons, List.map_nil, List.all_cons, List.all_nil, Bool.and_true,
    List.flatten_cons, List.flatten_nil, List.append_nil, List.getElem?_cons_zero, Option.bind_some, id]

theorem row_any_iff {df : Frame ι κ α} (hwf : df.WF) (v : α → Bool) {i : Nat} {r : List α} (hr : df.rows[i]? = some r) :
    r.any v = true ↔ ∃ c ∈ df.cols, ∃ x, c[i]? = some x ∧ v x = true := by
  have hw := hwf.row_width r (List.mem_of_getElem? hr)
  constructor
  · intro h
    obtain ⟨x, hx, hv⟩ := List.any_eq_true.1 h
    obtain ⟨j, hj, e⟩ := List.mem_iff_getElem.1 hx
    have hj' : j < df.ncols := by unfold Frame.ncols; omega
    refine ⟨df.column j, List.mem_map.2 ⟨j, by simpa using hj', rfl⟩, x, ?_, hv⟩
    rw [hwf.column_getElem? hj', hr, Option.bind_some, List.getElem?_eq_getElem hj, e]
  · rintro ⟨c, hc, x, hx, hv⟩
    obtain ⟨j, hj, rfl⟩ := List.mem_map.1 hc
    rw [hwf.column_getElem? (by simpa using hj), hr, Option.bind_some] at hx
    exact List.any_eq_true.2 ⟨x, List.mem_of_getElem? hx, hv⟩

theorem firstValid_eq {df : Frame ι κ α} (hwf : df.WF) (isna : α → Bool) (hpos : 0 < df.ncols)
    (hall : (df.cols.map fun c => (firstValidPos isna c).map Int.ofNat).all Option.isSome = true) :
    ((Pandas.min true (df.cols.map fun c => (firstValidPos isna c).map Int.ofNat)).bind fun i => df.index[i.toNat]?)
      = df.firstValidIndex isna := by
  have hall' : ∀ c ∈ df.cols, ∃ p, firstValidPos isna c = some p := by
    intro c hc
    have := List.all_eq_true.1 hall _ (List.mem_map.2 ⟨c, hc, rfl⟩)
    cases e : firstValidPos isna c with
    | none => rw [e] at this; cases this
    | some p => exact ⟨p, rfl⟩
  have hmem : ∀ x, x ∈ (df.cols.map fun c => (firstValidPos isna c).map Int.ofNat).filterMap id ↔
      ∃ c ∈ df.cols, ∃ p, firstValidPos isna c = some p ∧ x = Int.ofNat p := by
    intro x
    simp only [List.mem_filterMap, List.mem_map, id]
    constructor
    · rintro ⟨_, ⟨c, hc, rfl⟩, e⟩
      rw [Option.map_eq_some_iff] at e
      obtain ⟨p, e1, e2⟩ := e
      exact ⟨c, hc, p, e1, e2.symm⟩
    · rintro ⟨c, hc, p, e1, rfl⟩
      exact ⟨_, ⟨c, hc, rfl⟩, by rw [e1]; rfl⟩
  unfold Pandas.min
  rw [if_neg (by simp)]
  cases hl : Pandas.least ((df.cols.map fun c => (firstValidPos isna c).map Int.ofNat).filterMap id) with
  | none =>
    exfalso
    have hc : df.column 0 ∈ df.cols := List.mem_map.2 ⟨0, by simpa using hpos, rfl⟩
    obtain ⟨p, hp⟩ := hall' _ hc
    have := (hmem (Int.ofNat p)).2 ⟨_, hc, p, hp, rfl⟩
    cases hh : (df.cols.map fun c => (firstValidPos isna c).map Int.ofNat).filterMap id with
    | nil => rw [hh] at this; simp at this
    | cons a t => rw [hh] at hl; cases hl
  | some x =>
    obtain ⟨h1, h2⟩ := least_spec hl
    obtain ⟨c, hc, p, hp, rfl⟩ := (hmem x).1 h1
    rw [Option.bind_some]
    have hp' := hp
    unfold firstValidPos at hp'
    rw [List.findIdx?_eq_some_iff_getElem] at hp'
    obtain ⟨hlt, hv, _⟩ := hp'
    have hclen : p < df.rows.length := by
      obtain ⟨j, hj, rfl⟩ := List.mem_map.1 hc
      have e := hwf.column_getElem? (by simpa using hj) p
      rw [List.getElem?_eq_getElem hlt] at e
      cases hr : df.rows[p]? with
      | none => rw [hr] at e; cases e
      | some r => exact (List.getElem?_eq_some_iff.1 hr).1
    have hilen : p < df.index.length := by rw [← hwf.rows_len]; exact hclen
    show df.index[p]? = _
    unfold Frame.firstValidIndex
    have hf : (df.index.zip df.rows).find? (fun p => p.2.any fun v => !isna v) = some (df.index[p], df.rows[p]) := by
      rw [List.find?_eq_some_iff_getElem]
      refine ⟨(row_any_iff hwf _ (List.getElem?_eq_getElem hclen)).2 ⟨c, hc, c[p], List.getElem?_eq_getElem hlt, hv⟩,
        p, by simp; omega, by simp, ?_⟩
      intro i hi
      simp only [List.getElem_zip]
      cases hb : (df.rows[i]).any fun v => !isna v with
      | false => rfl
      | true =>
        exfalso
        obtain ⟨c', hc', x, hx, hvx⟩ := (row_any_iff hwf _ (List.getElem?_eq_getElem (by omega))).1 hb
        obtain ⟨p', hp'⟩ := hall' c' hc'
        have := h2 _ ((hmem _).2 ⟨c', hc', p', hp', rfl⟩)
        unfold firstValidPos at hp'
        rw [List.findIdx?_eq_some_iff_getElem] at hp'
        obtain ⟨hlt', _, hmin⟩ := hp'
        have hle : p ≤ p' := by simpa using this
        have := hmin i (by omega)
        rw [(List.getElem?_eq_some_iff.1 hx).2] at this
        exact this hvx
    rw [hf, List.getElem?_eq_getElem hilen]
    rfl

theorem lastValidPos_iff {isna : α → Bool} {c : List α} {p : Nat} (h : lastValidPos isna c = some p) :
    ∃ hp : p < c.length, (!isna c[p]) = true ∧ ∀ i x, c[i]? = some x → p < i → isna x = true := by
  unfold lastValidPos at h
  rw [Option.map_eq_some_iff] at h
  obtain ⟨k, hk, rfl⟩ := h
  rw [List.findIdx?_eq_some_iff_getElem] at hk
  obtain ⟨hlt, hv, hmin⟩ := hk
  rw [List.length_reverse] at hlt
  refine ⟨by omega, ?_, ?_⟩
  · rw [List.getElem_reverse] at hv
    exact hv
  · intro i x hx hi
    obtain ⟨hi', e⟩ := List.getElem?_eq_some_iff.1 hx
    have := hmin (c.length - 1 - i) (by omega)
    rw [List.getElem_reverse] at this
    have e2 : c[c.length - 1 - (c.length - 1 - i)]'(by omega) = x := by
      rw [← e]; congr 1; omega
    rw [e2] at this
    simpa using this

theorem lastValid_eq {df : Frame ι κ α} (hwf : df.WF) (isna : α → Bool) (hpos : 0 < df.ncols)
    (hall : (df.cols.map fun c => (lastValidPos isna c).map Int.ofNat).all Option.isSome = true) :
    ((Pandas.max true (df.cols.map fun c => (lastValidPos isna c).map Int.ofNat)).bind fun i => df.index[i.toNat]?)
      = df.lastValidIndex isna := by
  have hall' : ∀ c ∈ df.cols, ∃ p, lastValidPos isna c = some p := by
    intro c hc
    have := List.all_eq_true.1 hall _ (List.mem_map.2 ⟨c, hc, rfl⟩)
    cases e : lastValidPos isna c with
    | none => rw [e] at this; cases this
    | some p => exact ⟨p, rfl⟩
  have hmem : ∀ x, x ∈ (df.cols.map fun c => (lastValidPos isna c).map Int.ofNat).filterMap id ↔
      ∃ c ∈ df.cols, ∃ p, lastValidPos isna c = some p ∧ x = Int.ofNat p := by
    intro x
    simp only [List.mem_filterMap, List.mem_map, id]
    constructor
    · rintro ⟨_, ⟨c, hc, rfl⟩, e⟩
      rw [Option.map_eq_some_iff] at e
      obtain ⟨p, e1, e2⟩ := e
      exact ⟨c, hc, p, e1, e2.symm⟩
    · rintro ⟨c, hc, p, e1, rfl⟩
      exact ⟨_, ⟨c, hc, rfl⟩, by rw [e1]; rfl⟩
  unfold Pandas.max
  rw [if_neg (by simp)]
  cases hl : Pandas.greatest ((df.cols.map fun c => (lastValidPos isna c).map Int.ofNat).filterMap id) with
  | none =>
    exfalso
    have hc : df.column 0 ∈ df.cols := List.mem_map.2 ⟨0, by simpa using hpos, rfl⟩
    obtain ⟨p, hp⟩ := hall' _ hc
    have := (hmem (Int.ofNat p)).2 ⟨_, hc, p, hp, rfl⟩
    cases hh : (df.cols.map fun c => (lastValidPos isna c).map Int.ofNat).filterMap id with
    | nil => rw [hh] at this; simp at this
    | cons a t => rw [hh] at hl; cases hl
  | some x =>
    obtain ⟨h1, h2⟩ := greatest_spec hl
    obtain ⟨c, hc, p, hp, rfl⟩ := (hmem x).1 h1
    rw [Option.bind_some]
    obtain ⟨hlt, hv, _⟩ := lastValidPos_iff hp
    have hclen : p < df.rows.length := by
      obtain ⟨j, hj, rfl⟩ := List.mem_map.1 hc
      have e := hwf.column_getElem? (by simpa using hj) p
      rw [List.getElem?_eq_getElem hlt] at e
      cases hr : df.rows[p]? with
      | none => rw [hr] at e; cases e
      | some r => exact (List.getElem?_eq_some_iff.1 hr).1
    have hilen : p < df.index.length := by rw [← hwf.rows_len]; exact hclen
    have hrl := hwf.rows_len
    show df.index[p]? = _
    unfold Frame.lastValidIndex
    have hf : (df.index.zip df.rows).reverse.find? (fun p => p.2.any fun v => !isna v) = some (df.index[p], df.rows[p]) := by
      rw [List.find?_eq_some_iff_getElem]
      refine ⟨(row_any_iff hwf _ (List.getElem?_eq_getElem hclen)).2 ⟨c, hc, c[p], List.getElem?_eq_getElem hlt, hv⟩,
        df.index.length - 1 - p, by simp; omega, ?_, ?_⟩
      · rw [List.getElem_reverse]
        have : (df.index.zip df.rows).length - 1 - (df.index.length - 1 - p) = p := by simp; omega
        simp only [List.getElem_zip, this]
      have hgen : ∀ q (_ : p < q) (hq2 : q < df.rows.length), (!(df.rows[q]).any fun v => !isna v) = true := by
        intro q hq hq2
        cases hb : (df.rows[q]).any fun v => !isna v with
        | false => rfl
        | true =>
          exfalso
          obtain ⟨c', hc', x, hx, hvx⟩ := (row_any_iff hwf _ (List.getElem?_eq_getElem hq2)).1 hb
          obtain ⟨p', hp'⟩ := hall' c' hc'
          have := h2 _ ((hmem _).2 ⟨c', hc', p', hp', rfl⟩)
          have hle : p' ≤ p := by simpa using this
          obtain ⟨_, _, hmax⟩ := lastValidPos_iff hp'
          have := hmax q x hx (by omega)
          rw [this] at hvx
          cases hvx
      intro i hi
      rw [List.getElem_reverse]
      simp only [List.getElem_zip]
      have hlen : (df.index.zip df.rows).length = df.index.length := by simp; omega
      exact hgen _ (by omega) (by omega)
    rw [hf, List.getElem?_eq_getElem hilen]
    rfl
