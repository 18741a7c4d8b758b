import Verif.Model.Concat
import Verif.Lemmas.Represents
import Verif.Lemmas.MapPlans
import Verif.Lemmas.Assign
import Verif.Lemmas.Rebalance

variable {ι κ α L ι' κ' β : Type}

/-! ### reindexing and slicing -/

theorem pySlice_filterMap_some {A B : Type} (l : List A) (f : A → Option B) (h : ∀ x ∈ l, (f x).isSome)
    (a b : Nat) : pySlice (l.filterMap f) a b = (pySlice l a b).filterMap f := by
  have key : ∀ (l : List A), (∀ x ∈ l, (f x).isSome) →
      (∀ a, (l.filterMap f).drop a = (l.drop a).filterMap f) ∧
      (∀ a, (l.filterMap f).take a = (l.take a).filterMap f) := by
    intro l
    induction l with
    | nil => intro _; simp
    | cons x xs ih =>
      intro h
      obtain ⟨y, hy⟩ := Option.isSome_iff_exists.1 (h x (by simp))
      have ih := ih (fun z hz => h z (List.mem_cons_of_mem _ hz))
      constructor
      · intro a
        cases a with
        | zero => simp
        | succ a => simp [hy, ih.1]
      · intro a
        cases a with
        | zero => simp
        | succ a => simp [hy, ih.2]
  unfold pySlice
  rw [(key l h).1, (key (l.drop a) (fun x hx => h x (List.mem_of_mem_drop hx))).2]

theorem Frame.WF.cols_ilocCols {f : Frame ι κ α} (h : f.WF) (a b : Nat) :
    (f.ilocCols a b).cols = pySlice f.cols a b := by
  unfold Frame.cols
  rw [pySlice_map]
  apply List.ext_getElem?
  intro i
  have hn : (f.ilocCols a b).ncols = min (b - a) (f.ncols - a) := by
    simp [Frame.ncols, Frame.ilocCols, pySlice]
  rw [hn]
  simp only [List.getElem?_map, pySlice, List.getElem?_take, List.getElem?_drop]
  by_cases hi : i < b - a
  · rw [if_pos hi]
    by_cases hi2 : a + i < f.ncols
    · rw [List.getElem?_range (by omega), List.getElem?_range hi2]
      simp only [Option.map_some, Option.some.injEq]
      unfold Frame.column
      simp only [Frame.ilocCols, List.filterMap_map]
      refine filterMap_congr' ?_
      intro r _
      simp [Function.comp, pySlice, List.getElem?_take, hi, List.getElem?_drop]
    · rw [List.getElem?_eq_none (by simp; omega), List.getElem?_eq_none (by simp; omega)]
      rfl
  · rw [if_neg hi, List.getElem?_eq_none (by simp; omega)]
    rfl

theorem Frame.WF.mapColumns_ilocCols {f : Frame ι κ α} (hwf : f.WF) (g : List ι → List ι')
    (h : List α → List β) (hl : ∀ (idx : List ι) (c : List α), c.length = idx.length → (h c).length = (g idx).length)
    (a b : Nat) : (f.ilocCols a b).mapColumns g h = (f.mapColumns g h).ilocCols a b := by
  simp only [Frame.mapColumns, hwf.cols_ilocCols]
  simp only [Frame.ilocCols, Frame.mk.injEq, true_and, List.map_map]
  apply List.map_congr_left
  intro i hi
  rw [Function.comp, pySlice_filterMap_some]
  intro c hc
  unfold Frame.cols at hc
  simp only [List.mem_map, List.mem_range] at hc hi
  obtain ⟨j, hj, rfl⟩ := hc
  have := hl f.index (f.column j) (hwf.column_length hj)
  rw [List.getElem?_eq_getElem (by omega)]
  rfl

theorem Frame.mapRows_ilocRows (f : Frame ι κ α) (g : List κ → List κ') (h : List α → List β) (a b : Nat) :
    (f.ilocRows a b).mapRows g h = (f.mapRows g h).ilocRows a b := by
  simp only [Frame.mapRows, Frame.ilocRows, Frame.mk.injEq, true_and, ← pySlice_map]

theorem pick_length (nan : α) (I : List (Option Nat)) (c : List α) : (pick nan I c).length = I.length := by
  simp [pick]

theorem pick_range (nan : α) (c : List α) : pick nan ((List.range c.length).map some) c = c := by
  apply List.ext_getElem?
  intro i
  unfold pick
  simp only [List.map_map, List.getElem?_map]
  by_cases hi : i < c.length
  · rw [List.getElem?_range hi]
    simp [hi]
  · rw [List.getElem?_eq_none (by simp; omega), List.getElem?_eq_none (by omega)]
    rfl

theorem range_filterMap_getElem? {A : Type} (l : List A) :
    (List.range l.length).filterMap (fun j => l[j]?) = l := by
  induction l with
  | nil => rfl
  | cons x xs ih =>
    rw [List.length_cons, List.range_succ_eq_map, List.filterMap_cons, List.filterMap_map]
    simp only [List.getElem?_cons_zero, List.cons.injEq, true_and]
    simpa [Function.comp_def] using ih

theorem Frame.WF.column_getElem? {f : Frame ι κ α} (hwf : f.WF) {j : Nat} (hj : j < f.ncols) (i : Nat) :
    (f.column j)[i]? = f.rows[i]?.bind (·[j]?) := by
  unfold Frame.column
  have key : ∀ rows : List (List α), (∀ r ∈ rows, j < r.length) →
      (rows.filterMap (·[j]?))[i]? = rows[i]?.bind (·[j]?) := by
    intro rows
    induction rows generalizing i with
    | nil => simp
    | cons r rs ih =>
      intro h
      have hr := h r (by simp)
      simp only [List.filterMap_cons, List.getElem?_eq_getElem hr]
      cases i with
      | zero => simp [List.getElem?_eq_getElem hr]
      | succ i => simpa using ih i (fun x hx => h x (List.mem_cons_of_mem _ hx))
  exact key _ (fun r hr => by rw [hwf.row_width r hr]; exact hj)

theorem Frame.WF.mapColumns_id {f : Frame ι κ α} (hwf : f.WF) (h : List α → List α)
    (hh : ∀ c : List α, c.length = f.index.length → h c = c) :
    f.mapColumns (fun _ => f.index) h = f := by
  have : (f.mapColumns (fun _ => f.index) h).rows = f.rows := by
    simp only [Frame.mapColumns]
    apply List.ext_getElem
    · simp [hwf.rows_len]
    · intro i h1 h2
      simp only [List.getElem_map, List.getElem_range]
      have hr := hwf.row_width f.rows[i] (List.getElem_mem h2)
      unfold Frame.cols
      rw [List.filterMap_map]
      refine Eq.trans ?_ (range_filterMap_getElem? f.rows[i])
      rw [hr]
      refine filterMap_congr' ?_
      intro j hj
      have hj : j < f.ncols := List.mem_range.1 hj
      rw [Function.comp, hh _ (hwf.column_length hj), hwf.column_getElem? hj,
        List.getElem?_eq_getElem h2]
      rfl
  cases f with
  | mk index columns rows =>
    simp only [Frame.mapColumns] at this ⊢
    rw [this]
/-- a division along one axis: `along` the sizes on it, `across` those on the other -/
def Frame.cutA (axis0 : Bool) (along across : List Nat) (df : Frame L L α) : Grid L L α :=
  if axis0 then df.cut along across else df.cut across along

def Frame.IsCutA (axis0 : Bool) (along across : List Nat) (df : Frame L L α) : Prop :=
  if axis0 then df.IsCut along across else df.IsCut across along

def Frame.axisLabels (axis0 : Bool) (df : Frame L L α) : List L :=
  if axis0 then df.index else df.columns

theorem reindexFn_wf {axis0 : Bool} {nan : α} {J : List L} {I : List (Option Nat)} (hl : I.length = J.length)
    {f : Frame L L α} (h : f.WF) : (reindexFn axis0 nan J I f).WF := by
  unfold reindexFn
  cases axis0 with
  | true => exact h.mapColumns (fun _ : List L => J) (pick nan I) (fun _ c _ => by rw [pick_length, hl])
  | false =>
    refine ⟨by simp [Frame.reindexCols, Frame.mapRows, h.rows_len], ?_⟩
    intro r hr
    simp only [Frame.reindexCols, Frame.mapRows, Bool.false_eq_true, ↓reduceIte, List.mem_map] at hr ⊢
    obtain ⟨r', _, rfl⟩ := hr
    rw [pick_length, hl]

theorem reindexFn_id {axis0 : Bool} {nan : α} {f : Frame L L α} (h : f.WF) :
    reindexFn axis0 nan (f.axisLabels axis0) ((List.range (f.axisLabels axis0).length).map some) f = f := by
  unfold reindexFn Frame.axisLabels
  cases axis0 with
  | true =>
    exact h.mapColumns_id _ (fun c hc => by simp only [↓reduceIte]; rw [← hc]; exact pick_range nan c)
  | false =>
    simp only [Bool.false_eq_true, ↓reduceIte, Frame.reindexCols, Frame.mapRows]
    cases f with
    | mk index columns rows =>
      simp only [Frame.mk.injEq, true_and]
      conv => rhs; rw [← List.map_id rows]
      apply List.map_congr_left
      intro r hr
      have := h.row_width r hr
      simp only at this
      rw [← this]; exact pick_range nan r

theorem reindexFn_labels (axis0 : Bool) (nan : α) (J : List L) (I : List (Option Nat)) (f : Frame L L α) :
    (reindexFn axis0 nan J I f).axisLabels axis0 = J ∧
    (reindexFn axis0 nan J I f).axisLabels (!axis0) = f.axisLabels (!axis0) := by
  cases axis0 <;> exact ⟨rfl, rfl⟩

theorem mapAxisPartitions_nil [DecidableEq L] (cfg : Cfg) (axis0 : Bool)
    (func : Frame L L α → Option (Frame L L α)) (lens : Option (List Nat)) :
    mapAxisPartitions cfg axis0 func [] false none lens = some [] := by
  unfold mapAxisPartitions
  cases axis0 <;> simp [colBlocks, gridWidth]

theorem reindexGrid_cut [DecidableEq L] (cfg : Cfg) (hp : 1 ≤ cfg.nPartitions) (hr : 1 ≤ cfg.minRow)
    (hc : 1 ≤ cfg.minCol) (axis0 : Bool) (nan : α) (J : List L) (I : List (Option Nat))
    (hl : I.length = J.length) {df : Frame L L α} (hwf : df.WF) {along across : List Nat}
    (hcut : df.IsCutA axis0 along across) (ll : Option (List Nat))
    (hll : ∀ l, ll = some l → l ≠ [] ∧ l.sum = J.length) :
    ∃ lens, lens ≠ [] ∧ lens.sum = J.length ∧ (∀ l, ll = some l → lens = l) ∧
      (ll = none → ZerosLast lens) ∧
      reindexGrid cfg axis0 nan J (some I) (df.cutA axis0 along across) ll
        = some ((reindexFn axis0 nan J I df).cutA axis0 lens across) := by
  unfold reindexGrid
  cases axis0 with
  | true =>
    simp only [Frame.IsCutA, ↓reduceIte] at hcut
    have hF := columnLocal_mapColumns (κ := L) (fun _ : List L => J) (pick nan I)
      (fun _ c _ => by rw [pick_length, hl])
    have hn : ((fun f : Frame L L α => f.mapColumns (fun _ => J) (pick nan I)) df).nrows = J.length := rfl
    obtain ⟨lens, ⟨h1, h2, _, h4, h5⟩, h6⟩ := mapAxis_rows_cut' cfg hp hr hF hwf hcut false none
      (by simp) ll (by simp) (by intro l h1 _; rw [hn]; exact (hll l h1).2)
    refine ⟨lens, h1, by rw [h2, hn], fun l h => h4 l h (hll l h).1, h5 rfl, ?_⟩
    simp only [Option.bind_some, Frame.cutA, ↓reduceIte]
    refine Eq.trans h6 ?_
    congr 1
    unfold Frame.cut
    apply List.map_congr_left
    intro p _
    apply List.map_congr_left
    intro q _
    rw [hwf.mapColumns_ilocCols _ _ (fun _ c _ => by rw [pick_length, hl]), Frame.ilocCols_ilocRows]
    rfl
  | false =>
    simp only [Frame.IsCutA, Bool.false_eq_true, ↓reduceIte] at hcut
    have hF := rowLocal_mapRows (ι := L) (fun _ : List L => J) (pick nan I)
      (fun _ c _ => by rw [pick_length, hl])
    have hn : ((fun f : Frame L L α => f.mapRows (fun _ => J) (pick nan I)) df).ncols = J.length := rfl
    obtain ⟨lens, ⟨h1, h2, _, h4, h5⟩, h6⟩ := mapAxis_cols_cut' cfg hp hc hF hwf hcut false none
      (by simp) ll (by simp) (by intro l h1 _; rw [hn]; exact (hll l h1).2)
    refine ⟨lens, h1, by rw [h2, hn], fun l h => h4 l h (hll l h).1, h5 rfl, ?_⟩
    simp only [Option.bind_some, Frame.cutA, Bool.false_eq_true, ↓reduceIte]
    refine Eq.trans h6 ?_
    congr 1
    unfold Frame.cut
    apply List.map_congr_left
    intro p _
    apply List.map_congr_left
    intro q _
    rw [Frame.mapRows_ilocRows]
    rfl

theorem gridAxisLens_cut (axis0 : Bool) {df : Frame L L α} {along across : List Nat}
    (hcut : df.IsCutA axis0 along across) : gridAxisLens axis0 (df.cutA axis0 along across) = along := by
  cases axis0 with
  | true =>
    have := getRowLens_cut (m := ⟨df.cut along across, none, none, none, none⟩) hcut rfl (Or.inl rfl)
    simpa [MFrame.getRowLens, gridAxisLens, Frame.cutA] using this
  | false =>
    have := getColWidths_cut (m := ⟨df.cut across along, none, none, none, none⟩) hcut rfl (Or.inl rfl)
    simpa [MFrame.getColWidths, gridAxisLens, Frame.cutA] using this

/-! ### aligning a list of frames -/

/-- a partitioned frame, the frame it stands for, whether it has blocks, and how it is divided -/
structure Piece (L α : Type) where
  m : MFrame L L α
  df : Frame L L α
  has : Bool
  along : List Nat
  across : List Nat

structure Piece.Ok (axis0 : Bool) (p : Piece L α) : Prop where
  wf : p.df.WF
  cut : p.has = true → p.df.IsCutA axis0 p.along p.across
  parts : p.m.parts = if p.has then p.df.cutA axis0 p.along p.across else []
  lens : p.has = true → p.m.axisLens axis0 = p.along
  labels : p.m.axisLabels axis0 = p.df.axisLabels axis0

theorem Piece.Ok.isEmpty {axis0 : Bool} {p : Piece L α} (h : p.Ok axis0) : p.m.parts.isEmpty = !p.has := by
  rw [h.parts]
  cases hh : p.has with
  | false => rfl
  | true =>
    have := h.cut hh
    cases axis0 with
    | true =>
      have h2 : sliceBounds p.along ≠ [] := sliceBounds_ne_nil (this : p.df.IsCut _ _).rl_ne
      simp [Frame.cutA, Frame.cut, h2]
    | false =>
      have h2 : sliceBounds p.across ≠ [] := sliceBounds_ne_nil (this : p.df.IsCut _ _).rl_ne
      simp [Frame.cutA, Frame.cut, h2]

/-- the blocks after alignment -/
def Piece.target (axis0 : Bool) (nan : α) (J : List L) (lens : List Nat) (I : List (Option Nat))
    (p : Piece L α) : Grid L L α :=
  if p.has then (reindexFn axis0 nan J I p.df).cutA axis0 lens p.across else []

theorem Piece.target_same {axis0 : Bool} {nan : α} {J : List L} {I : List (Option Nat)} {p : Piece L α}
    (h : p.Ok axis0) (hJ : p.df.axisLabels axis0 = J) (hI : IsIndexer (p.df.axisLabels axis0) J I) :
    p.m.parts = p.target axis0 nan J p.along I := by
  have hI' := hI.same hJ
  subst hJ
  rw [hI', h.parts]
  unfold Piece.target
  rw [reindexFn_id h.wf]

theorem Piece.along_sum {axis0 : Bool} {p : Piece L α} (h : p.Ok axis0) (hh : p.has = true) :
    p.along ≠ [] ∧ p.along.sum = (p.df.axisLabels axis0).length := by
  have := h.cut hh
  cases axis0 with
  | true => exact ⟨(this : p.df.IsCut _ _).rl_ne, (this : p.df.IsCut _ _).rl_sum⟩
  | false => exact ⟨(this : p.df.IsCut _ _).cw_ne, (this : p.df.IsCut _ _).cw_sum⟩

variable [DecidableEq L]

theorem alignBase_spec (cfg : Cfg) (hp : 1 ≤ cfg.nPartitions) (hr : 1 ≤ cfg.minRow) (hc : 1 ≤ cfg.minCol)
    {axis0 : Bool} {nan : α} {J : List L} {I : List (Option Nat)} {p : Piece L α} (h : p.Ok axis0)
    (hh : p.has = true) (hI : IsIndexer (p.df.axisLabels axis0) J I) :
    ∃ lens, lens ≠ [] ∧ lens.sum = J.length ∧
      alignBase cfg axis0 nan J (some I) p.m = some (p.target axis0 nan J lens I, lens) ∧
      (lens = p.along ∨ (ZerosLast lens ∧ p.df.axisLabels axis0 ≠ J)) := by
  unfold alignBase
  rw [h.labels]
  by_cases hJ : p.df.axisLabels axis0 = J
  · rw [if_neg (by simpa using hJ), h.lens hh]
    refine ⟨p.along, (Piece.along_sum h hh).1, ?_, ?_, Or.inl rfl⟩
    · rw [(Piece.along_sum h hh).2, hJ]
    · rw [Piece.target_same h hJ hI]
  · rw [if_pos (by simpa using hJ)]
    obtain ⟨lens, h1, h2, _, h4, h5⟩ := reindexGrid_cut cfg hp hr hc axis0 nan J I hI.length h.wf (h.cut hh) none
      (by simp)
    refine ⟨lens, h1, h2, ?_, Or.inr ⟨h4 rfl, hJ⟩⟩
    rw [h.parts, if_pos hh, h5, Option.map_some]
    have hcut : (reindexFn axis0 nan J I p.df).IsCutA axis0 lens p.across := by
      have hc := h.cut hh
      cases axis0 with
      | true => exact ⟨h1, (hc : p.df.IsCut _ _).cw_ne, h2, (hc : p.df.IsCut _ _).cw_sum⟩
      | false => exact ⟨(hc : p.df.IsCut _ _).rl_ne, h1, (hc : p.df.IsCut _ _).rl_sum, h2⟩
    rw [gridAxisLens_cut axis0 hcut]
    simp [Piece.target, hh]

theorem alignOther_spec (cfg : Cfg) (hp : 1 ≤ cfg.nPartitions) (hr : 1 ≤ cfg.minRow) (hc : 1 ≤ cfg.minCol)
    {axis0 : Bool} {nan : α} {J : List L} {I : List (Option Nat)} {p : Piece L α} (h : p.Ok axis0)
    (hI : IsIndexer (p.df.axisLabels axis0) J I) {lens : List Nat} (hne : lens ≠ []) (hs : lens.sum = J.length)
    {made : Option (List (Option Nat))}
    (hm : made = some I ∨ (p.df.axisLabels axis0 = J ∧ p.has = true ∧ p.along = lens)) :
    alignOther cfg axis0 nan J lens made p.m = some (p.target axis0 nan J lens I) := by
  rcases hm with rfl | ⟨hl, hh, ha⟩
  case inr =>
    unfold alignOther
    rw [h.labels, h.lens hh, if_neg (by simp [hl, ha]), Piece.target_same h hl hI, ha]
  unfold alignOther
  rw [h.labels]
  cases hh : p.has with
  | false =>
    have hp0 : p.m.parts = [] := by rw [h.parts, hh]; rfl
    have ht : p.target axis0 nan J lens I = [] := by unfold Piece.target; rw [hh]; rfl
    rw [hp0, ht]
    unfold reindexGrid
    rw [Option.bind_some, mapAxisPartitions_nil, ite_self]
  | true =>
    rw [h.lens hh]
    by_cases hcond : p.df.axisLabels axis0 = J ∧ p.along = lens
    · rw [if_neg (by simp [hcond.1, hcond.2]), Piece.target_same h hcond.1 hI, hcond.2]
    · rw [if_pos (by
        simp only [ne_eq, Bool.or_eq_true, decide_eq_true_eq]
        by_cases h1 : p.df.axisLabels axis0 = J
        · exact Or.inr (fun h2 => hcond ⟨h1, h2⟩)
        · exact Or.inl h1)]
      obtain ⟨lens', _, _, h3, _, h5⟩ := reindexGrid_cut cfg hp hr hc axis0 nan J I hI.length h.wf (h.cut hh)
        (some lens) (by intro l hl; cases hl; exact ⟨hne, hs⟩)
      rw [h3 lens rfl] at h5
      rw [h.parts, if_pos hh, h5]
      simp [Piece.target, hh]

/-- the labels that frames with these pieces are joined on -/
def jLabels (P : JoinOps L) (axis0 : Bool) (p0 : Piece L α) (ps : List (Piece L α)) : List L :=
  joinedLabels P axis0 (p0.df.axisLabels axis0) (ps.map (·.df.axisLabels axis0))

def jIndexer (P : JoinOps L) (axis0 : Bool) (p0 : Piece L α) (ps : List (Piece L α)) (e : Piece L α × Nat) :
    Option (List (Option Nat)) :=
  reindexer P axis0 (p0.df.axisLabels axis0) (ps.map (·.df.axisLabels axis0)) e.2 (e.1.df.axisLabels axis0)

def jMade (P : JoinOps L) (axis0 : Bool) (p0 : Piece L α) (ps : List (Piece L α)) (e : Piece L α × Nat) :
    Option (List (Option Nat)) :=
  madeReindexer P axis0 (p0.df.axisLabels axis0) (ps.map (·.df.axisLabels axis0)) e.2 (e.1.df.axisLabels axis0)

/-- every frame can be aligned, and divided anew if it has to be -/
def Alignable (P : JoinOps L) (axis0 : Bool) (p0 : Piece L α) (ps : List (Piece L α)) : Prop :=
  ∀ e ∈ (p0 :: ps).zipIdx, (∃ I, jIndexer P axis0 p0 ps e = some I ∧
    IsIndexer (e.1.df.axisLabels axis0) (jLabels P axis0 p0 ps) I) ∧
    (jMade P axis0 p0 ps e = jIndexer P axis0 p0 ps e ∨
      (p0.has = true ∧ p0.df.axisLabels axis0 = jLabels P axis0 p0 ps ∧
        e.1.df.axisLabels axis0 = jLabels P axis0 p0 ps ∧ e.1.has = true ∧ e.1.along = p0.along))

def alignedBlocks (P : JoinOps L) (axis0 : Bool) (nan : α) (p0 : Piece L α) (ps : List (Piece L α))
    (lens : List Nat) : List (Grid L L α) :=
  (p0 :: ps).zipIdx.map fun e =>
    e.1.target axis0 nan (jLabels P axis0 p0 ps) lens ((jIndexer P axis0 p0 ps e).getD [])

theorem fst_mem_of_mem_zipIdx' {A : Type} {l : List A} {e : A × Nat} (h : e ∈ l.zipIdx) : e.1 ∈ l := by
  have := List.mem_map_of_mem (f := Prod.fst) h
  rwa [List.zipIdx_map_fst] at this

theorem mem_zipIdx_of_mem' {A : Type} {l : List A} {x : A} (h : x ∈ l) : ∃ i, (x, i) ∈ l.zipIdx := by
  rw [← List.zipIdx_map_fst 0 l] at h
  obtain ⟨e, he, rfl⟩ := List.mem_map.1 h
  exact ⟨e.2, he⟩

theorem mem_takeWhile_imp' {A : Type} {p : A → Bool} {l : List A} {x : A} (h : x ∈ l.takeWhile p) : p x = true := by
  induction l with
  | nil => simp at h
  | cons y ys ih =>
    rw [List.takeWhile_cons] at h
    split at h
    · rcases List.mem_cons.1 h with rfl | h
      · assumption
      · exact ih h
    · simp at h

theorem List.mem_of_mem_takeWhile' {A : Type} {p : A → Bool} {l : List A} {x : A} (h : x ∈ l.takeWhile p) : x ∈ l :=
  (List.takeWhile_sublist p).subset h

theorem dropWhile_head_not' {A : Type} {p : A → Bool} {l : List A} {x : A} {xs : List A}
    (h : l.dropWhile p = x :: xs) : p x = false := by
  induction l with
  | nil => simp at h
  | cons y ys ih =>
    rw [List.dropWhile_cons] at h
    split at h
    · exact ih h
    · cases h; rename_i h; simpa using h

theorem copartition_spec (P : JoinOps L) (cfg : Cfg) (hp : 1 ≤ cfg.nPartitions) (hr : 1 ≤ cfg.minRow)
    (hc : 1 ≤ cfg.minCol) (axis0 : Bool) (nan : α) (p0 : Piece L α) (ps : List (Piece L α))
    (hok : ∀ p ∈ p0 :: ps, p.Ok axis0) (hal : Alignable P axis0 p0 ps) :
    ∃ lens oJ oL,
      copartition P cfg axis0 nan p0.m (ps.map (·.m)) = some (alignedBlocks P axis0 nan p0 ps lens, oJ, oL) ∧
      (oJ = some (jLabels P axis0 p0 ps) ∨ ps = [] ∧ oJ = (p0.m.axisCache axis0).1) ∧
      ((∃ p ∈ p0 :: ps, p.has = true) → lens ≠ [] ∧ lens.sum = (jLabels P axis0 p0 ps).length ∧
        (oL = some lens ∨ ps = [] ∧ lens = p0.along ∧ oL = (p0.m.axisCache axis0).2) ∧
        ((∃ p ∈ p0 :: ps, p.has = true ∧ lens = p.along) ∨
          (ZerosLast lens ∧ ∃ p ∈ p0 :: ps, p.df.axisLabels axis0 ≠ jLabels P axis0 p0 ps))) ∧
      ((∃ p ∈ p0 :: ps, p.has = true) ∨ oL = some [] ∨
        (oJ, oL) = cacheAfterCheck axis0 p0.m (ps.map (·.m))) := by
  have hlab : p0.m.axisLabels axis0 = p0.df.axisLabels axis0 := (hok p0 (by simp)).labels
  have hlabs : (ps.map (·.m)).map (·.axisLabels axis0) = ps.map (·.df.axisLabels axis0) := by
    rw [List.map_map]
    exact List.map_congr_left fun p hp => (hok p (List.mem_cons_of_mem _ hp)).labels
  unfold copartition
  split
  · -- fast path: nothing to do
    rename_i hid
    have hid' : ∀ p ∈ p0 :: ps, p.df.axisLabels axis0 = p0.df.axisLabels axis0 ∧
        p.m.axisLens axis0 = p0.m.axisLens axis0 := by
      intro p hp
      rcases List.mem_cons.1 hp with rfl | hp
      · exact ⟨rfl, rfl⟩
      · have := List.all_eq_true.1 hid p.m (List.mem_map_of_mem hp)
        unfold axesIdentical at this
        simp only [Bool.and_eq_true, beq_iff_eq] at this
        rw [hlab, (hok p (List.mem_cons_of_mem _ hp)).labels] at this
        exact this
    have hJ : jLabels P axis0 p0 ps = p0.df.axisLabels axis0 := by
      unfold jLabels joinedLabels
      rw [if_pos]
      simp only [Bool.or_eq_true]
      right
      unfold allSame
      rw [List.all_eq_true]
      intro l hl
      obtain ⟨p, hp, rfl⟩ := List.mem_map.1 hl
      simpa using (hid' p (List.mem_cons_of_mem _ hp)).1
    have hparts : ∀ lens, (∀ p ∈ p0 :: ps, p.has = true → p.along = lens) →
        (p0.m :: ps.map (·.m)).map (·.parts) = alignedBlocks P axis0 nan p0 ps lens := by
      intro lens hl
      unfold alignedBlocks
      have e : (p0.m :: ps.map (·.m)).map (·.parts) = (p0 :: ps).zipIdx.map fun e => e.1.m.parts := by
        rw [show (fun e : Piece L α × Nat => e.1.m.parts) = (fun p => p.m.parts) ∘ Prod.fst from rfl,
          ← List.map_map, List.zipIdx_map_fst]
        simp
      rw [e]
      apply List.map_congr_left
      intro e he
      obtain ⟨⟨I, hI, hI2⟩, _⟩ := hal e he
      have hm := fst_mem_of_mem_zipIdx' he
      rw [hI, Option.getD_some]
      cases hh : e.1.has with
      | true =>
        rw [← hl e.1 hm hh]
        exact Piece.target_same (hok e.1 hm) (by rw [(hid' e.1 hm).1, hJ]) hI2
      | false =>
        rw [(hok e.1 hm).parts]
        simp [Piece.target, hh]
    by_cases hex : ∃ p ∈ p0 :: ps, p.has = true
    · obtain ⟨p, hpm, hph⟩ := hex
      have hall : ∀ q ∈ p0 :: ps, q.has = true → q.along = p.along := by
        intro q hq hqh
        rw [← (hok q hq).lens hqh, ← (hok p hpm).lens hph, (hid' q hq).2, (hid' p hpm).2]
      refine ⟨p.along, (cacheAfterCheck axis0 p0.m (ps.map (·.m))).1,
        (cacheAfterCheck axis0 p0.m (ps.map (·.m))).2, ?_, ?_, ?_, Or.inr (Or.inr rfl)⟩
      · rw [hparts p.along hall]
      · unfold cacheAfterCheck
        cases ps with
        | nil => right; exact ⟨rfl, rfl⟩
        | cons x xs => left; simp only [List.map_cons, List.isEmpty_cons, Bool.false_eq_true, ↓reduceIte]; rw [hJ, hlab]
      · intro _
        have hsum := Piece.along_sum (hok p hpm) hph
        refine ⟨hsum.1, by rw [hsum.2, (hid' p hpm).1, hJ], ?_, Or.inl ⟨p, hpm, hph, rfl⟩⟩
        unfold cacheAfterCheck
        cases ps with
        | nil =>
          right
          simp only [List.mem_cons, List.not_mem_nil, or_false] at hpm
          subst hpm
          exact ⟨rfl, rfl, rfl⟩
        | cons x xs =>
          left
          simp only [List.map_cons, List.isEmpty_cons, Bool.false_eq_true, ↓reduceIte]
          rw [← (hid' p hpm).2, (hok p hpm).lens hph]
    · refine ⟨[], (cacheAfterCheck axis0 p0.m (ps.map (·.m))).1,
        (cacheAfterCheck axis0 p0.m (ps.map (·.m))).2, ?_, ?_, fun h => absurd h hex, Or.inr (Or.inr rfl)⟩
      · rw [hparts [] (fun p hp hh => absurd ⟨p, hp, hh⟩ hex)]
      · unfold cacheAfterCheck
        cases ps with
        | nil => right; exact ⟨rfl, rfl⟩
        | cons x xs => left; simp only [List.map_cons, List.isEmpty_cons, Bool.false_eq_true, ↓reduceIte]; rw [hJ, hlab]
  · simp only
    rw [hlab, hlabs]
    have hz : (p0.m :: ps.map (·.m)).zipIdx = (p0 :: ps).zipIdx.map fun e => (e.1.m, e.2) := by
      rw [show p0.m :: ps.map (·.m) = (p0 :: ps).map (·.m) from rfl, List.zipIdx_map]
      rfl
    rw [hz, List.takeWhile_map, List.dropWhile_map]
    have hZ : ∀ e ∈ (p0 :: ps).zipIdx,
        ((fun e : MFrame L L α × Nat => e.1.parts.isEmpty) ∘ fun e : Piece L α × Nat => (e.1.m, e.2)) e
          = !e.1.has := by
      intro e he
      exact (hok e.1 (fst_mem_of_mem_zipIdx' he)).isEmpty
    have hjl : joinedLabels P axis0 (p0.df.axisLabels axis0) (ps.map (·.df.axisLabels axis0))
        = jLabels P axis0 p0 ps := rfl
    rw [hjl]
    generalize hpred : ((fun e : MFrame L L α × Nat => e.1.parts.isEmpty) ∘
      fun e : Piece L α × Nat => (e.1.m, e.2)) = pred at hZ ⊢
    have hsplit := List.takeWhile_append_dropWhile (p := pred) (l := (p0 :: ps).zipIdx)
    have hbefore : ∀ e ∈ (p0 :: ps).zipIdx.takeWhile pred, e.1.has = false := by
      intro e he
      have h1 := mem_takeWhile_imp' he
      have h2 := hZ e (List.mem_of_mem_takeWhile' he)
      rw [h1] at h2
      simpa using h2.symm
    cases hd : (p0 :: ps).zipIdx.dropWhile pred with
    | nil =>
      rw [hd, List.append_nil] at hsplit
      rw [hsplit] at hbefore
      have hno : ∀ p ∈ p0 :: ps, p.has = false := by
        intro p hp
        obtain ⟨i, hi⟩ := mem_zipIdx_of_mem' hp
        exact hbefore _ hi
      refine ⟨[], some (jLabels P axis0 p0 ps), some [], ?_, Or.inl rfl, ?_, Or.inr (Or.inl rfl)⟩
      · simp only [List.map_nil, List.map_map]
        unfold alignedBlocks
        congr 2
        apply List.map_congr_left
        intro e he
        have h1 := fst_mem_of_mem_zipIdx' he
        simp only [Function.comp]
        rw [(hok e.1 h1).parts]
        simp [Piece.target, hno e.1 h1]
      · rintro ⟨p, hp, hh⟩
        rw [hno p hp] at hh
        cases hh
    | cons b post =>
      rw [hd] at hsplit
      have hmem : ∀ e ∈ b :: post, e ∈ (p0 :: ps).zipIdx := by
        intro e he
        rw [← hsplit]
        exact List.mem_append_right _ he
      have hbm := hmem b (by simp)
      have hbh : b.1.has = true := by
        have h1 := dropWhile_head_not' hd
        rw [hZ b hbm] at h1
        simpa using h1
      have hbp := fst_mem_of_mem_zipIdx' hbm
      obtain ⟨⟨I, hI, hI2⟩, hIm⟩ := hal b hbm
      obtain ⟨lens, h1, h2, h3, h4⟩ := alignBase_spec cfg hp hr hc (nan := nan) (hok b.1 hbp) hbh hI2
      have hix : ∀ e ∈ b :: post, madeReindexer P axis0 (p0.df.axisLabels axis0) (ps.map (·.df.axisLabels axis0))
          e.2 (e.1.m.axisLabels axis0) = jMade P axis0 p0 ps e := by
        intro e he
        unfold jMade
        rw [(hok e.1 (fst_mem_of_mem_zipIdx' (hmem e he))).labels]
      refine ⟨lens, some (jLabels P axis0 p0 ps), some lens, ?_, Or.inl rfl, ?_, Or.inl ⟨b.1, hbp, hbh⟩⟩
      · simp only [List.map_cons]
        have hbase : alignBase cfg axis0 nan (jLabels P axis0 p0 ps) (jMade P axis0 p0 ps b) b.1.m
            = alignBase cfg axis0 nan (jLabels P axis0 p0 ps) (some I) b.1.m := by
          by_cases hl : b.1.df.axisLabels axis0 = jLabels P axis0 p0 ps
          · unfold alignBase
            rw [(hok b.1 hbp).labels, if_neg (by simpa using hl), if_neg (by simpa using hl)]
          · have : jIndexer P axis0 p0 ps b = jMade P axis0 p0 ps b := if_neg hl
            rw [← hI, this]
        rw [hix b (by simp), hbase, h3, Option.bind_some]
        rw [mapM_map_some (g := fun e => e.1.target axis0 nan (jLabels P axis0 p0 ps) lens
          ((jIndexer P axis0 p0 ps e).getD []))]
        · simp only [Option.map_some, List.map_map, Option.some.injEq, Prod.mk.injEq, and_true]
          unfold alignedBlocks
          conv => rhs; rw [← hsplit]
          rw [List.map_append, List.map_cons, hI, Option.getD_some]
          congr 1
          apply List.map_congr_left
          intro e he
          have h1 := fst_mem_of_mem_zipIdx' (List.mem_of_mem_takeWhile' he)
          simp only [Function.comp]
          rw [(hok e.1 h1).parts]
          simp [Piece.target, hbefore e he]
        · intro e he
          have hem := hmem e (List.mem_cons_of_mem _ he)
          obtain ⟨⟨I', hI', hI2'⟩, hIm'⟩ := hal e hem
          rw [hix e (List.mem_cons_of_mem _ he), hI', Option.getD_some]
          refine alignOther_spec cfg hp hr hc (hok e.1 (fst_mem_of_mem_zipIdx' hem)) hI2' h1 h2 ?_
          rcases hIm' with hm | ⟨m1, m2, m3, m4, m5⟩
          · exact Or.inl (hm.trans hI')
          · refine Or.inr ⟨m3, m4, ?_⟩
            have hb0 : b = (p0, 0) := by
              have hz : (p0 :: ps).zipIdx = (p0, 0) :: ps.zipIdx 1 := rfl
              rw [hz, List.dropWhile_cons, if_neg (by rw [hZ (p0, 0) (by simp [hz])]; simp [m1])] at hd
              exact (List.cons.inj hd).1.symm
            rw [m5]
            rcases h4 with h4 | ⟨_, h5⟩
            · rw [h4, hb0]
            · rw [hb0] at h5
              exact absurd m2 h5
      · intro _
        refine ⟨h1, h2, Or.inl rfl, ?_⟩
        rcases h4 with h4 | ⟨h4, h5⟩
        · exact Or.inl ⟨b.1, hbp, hbh, h4⟩
        · exact Or.inr ⟨h4, b.1, hbp, h5⟩
