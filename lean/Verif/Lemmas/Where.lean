import Verif.Lemmas.Fillna
import Verif.Lemmas.SeriesOp
import Verif.Model.Where
import Verif.Props.Concat

variable {ι κ α β L : Type}

/-! ### `where` -/

theorem labelPositions_length [DecidableEq L] (labels J : List L) : (labelPositions labels J).length = J.length := by
  unfold labelPositions
  split <;> simp

theorem isIndexer_unique [DecidableEq L] {labels J : List L} {I : List (Option Nat)} (h : IsIndexer labels J I)
    (hn : labels = J ∨ labels.Nodup) : I = labelPositions labels J := by
  unfold labelPositions
  split
  · rename_i e
    exact h.same e
  · rename_i e
    have hn : labels.Nodup := hn.resolve_left e
    apply List.ext_getElem?
    intro k
    rw [List.getElem?_map]
    by_cases hk : k < J.length
    · rw [List.getElem?_eq_getElem hk, Option.map_some]
      have hki : k < I.length := by rw [h.length]; exact hk
      rw [List.getElem?_eq_getElem hki]
      cases ho : I[k] with
      | none =>
        have h1 := h.missing k J[k] (by rw [List.getElem?_eq_getElem hki, ho]) (List.getElem?_eq_getElem hk)
        have : labels.findIdx? (· == J[k]) = none := by
          rw [List.findIdx?_eq_none_iff]
          intro y hy
          simp only [beq_eq_false_iff_ne, ne_eq]
          rintro rfl
          exact h1 hy
        rw [this]
      | some p =>
        obtain ⟨h1, h2⟩ := h.found k p (by rw [List.getElem?_eq_getElem hki, ho])
        rw [List.getElem?_eq_getElem hk, List.getElem?_eq_getElem h1, Option.some.injEq] at h2
        have : labels.findIdx? (· == J[k]) = some p := by
          rw [List.findIdx?_eq_some_iff_getElem]
          refine ⟨h1, by simp [h2], ?_⟩
          intro j hj
          simp only [beq_iff_eq]
          intro e2
          have := (List.getElem_inj (i := j) (j := p) (h₀ := by omega) (h₁ := h1) hn).1 (by rw [e2, h2])
          omega
        rw [this]
    · rw [List.getElem?_eq_none (by rw [h.length]; omega), List.getElem?_eq_none (by omega)]
      rfl

theorem cell_reindexed [DecidableEq ι] [DecidableEq κ] (nan : α) {kf : Frame ι κ α} (hk : kf.WF) (J : List ι) (C : List κ) {x y : Nat}
    (hx : x < J.length) (hy : y < C.length) :
    ((kf.reindexRows nan J (labelPositions kf.index J)).reindexCols nan C (labelPositions kf.columns C)).cell x y =
      some ((kf.alignedCell J C x y).getD nan) := by
  unfold Frame.cell Frame.reindexCols Frame.mapRows Frame.alignedCell
  simp only
  rw [reindexRows_rows (labelPositions_length _ _) hk]
  obtain ⟨a, ha⟩ : ∃ a, (labelPositions kf.index J)[x]? = some a :=
    ⟨_, List.getElem?_eq_getElem (by rw [labelPositions_length]; exact hx)⟩
  obtain ⟨b, hb⟩ : ∃ b, (labelPositions kf.columns C)[y]? = some b :=
    ⟨_, List.getElem?_eq_getElem (by rw [labelPositions_length]; exact hy)⟩
  simp only [List.getElem?_map, pick, ha, hb, Option.map_some, Option.bind_some, Option.join_some, Option.some.injEq]
  cases a with
  | none =>
    simp only [Option.bind_none, Option.getD_none]
    cases b with
    | none => rfl
    | some q =>
      rw [Option.bind_some, List.getElem?_replicate]
      split <;> rfl
  | some p =>
    cases hr : kf.rows[p]? with
    | none =>
      cases b with
      | none => rfl
      | some q =>
        simp only [Option.bind_some, Frame.cell, hr, Option.getD_none, Option.bind_none]
        rw [List.getElem?_replicate]
        split <;> rfl
    | some r =>
      cases b with
      | none => rfl
      | some q => simp only [Option.bind_some, Frame.cell, hr, Option.getD_some]

theorem mapIdx_congr' {A B : Type} {f g : Nat → A → B} {l : List A} (h : ∀ (i : Nat) (a : A), l[i]? = some a → f i a = g i a) :
    l.mapIdx f = l.mapIdx g := by
  apply List.ext_getElem?
  intro i
  simp only [List.getElem?_mapIdx]
  cases hl : l[i]? with
  | none => rfl
  | some a => simp only [Option.map_some]; rw [h i a hl]

/-- an operation of a frame with frames found by label, if the join keeps the labels of the first -/
theorem nAry_aligned [DecidableEq L] (P : JoinOps L) (hP : P.Good) (cfg : Cfg) (hp : 1 ≤ cfg.nPartitions) (hr : 1 ≤ cfg.minRow)
    (hc : 1 ≤ cfg.minCol) (nan : α) (f : α → List α → β)
    (m0 : MFrame L L α) (df : Frame L L α) (rest : List (MFrame L L α × Frame L L α)) (hne : rest ≠ [])
    (h : ∀ e ∈ (m0, df) :: rest, e.1.Represents e.2)
    (hjr : Joinable P true df.index (rest.map (·.2.index)))
    (hd : P.first = true → df.index.Nodup ∨ (∀ e ∈ rest, e.2.index = df.index) ∨
      (∀ e ∈ rest, e.2.index = df.index → e.1.getRowLens = m0.getRowLens))
    (hjc : Joinable P false df.columns (rest.map (·.2.columns)))
    (hb : (∀ e ∈ (m0, df) :: rest, e.1.colWidths = none) ∨
      ((∀ e ∈ (m0, df) :: rest, 0 ∉ e.1.getRowLens) ∧
        ((df.columns ≠ [] ∧ ∀ e ∈ (m0, df) :: rest, e.1.colWidths.isSome ∧ e.2.columns ≠ []) ∨
          ∀ e ∈ rest, e.2.index = df.index)))
    (hJ : joinedLabels P true df.index (rest.map (·.2.index)) = df.index)
    (hK : joinedLabels P false df.columns (rest.map (·.2.columns)) = df.columns)
    (hl : ∀ e ∈ rest, (e.2.index = df.index ∨ e.2.index.Nodup) ∧ (e.2.columns = df.columns ∨ e.2.columns.Nodup)) :
    ∃ m, nAryOp P cfg nan (cellwiseBlock f) m0 (rest.map (·.1)) = some m ∧
      m.Represents ⟨df.index, df.columns, df.rows.mapIdx fun x row => row.mapIdx fun y v =>
        f v (rest.map fun e => (e.2.alignedCell df.index df.columns x y).getD nan)⟩ := by
  obtain ⟨m, B0, Bs, e1, e2, _, e4, e5⟩ := C13_nary_partial P hP cfg hp hr hc nan f m0 df rest hne h hjr hd hjc (by rw [hK]; exact hb)
  rw [hJ, hK] at e5
  refine ⟨m, e1, ?_⟩
  have hwf := (h (m0, df) (by simp)).wf
  have hB0 : B0 = df := by
    obtain ⟨I, K, i1, i2, i3⟩ := e5 0 (m0, df) B0 rfl rfl
    rw [i1.same rfl, i2.same rfl] at i3
    rw [i3, reindexRows_id hwf]
    exact reindexCols_id hwf
  have hBs : Bs = rest.map fun e => (e.2.reindexRows nan df.index (labelPositions e.2.index df.index)).reindexCols nan df.columns
      (labelPositions e.2.columns df.columns) := by
    apply List.ext_getElem?
    intro i
    rw [List.getElem?_map]
    cases he : rest[i]? with
    | none =>
      rw [List.getElem?_eq_none_iff] at he
      rw [List.getElem?_eq_none (by omega)]
      rfl
    | some e =>
      have hi : i < Bs.length := by rw [e4]; exact (List.getElem?_eq_some_iff.1 he).1
      obtain ⟨I, K, i1, i2, i3⟩ := e5 (i + 1) e Bs[i] he (List.getElem?_eq_getElem hi)
      have := hl e (List.mem_of_getElem? he)
      rw [isIndexer_unique i1 this.1, isIndexer_unique i2 this.2] at i3
      rw [List.getElem?_eq_getElem hi, i3]
      rfl
  have : B0.cellwise f Bs = ⟨df.index, df.columns, df.rows.mapIdx fun x row => row.mapIdx fun y v =>
        f v (rest.map fun e => (e.2.alignedCell df.index df.columns x y).getD nan)⟩ := by
    rw [hB0, hBs]
    unfold Frame.cellwise
    congr 1
    apply mapIdx_congr'
    intro x row hx
    apply mapIdx_congr'
    intro y v hy
    congr 1
    have hxl : x < df.index.length := by
      rw [← hwf.rows_len]; exact (List.getElem?_eq_some_iff.1 hx).1
    have hyl : y < df.columns.length := by
      rw [← hwf.row_width row (List.mem_of_getElem? hx)]; exact (List.getElem?_eq_some_iff.1 hy).1
    rw [List.filterMap_map]
    have : ∀ e ∈ rest, ((fun B : Frame L L α => B.cell x y) ∘ fun e : MFrame L L α × Frame L L α =>
        (e.2.reindexRows nan df.index (labelPositions e.2.index df.index)).reindexCols nan df.columns
          (labelPositions e.2.columns df.columns)) e = some ((e.2.alignedCell df.index df.columns x y).getD nan) := by
      intro e he
      exact cell_reindexed nan (h e (by simp [he])).wf _ _ hxl hyl
    rw [filterMap_congr' this, List.filterMap_eq_map' ]
  rw [← this]
  exact e2

/-! ### `isin` -/

theorem isin_shows [DecidableEq ι] [DecidableEq κ] (cfg : Cfg) (dyn : Bool) (cpu : Nat) (eqv : α → α → Bool) (a : IsinArg ι κ α)
    {m : LFrame ι κ α} {df : Frame ι κ α} (h : m.Shows df) (hok : a.ok = true)
    (hs : (m.defIndex = false ∧ m.defColumns = false) ∨ (∃ vals, a = .list vals) ∨ ((∃ d, a = .dict d) ∧ m.defColumns = false) ∨
      ((∃ s, a = .series s) ∧ m.defIndex = false)) :
    ∃ m', m.isin cfg dyn cpu eqv a = some m' ∧ m'.Shows (df.mapCellsL (a.has eqv)) := by
  unfold LFrame.isin
  rw [if_pos hok]
  apply mapCellsL_shows cfg dyn cpu _ h
  · rcases hs with hs | ⟨vals, rfl⟩ | ⟨⟨d, rfl⟩, _⟩ | ⟨_, hs⟩
    · exact Or.inl hs.1
    · exact Or.inr fun _ _ => rfl
    · exact Or.inr fun _ _ => rfl
    · exact Or.inl hs
  · rcases hs with hs | ⟨vals, rfl⟩ | ⟨_, hs⟩ | ⟨⟨s, rfl⟩, _⟩
    · exact Or.inl hs.2
    · exact Or.inr fun _ _ _ => rfl
    · exact Or.inl hs
    · exact Or.inr fun _ _ _ => rfl

/-! ### `clip` -/

theorem clipLine_length (lt : α → α → Bool) (isna : α → Bool) (lo hi : Bound α) (c : List α) : (clipLine lt isna lo hi c).length = c.length := by
  simp [clipLine]

theorem Bound.clean_eq {isna : α → Bool} {b : Bound α} (h : ∀ vs, b = .list vs → ∀ v ∈ vs, isna v = false) (i : Nat) :
    (b.clean isna).at isna i = b.at isna i ∧ (b.clean isna).isList = b.isList ∧ ∀ n, (b.clean isna).fits n = b.fits n := by
  cases b with
  | absent => exact ⟨rfl, rfl, fun _ => rfl⟩
  | scalar v =>
    unfold Bound.clean
    cases hv : isna v <;> simp [Bound.at, hv, Bound.isList, Bound.fits]
  | list vs =>
    have : vs.any isna = false := by
      rw [List.any_eq_false]
      intro v hv
      rw [h vs rfl v hv]
      simp
    unfold Bound.clean
    simp [this]

theorem sortedJoin_labels [DecidableEq L] {le : L → L → Bool} {P : JoinOps L} (hm : P.merge = fun l _ => sortBy le l) (axis0 : Bool) {l r : List L}
    (h : r = l ∨ (l.Pairwise (le · ·) ∧ l.Nodup ∧ r.Nodup)) : joinedLabels P axis0 l [r] = l := by
  unfold joinedLabels
  split
  · rfl
  · rename_i hn
    simp only
    rcases h with rfl | ⟨h1, h2, h3⟩
    · simp [allSame] at hn
    · rw [if_neg (by simp [needIndexers, h2, h3]), hm]
      exact sortBy_of_pairwise _ h1

theorem clipBounds_at (lt : α → α → Bool) (isna : α → Bool) (lo hi : Bound α) (h1 : ∀ vs, lo = .list vs → ∀ v ∈ vs, isna v = false)
    (h2 : ∀ vs, hi = .list vs → ∀ v ∈ vs, isna v = false) (i : Nat) :
    (clipBounds lt isna (lo.clean isna) (hi.clean isna)).1.at isna i = (clipBounds lt isna lo hi).1.at isna i ∧
    (clipBounds lt isna (lo.clean isna) (hi.clean isna)).2.at isna i = (clipBounds lt isna lo hi).2.at isna i := by
  have hl : ∀ (b : Bound α), (∀ vs, b = .list vs → ∀ v ∈ vs, isna v = false) → ∀ vs, b = .list vs → vs.any isna = false := by
    intro b h vs e
    rw [List.any_eq_false]
    intro v hv
    rw [h vs e v hv]
    simp
  cases lo with
  | absent =>
    cases hi with
    | absent => exact ⟨rfl, rfl⟩
    | scalar h => cases hh : isna h <;> simp [Bound.clean, clipBounds, Bound.at, hh]
    | list vs => simp [Bound.clean, clipBounds, hl _ h2 vs rfl]
  | scalar l =>
    cases hi with
    | absent => cases hh : isna l <;> simp [Bound.clean, clipBounds, Bound.at, hh]
    | scalar h => cases hh : isna h <;> cases hll : isna l <;> simp [Bound.clean, clipBounds, Bound.at, hh, hll]
    | list vs => cases hll : isna l <;> simp [Bound.clean, clipBounds, hl _ h2 vs rfl, hll, Bound.at]
  | list ws =>
    cases hi with
    | absent => simp [Bound.clean, clipBounds, hl _ h1 ws rfl]
    | scalar h => cases hh : isna h <;> simp [Bound.clean, clipBounds, hl _ h1 ws rfl, hh, Bound.at]
    | list vs => simp [Bound.clean, clipBounds, hl _ h1 ws rfl, hl _ h2 vs rfl]

theorem clipLine_clean (lt : α → α → Bool) (isna : α → Bool) (lo hi : Bound α) (h1 : ∀ vs, lo = .list vs → ∀ v ∈ vs, isna v = false)
    (h2 : ∀ vs, hi = .list vs → ∀ v ∈ vs, isna v = false) :
    clipLine lt isna (clipBounds lt isna (lo.clean isna) (hi.clean isna)).1 (clipBounds lt isna (lo.clean isna) (hi.clean isna)).2 =
      clipLine lt isna (clipBounds lt isna lo hi).1 (clipBounds lt isna lo hi).2 := by
  funext c
  unfold clipLine
  congr 1
  funext i x
  rw [(clipBounds_at lt isna lo hi h1 h2 i).1, (clipBounds_at lt isna lo hi h1 h2 i).2]

theorem clipBounds_isList (lt : α → α → Bool) (isna : α → Bool) {lo hi : Bound α} (h1 : lo.isList = false) (h2 : hi.isList = false) :
    (clipBounds lt isna lo hi).1.isList = false ∧ (clipBounds lt isna lo hi).2.isList = false := by
  unfold clipBounds
  split
  · split <;> exact ⟨rfl, rfl⟩
  · exact ⟨h1, h2⟩

/-- a function of single cells is the same along either axis -/
theorem along_map {f : Frame ι κ α} (h : f.WF) (axis0 : Bool) (g : α → β) : f.along axis0 (fun c => c.map g) = f.mapCells g := by
  cases axis0
  · rfl
  · have hlen : ∀ c : List α, (c.map g).length = c.length := fun c => List.length_map _
    have hw := Frame.WF.mapColumns h id (fun c => c.map g) (fun idx c e => by rw [hlen, e]; rfl)
    have hrl : ((f.along true fun c => c.map g).rows).length = f.index.length := hw.rows_len
    have hrows : (f.along true fun c => c.map g).rows = f.rows.map fun r => r.map g := by
      apply List.ext_getElem (by rw [hrl, List.length_map, h.rows_len])
      intro i hi1 hi2
      have hi : i < f.nrows := by rw [hrl] at hi1; exact hi1
      have hir : i < f.rows.length := by rw [h.rows_len]; exact hi
      have w1 : ((f.along true fun c => c.map g).rows[i]).length = f.ncols := hw.row_width _ (List.getElem_mem hi1)
      have w2 : (f.rows[i]).length = f.ncols := h.row_width _ (List.getElem_mem hir)
      rw [List.getElem_map]
      apply List.ext_getElem?
      intro j
      by_cases hj : j < f.ncols
      · have e := (along_cell h hlen hi hj).1
        rw [List.getElem?_eq_getElem hi1, Option.bind_some] at e
        rw [e, List.getElem?_map, List.getElem?_map, h.column_getElem? hj i, List.getElem?_eq_getElem hir]
        rfl
      · rw [List.getElem?_eq_none (by omega), List.getElem?_eq_none (by rw [List.length_map]; omega)]
    exact congrArg (fun r => (⟨f.index, f.columns, r⟩ : Frame ι κ β)) hrows
