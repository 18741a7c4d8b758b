import Verif.Pandas.Columns
import Verif.Lemmas.MapPlans

variable {ι κ α ι' κ' β : Type}

theorem filterMap_length_of_some {γ δ : Type} (l : List γ) (f : γ → Option δ)
    (h : ∀ x ∈ l, (f x).isSome) : (l.filterMap f).length = l.length := by
  induction l with
  | nil => rfl
  | cons a l ih =>
    obtain ⟨y, hy⟩ := Option.isSome_iff_exists.mp (h a (by simp))
    simp [List.filterMap_cons, hy, ih (fun x hx => h x (by simp [hx]))]

theorem Frame.WF.column_length {f : Frame ι κ α} (h : f.WF) {j : Nat} (hj : j < f.ncols) :
    (f.column j).length = f.nrows := by
  unfold Frame.column
  rw [filterMap_length_of_some, h.rows_len, Frame.nrows]
  intro r hr
  have := h.row_width r hr
  simp only [Frame.ncols] at hj
  simp [this, hj]

theorem Frame.WF.mapColumns {f : Frame ι κ α} (hwf : f.WF) (g : List ι → List ι')
    (h : List α → List β)
    (hl : ∀ (idx : List ι) (c : List α), c.length = idx.length → (h c).length = (g idx).length) :
    (f.mapColumns g h).WF := by
  constructor
  · simp [Frame.mapColumns]
  · intro r hr
    simp only [Frame.mapColumns, List.mem_map, List.mem_range] at hr ⊢
    obtain ⟨i, hi, rfl⟩ := hr
    rw [filterMap_length_of_some]
    · simp [Frame.cols, Frame.ncols]
    · intro c hc
      simp only [Frame.cols, List.mem_map, List.mem_range] at hc
      obtain ⟨j, hj, rfl⟩ := hc
      have := hl f.index (f.column j) (by rw [hwf.column_length hj, Frame.nrows])
      simp [this, hi]

/-- columns of a row-major matrix -/
theorem column_zipWith {γ : Type} (A B : List (List γ)) (w j : Nat) (hA : ∀ r ∈ A, r.length = w)
    (hlen : A.length = B.length) :
    (List.zipWith (· ++ ·) A B).filterMap (·[j]?)
      = if j < w then A.filterMap (·[j]?) else B.filterMap (·[j - w]?) := by
  induction A generalizing B with
  | nil =>
    have : B = [] := List.eq_nil_of_length_eq_zero hlen.symm
    simp [this]
  | cons a A ih =>
    cases B with
    | nil => simp at hlen
    | cons b B =>
      have hw := hA a (by simp)
      have ih' := ih B (fun r hr => hA r (by simp [hr])) (by simpa using hlen)
      simp only [List.zipWith_cons_cons, List.filterMap_cons, ih', List.getElem?_append, hw]
      by_cases hj : j < w <;> simp [hj]

theorem cols_hrows {γ : Type} (n : Nat) (bs : List (List (List γ) × Nat))
    (hlen : ∀ b ∈ bs, b.1.length = n) (hw : ∀ b ∈ bs, ∀ r ∈ b.1, r.length = b.2) :
    (List.range (bs.map (·.2)).sum).map (fun j => (Frame.hrows n (bs.map (·.1))).filterMap (·[j]?))
      = (bs.map fun b => (List.range b.2).map fun j => b.1.filterMap (·[j]?)).flatten := by
  induction bs with
  | nil => simp
  | cons b bs ih =>
    have hlen' : ∀ b ∈ bs, b.1.length = n := fun x hx => hlen x (by simp [hx])
    have ih' := ih hlen' (fun x hx => hw x (by simp [hx]))
    have hl : b.1.length = (Frame.hrows n (bs.map (·.1))).length := by
      rw [hrows_length n _ (by intro x hx; simp only [List.mem_map] at hx
                               obtain ⟨y, hy, rfl⟩ := hx; exact hlen' y hy), hlen b (by simp)]
    simp only [List.map_cons, List.sum_cons, Frame.hrows, List.flatten_cons, ← ih', List.range_add,
      List.map_append, List.map_map]
    congr 1
    · apply List.map_congr_left
      intro j hj
      rw [column_zipWith _ _ b.2 j (hw b (by simp)) hl, if_pos (by simpa using hj)]
    · apply List.map_congr_left
      intro j hj
      simp only [Function.comp]
      rw [column_zipWith _ _ b.2 _ (hw b (by simp)) hl, if_neg (by omega)]
      congr 1
      funext r
      congr 1
      omega

theorem Frame.cols_hcat [DecidableEq ι] {bs : List (Frame ι κ α)} {f : Frame ι κ α}
    (hwf : ∀ b ∈ bs, b.WF) (h : Frame.hcat bs = some f) : f.cols = (bs.map (·.cols)).flatten := by
  obtain ⟨hne, hidx⟩ := Frame.hcat_index h
  rw [Frame.hcat_eq hne hidx] at h
  simp only [Option.some.injEq] at h
  have key := cols_hrows f.index.length (bs.map fun b => (b.rows, b.ncols))
    (by intro b hb; simp only [List.mem_map] at hb; obtain ⟨x, hx, rfl⟩ := hb
        show x.rows.length = _; rw [(hwf x hx).rows_len, hidx x hx])
    (by intro b hb r hr; simp only [List.mem_map] at hb; obtain ⟨x, hx, rfl⟩ := hb
        exact (hwf x hx).row_width r hr)
  simp only [List.map_map] at key
  have hw : f.ncols = (bs.map (fun b => b.ncols)).sum := by
    unfold Frame.ncols
    rw [← h]; simp only [List.length_flatten, List.map_map]; rfl
  have hr : f.rows = Frame.hrows f.index.length (bs.map (·.rows)) := by
    conv => lhs; rw [← h]
  unfold Frame.cols Frame.column
  rw [hw, hr]
  exact key

/-- A column-by-column operation treats columns independently. -/
theorem columnLocal_mapColumns [DecidableEq ι] [DecidableEq ι'] (g : List ι → List ι')
    (h : List α → List β)
    (hl : ∀ (idx : List ι) (c : List α), c.length = idx.length → (h c).length = (g idx).length) :
    ColumnLocal (fun f : Frame ι κ α => f.mapColumns g h) := by
  refine ⟨fun f hwf => hwf.mapColumns g h hl, ?_⟩
  intro fs f hwf hcat
  obtain ⟨hne, hidx⟩ := Frame.hcat_index hcat
  have hcols := Frame.cols_hcat hwf hcat
  rw [Frame.hcat_eq (r := g f.index) (by simpa using hne)]
  · rw [Frame.hcat_eq hne hidx] at hcat
    simp only [Option.some.injEq] at hcat
    congr 1
    simp only [Frame.mapColumns, Frame.mk.injEq, true_and]
    refine ⟨?_, ?_⟩
    · rw [← hcat]; simp only [List.map_map]; rfl
    · rw [hcols]
      have hmap : (fs.map fun f => f.mapColumns g h).map (·.rows)
          = (fs.map fun b => fun i : Nat => b.cols.filterMap fun c => (h c)[i]?).map
              fun k => (List.range (g f.index).length).map k := by
        simp only [List.map_map]
        apply List.map_congr_left
        intro b hb
        simp only [Function.comp, Frame.mapColumns, hidx b hb]
      have := hrows_map (List.range (g f.index).length)
        (fs.map fun b => fun i : Nat => b.cols.filterMap fun c => (h c)[i]?)
      rw [List.length_range, ← hmap] at this
      simp only [List.map_map] at this
      simp only [List.map_map]
      refine Eq.trans this ?_
      apply List.map_congr_left
      intro i _
      rw [List.filterMap_flatten, List.map_map]
      rfl
  · intro x hx
    simp only [List.mem_map] at hx
    obtain ⟨y, hy, rfl⟩ := hx
    simp [Frame.mapColumns, hidx y hy]

/-- A row-by-row operation treats rows independently. -/
theorem rowLocal_mapRows [DecidableEq κ] [DecidableEq κ'] (g : List κ → List κ')
    (h : List α → List β)
    (hl : ∀ (cs : List κ) (r : List α), r.length = cs.length → (h r).length = (g cs).length) :
    RowLocal (fun f : Frame ι κ α => f.mapRows g h) := by
  refine ⟨fun f hwf => ⟨by simp [Frame.mapRows, hwf.rows_len], ?_⟩, ?_⟩
  · intro r hr
    simp only [Frame.mapRows, List.mem_map] at hr ⊢
    obtain ⟨x, hx, rfl⟩ := hr
    exact hl _ _ (hwf.row_width x hx)
  · intro fs f hwf hcat
    obtain ⟨hne, hcol⟩ := Frame.vcat_cols hcat
    rw [Frame.vcat_eq (c := g f.columns) (by simpa using hne)]
    · rw [Frame.vcat_eq hne hcol] at hcat
      simp only [Option.some.injEq] at hcat
      congr 1
      simp only [Frame.mapRows, Frame.mk.injEq, true_and]
      refine ⟨?_, ?_⟩
      · rw [← hcat]; simp only [List.map_map]; rfl
      · conv => rhs; rw [← hcat]
        simp only [List.map_map, List.map_flatten]; rfl
    · intro x hx
      simp only [List.mem_map] at hx
      obtain ⟨y, hy, rfl⟩ := hx
      simp [Frame.mapRows, hcol y hy]
