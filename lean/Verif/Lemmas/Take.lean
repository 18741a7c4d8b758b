import Verif.Pandas.Take
import Verif.Lemmas.Sort
import Verif.Lemmas.Columns

variable {ι κ α : Type}

theorem filterMap_congr' {A B : Type} {f g : A → Option B} {l : List A}
    (h : ∀ x ∈ l, f x = g x) : l.filterMap f = l.filterMap g := by
  induction l with
  | nil => rfl
  | cons a l ih =>
    rw [List.filterMap_cons, List.filterMap_cons, h a (by simp),
      ih (fun x hx => h x (by simp [hx]))]

theorem takeList_nil {τ : Type} (l : List τ) : takeList l [] = [] := rfl

theorem takeList_append {τ : Type} (l : List τ) (p q : List Nat) :
    takeList l (p ++ q) = takeList l p ++ takeList l q := by simp [takeList]

theorem takeList_flatten {τ : Type} (l : List τ) (ps : List (List Nat)) :
    takeList l ps.flatten = (ps.map (takeList l)).flatten := by
  simp only [takeList, List.filterMap_flatten]; rfl

theorem takeList_length {τ : Type} {l : List τ} {p : List Nat} (h : ∀ i ∈ p, i < l.length) :
    (takeList l p).length = p.length := by
  induction p with
  | nil => rfl
  | cons a p ih =>
    have := h a (by simp)
    have ih' := ih (fun i hi => h i (by simp [hi]))
    simp only [takeList] at ih' ⊢
    rw [List.filterMap_cons_some (List.getElem?_eq_getElem this)]
    simp [ih']

theorem takeList_cons {τ : Type} {l : List τ} {a : Nat} {p : List Nat} (h : a < l.length) :
    takeList l (a :: p) = l[a] :: takeList l p := by
  simp only [takeList]
  rw [List.filterMap_cons_some (List.getElem?_eq_getElem h)]

theorem takeList_map {τ σ : Type} (f : τ → σ) (l : List τ) (p : List Nat) :
    takeList (l.map f) p = (takeList l p).map f := by
  simp only [takeList, List.map_filterMap]
  congr 1
  funext i
  simp

theorem takeList_range {τ : Type} (l : List τ) : takeList l (List.range l.length) = l := by
  induction l with
  | nil => rfl
  | cons a l ih =>
    rw [List.length_cons, List.range_succ_eq_map]
    rw [takeList_cons (by simp)]
    simp only [List.getElem_cons_zero, List.cons.injEq, true_and]
    conv => rhs; rw [← ih]
    simp only [takeList, List.filterMap_map]
    congr 1

theorem takeList_getElem? {τ : Type} {l : List τ} {p : List Nat} (h : ∀ i ∈ p, i < l.length)
    (k : Nat) : (takeList l p)[k]? = (p[k]?).bind (l[·]?) := by
  induction p generalizing k with
  | nil => simp [takeList]
  | cons a p ih =>
    have ha := h a (by simp)
    rw [takeList_cons ha]
    cases k with
    | zero => simp [ha]
    | succ k => simpa using ih (fun i hi => h i (by simp [hi])) k

theorem takeList_takeList {τ : Type} {l : List τ} {p : List Nat} (q : List Nat)
    (h : ∀ i ∈ p, i < l.length) : takeList (takeList l p) q = takeList l (takeList p q) := by
  induction q with
  | nil => rfl
  | cons b q ih =>
    have key : (takeList l p)[b]? = (p[b]?).bind (l[·]?) := takeList_getElem? h b
    simp only [takeList] at ih key ⊢
    rw [List.filterMap_cons, List.filterMap_cons, key]
    cases hb : p[b]? with
    | none => simp [ih]
    | some i =>
      have hi : i < l.length := h i (List.mem_of_getElem? hb)
      simp only [Option.bind_some]
      rw [List.getElem?_eq_getElem hi, List.filterMap_cons_some (List.getElem?_eq_getElem hi)]
      simp only [ih]

theorem takeList_pySlice {τ : Type} (l : List τ) (a b : Nat) (p : List Nat)
    (h : ∀ i ∈ p, i < b - a) : takeList (pySlice l a b) p = takeList l (p.map (· + a)) := by
  induction p with
  | nil => rfl
  | cons i p ih =>
    have hi := h i (by simp)
    have ih' := ih (fun i hi => h i (by simp [hi]))
    have : (pySlice l a b)[i]? = l[i + a]? := by
      simp only [pySlice, List.getElem?_take, hi, ↓reduceIte, List.getElem?_drop]
      rw [Nat.add_comm]
    simp only [takeList] at ih' ⊢
    rw [List.map_cons, List.filterMap_cons, List.filterMap_cons, this]
    simp only [ih']

theorem takeList_range' {τ : Type} (l : List τ) (a n : Nat) (h : a + n ≤ l.length) :
    takeList l (List.range' a n) = pySlice l a (a + n) := by
  have h1 : List.range' a n = (List.range n).map (· + a) := by
    apply List.ext_getElem
    · simp
    · intro i h1 h2; simp [Nat.add_comm]
  rw [h1, ← takeList_pySlice l a (a + n) _ (by intro i hi; simp at hi; omega)]
  have : (pySlice l a (a + n)).length = n := by simp [pySlice]; omega
  have h2 := takeList_range (pySlice l a (a + n))
  rwa [this] at h2

theorem takeList_zipWith {A B C : Type} (f : A → B → C) (l : List A) (l' : List B)
    (h : l.length = l'.length) (p : List Nat) :
    takeList (List.zipWith f l l') p = List.zipWith f (takeList l p) (takeList l' p) := by
  induction p with
  | nil => rfl
  | cons i p ih =>
    simp only [takeList] at ih ⊢
    rw [List.filterMap_cons, List.filterMap_cons, List.filterMap_cons]
    by_cases hi : i < l.length
    · have hi' : i < l'.length := by omega
      have : (List.zipWith f l l')[i]? = some (f l[i] l'[i]) := by
        simp [hi, hi', List.getElem?_zipWith]
      rw [this]; simp [hi, hi', ih]
    · have hi' : ¬ i < l'.length := by omega
      have : (List.zipWith f l l')[i]? = none := by simp [hi, List.getElem?_zipWith]
      rw [this]; simp [hi, hi', ih]

theorem takeList_length_congr {A B : Type} {l : List A} {l' : List B} (h : l.length = l'.length)
    (p : List Nat) : (takeList l p).length = (takeList l' p).length := by
  induction p with
  | nil => rfl
  | cons i p ih =>
    simp only [takeList] at ih ⊢
    rw [List.filterMap_cons, List.filterMap_cons]
    by_cases hi : i < l.length
    · have hi' : i < l'.length := by omega
      simp [hi, hi', ih]
    · have hi' : ¬ i < l'.length := by omega
      simp [hi, hi', ih]

theorem mem_takeList {τ : Type} {l : List τ} {p : List Nat} {x : τ} (h : x ∈ takeList l p) : x ∈ l := by
  simp only [takeList, List.mem_filterMap] at h
  obtain ⟨i, _, hi⟩ := h
  exact List.mem_of_getElem? hi

/-- sorting then undoing -/
theorem takeList_npArgsort (l : List Nat) : takeList l (npArgsort l) = npSort l := by
  apply sorted_perm_eq
  · have h1 := sortBy_pairwise (le := fun a b : Nat × Nat => decide (a.1 ≤ b.1))
      (by intro a b c h1 h2; simp only [decide_eq_true_eq] at *; omega)
      (by intro a b; simp only [decide_eq_true_eq]; omega) l.zipIdx
    have h2 : takeList l (npArgsort l)
        = (sortBy (fun a b : Nat × Nat => decide (a.1 ≤ b.1)) l.zipIdx).map (·.1) := by
      unfold npArgsort takeList
      rw [List.filterMap_map, ← List.filterMap_eq_map]
      refine filterMap_congr' ?_
      intro x hx
      have hx' := mem_sortBy.mp hx
      simp only [Function.comp]
      rw [List.mem_zipIdx_iff_getElem?] at hx'
      exact hx'
    rw [h2, List.pairwise_map]
    exact h1.imp (by intro a b h; simpa using h)
  · exact npSort_pairwise l
  · have h1 : (takeList l (npArgsort l)).Perm (takeList l (List.range l.length)) :=
      (npArgsort_perm l).filterMap _
    rw [takeList_range] at h1
    exact h1.trans (npSort_perm l).symm

/-- `np.argsort(np.argsort(ps))` puts the sorted positions back in the requested order. -/
theorem takeList_argsort_argsort (ps : List Nat) :
    takeList (npSort ps) (npArgsort (npArgsort ps)) = ps := by
  have hr : ∀ i ∈ npArgsort ps, i < ps.length := by
    intro i hi
    have := (npArgsort_perm ps).mem_iff.mp hi
    simpa using this
  rw [← takeList_npArgsort, takeList_takeList _ hr, takeList_npArgsort]
  have h2 : npSort (npArgsort ps) = List.range ps.length := by
    apply sorted_perm_eq (npSort_pairwise _)
    · exact List.pairwise_le_range
    · exact (npSort_perm _).trans (npArgsort_perm ps)
  rw [h2, takeList_range]

/-! ### frames -/

theorem Frame.WF.takeRows {f : Frame ι κ α} (h : f.WF) (ps : List Nat) : (f.takeRows ps).WF := by
  refine ⟨takeList_length_congr h.rows_len ps, ?_⟩
  intro r hr
  exact h.row_width r (mem_takeList hr)

theorem Frame.WF.takeCols {f : Frame ι κ α} (h : f.WF) (ps : List Nat) : (f.takeCols ps).WF := by
  refine ⟨by simp [Frame.takeCols, h.rows_len], ?_⟩
  intro r hr
  simp only [Frame.takeCols, List.mem_map] at hr ⊢
  obtain ⟨x, hx, rfl⟩ := hr
  exact takeList_length_congr (h.row_width x hx) ps

theorem Frame.takeRows_ilocCols (f : Frame ι κ α) (ps : List Nat) (a b : Nat) :
    (f.ilocCols a b).takeRows ps = (f.takeRows ps).ilocCols a b := by
  simp [Frame.takeRows, Frame.ilocCols, takeList_map]

theorem Frame.takeRows_takeCols (f : Frame ι κ α) (ps qs : List Nat) :
    (f.takeCols qs).takeRows ps = (f.takeRows ps).takeCols qs := by
  simp [Frame.takeRows, Frame.takeCols, takeList_map]

theorem Frame.takeCols_ilocRows (f : Frame ι κ α) (qs : List Nat) (a b : Nat) :
    (f.ilocRows a b).takeCols qs = (f.takeCols qs).ilocRows a b := by
  simp [Frame.ilocRows, Frame.takeCols, pySlice_map]

theorem hrows_takeList {γ : Type} (n : Nat) (bs : List (List (List γ)))
    (h : ∀ b ∈ bs, b.length = n) (ps : List Nat) {n' : Nat}
    (hn : n' = (takeList (List.range n) ps).length) :
    Frame.hrows n' (bs.map (takeList · ps)) = takeList (Frame.hrows n bs) ps := by
  subst hn
  induction bs with
  | nil =>
    simp only [List.map_nil, Frame.hrows]
    have : List.replicate n ([] : List γ) = (List.range n).map (fun _ => []) := by
      simp [List.map_const']
    rw [this, takeList_map, List.map_const']
  | cons b bs ih =>
    have h' : ∀ b ∈ bs, b.length = n := fun x hx => h x (by simp [hx])
    simp only [List.map_cons, Frame.hrows, ih h']
    rw [takeList_zipWith]
    rw [hrows_length n bs h', h b (by simp)]

theorem columnLocal_takeRows [DecidableEq ι] (ps : List Nat) :
    ColumnLocal (fun f : Frame ι κ α => f.takeRows ps) := by
  refine ⟨fun f h => h.takeRows ps, ?_⟩
  intro fs f hwf hcat
  obtain ⟨hne, hidx⟩ := Frame.hcat_index hcat
  rw [Frame.hcat_eq (r := takeList f.index ps) (by simpa using hne)]
  · rw [Frame.hcat_eq hne hidx] at hcat
    simp only [Option.some.injEq] at hcat
    congr 1
    have key := hrows_takeList f.index.length (fs.map (·.rows))
      (by intro b hb; simp only [List.mem_map] at hb; obtain ⟨x, hx, rfl⟩ := hb
          rw [(hwf x hx).rows_len, hidx x hx]) ps
      (n' := (takeList f.index ps).length) (takeList_length_congr (by simp) ps)
    simp only [Frame.takeRows, Frame.mk.injEq, true_and]
    refine ⟨?_, ?_⟩
    · rw [← hcat]; simp only [List.map_map]; rfl
    · conv => rhs; rw [← hcat]
      rw [← key]
      simp only [List.map_map]; rfl
  · intro x hx
    simp only [List.mem_map] at hx
    obtain ⟨y, hy, rfl⟩ := hx
    simp [Frame.takeRows, hidx y hy]

theorem rowLocal_takeCols [DecidableEq κ] (ps : List Nat) :
    RowLocal (fun f : Frame ι κ α => f.takeCols ps) :=
  rowLocal_mapRows (takeList · ps) (takeList · ps) (fun _ _ h => takeList_length_congr h ps)
