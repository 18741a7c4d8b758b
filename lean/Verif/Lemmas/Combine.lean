import Verif.Lemmas.Where
import Verif.Lemmas.Mask
import Verif.Lemmas.Query
import Verif.Lemmas.GroupAggSpec
import Verif.Model.Combine

variable {ι κ α β L : Type}

/-! ### the left join -/

/-- the places of a label -/
def placesOf [DecidableEq L] (r : List L) (x : L) : List Nat := (List.range r.length).filter fun p => r[p]? == some x

theorem mem_placesOf [DecidableEq L] {r : List L} {x : L} {p : Nat} : p ∈ placesOf r x ↔ r[p]? = some x := by
  unfold placesOf
  simp only [List.mem_filter, List.mem_range, beq_iff_eq]
  constructor
  · exact fun h => h.2
  · exact fun h => ⟨(List.getElem?_eq_some_iff.1 h).1, h⟩

theorem placesOf_append [DecidableEq L] (a b : List L) (x : L) :
    placesOf (a ++ b) x = placesOf a x ++ (placesOf b x).map (a.length + ·) := by
  unfold placesOf
  rw [List.length_append, List.range_add, List.filter_append]
  congr 1
  · apply List.filter_congr
    intro p hp
    rw [List.getElem?_append_left (by simpa using hp)]
  · rw [List.filter_map]
    congr 1
    apply List.filter_congr
    intro p _
    simp only [Function.comp]
    rw [List.getElem?_append_right (by omega)]
    simp

theorem placesOf_replicate [DecidableEq L] (n : Nat) (x : L) : placesOf (List.replicate n x) x = List.range n := by
  unfold placesOf
  rw [List.length_replicate, List.filter_eq_self]
  intro p hp
  rw [List.getElem?_replicate, if_pos (by simpa using hp)]
  simp

theorem placesOf_nil [DecidableEq L] {r : List L} {x : L} (h : x ∉ r) : placesOf r x = [] := by
  rw [List.eq_nil_iff_forall_not_mem]
  intro p hp
  exact h (List.mem_of_getElem? (mem_placesOf.1 hp))

theorem placesOf_grouped [DecidableEq L] (c : L → Nat) (l : List L) (hn : l.Nodup) :
    l.flatMap (placesOf (l.flatMap fun y => List.replicate (c y) y)) = List.range (l.flatMap fun y => List.replicate (c y) y).length := by
  induction l with
  | nil => rfl
  | cons x l ih =>
    rw [List.nodup_cons] at hn
    have hx : x ∉ l.flatMap fun y => List.replicate (c y) y := by
      intro h
      rw [List.mem_flatMap] at h
      obtain ⟨y, hy, h⟩ := h
      rw [List.mem_replicate] at h
      exact hn.1 (h.2 ▸ hy)
    generalize hr : (l.flatMap fun y => List.replicate (c y) y) = r at ih hx
    rw [List.flatMap_cons, List.flatMap_cons, hr, placesOf_append, placesOf_replicate, placesOf_nil hx, List.length_append,
      List.range_add, List.length_replicate, ← ih hn.2, List.map_flatMap, List.map_nil, List.append_nil]
    congr 1
    apply flatMap_congr_mem
    intro y hy
    have hxy : y ≠ x := fun h => hn.1 (h ▸ hy)
    rw [placesOf_append, placesOf_nil (r := List.replicate (c x) x) (by simp [List.mem_replicate, hxy]), List.length_replicate,
      List.nil_append]

/-- the pairs of a left join -/
def leftPairs [DecidableEq L] (l r : List L) : List (L × Option Nat × Option Nat) :=
  l.zipIdx.flatMap fun e => if (placesOf r e.1).isEmpty then [(e.1, some e.2, none)] else (placesOf r e.1).map fun p => (e.1, some e.2, some p)

theorem leftJoin_join2 [DecidableEq L] (l r : List L) :
    leftJoin.join2 l r = ((leftPairs l r).map (·.1), (leftPairs l r).map (·.2.1), (leftPairs l r).map (·.2.2)) := by
  unfold leftJoin leftJoinSorted
  simp only
  rw [sortBy_of_pairwise _ (by
    rw [List.pairwise_iff_getElem]
    intros
    rfl)]
  rfl

theorem flatMap_singletons {A B : Type} (f : A → List B) (l : List A) (h1 : ∀ a ∈ l, f a ≠ []) (h : (l.flatMap f).length = l.length) :
    ∀ a ∈ l, (f a).length = 1 := by
  induction l with
  | nil => intro a ha; cases ha
  | cons x l ih =>
    have hge : ∀ l : List A, (∀ a ∈ l, f a ≠ []) → l.length ≤ (l.flatMap f).length := by
      intro l
      induction l with
      | nil => simp
      | cons y l ih2 =>
        intro h
        have := ih2 fun a ha => h a (List.mem_cons_of_mem _ ha)
        have h2 := List.length_pos_iff.2 (h y (by simp))
        rw [List.flatMap_cons, List.length_append, List.length_cons]
        omega
    have h2 := List.length_pos_iff.2 (h1 x (by simp))
    have h3 := hge l fun a ha => h1 a (List.mem_cons_of_mem _ ha)
    rw [List.flatMap_cons, List.length_append, List.length_cons] at h
    intro a ha
    rcases List.mem_cons.1 ha with rfl | ha
    · omega
    · exact ih (fun a ha => h1 a (List.mem_cons_of_mem _ ha)) (by omega) a ha

theorem mem_leftPairs [DecidableEq L] {l r : List L} {t : L × Option Nat × Option Nat} (h : t ∈ leftPairs l r) :
    (∃ i, t.2.1 = some i ∧ l[i]? = some t.1) ∧ ((t.2.2 = none ∧ t.1 ∉ r) ∨ ∃ p, t.2.2 = some p ∧ r[p]? = some t.1) := by
  unfold leftPairs at h
  rw [List.mem_flatMap] at h
  obtain ⟨e, he, ht⟩ := h
  have he' : l[e.2]? = some e.1 := by
    have := List.mk_mem_zipIdx_iff_getElem?.1 (show (e.1, e.2) ∈ l.zipIdx from he)
    simpa using this
  by_cases hp : (placesOf r e.1).isEmpty = true
  · rw [if_pos hp, List.mem_singleton] at ht
    subst ht
    refine ⟨⟨e.2, rfl, he'⟩, Or.inl ⟨rfl, ?_⟩⟩
    intro hm
    obtain ⟨p, hp'⟩ := List.getElem?_of_mem hm
    have := mem_placesOf.2 hp'
    rw [List.isEmpty_iff.1 hp] at this
    cases this
  · rw [if_neg hp, List.mem_map] at ht
    obtain ⟨p, hp', rfl⟩ := ht
    exact ⟨⟨e.2, rfl, he'⟩, Or.inr ⟨p, rfl, mem_placesOf.1 hp'⟩⟩

theorem leftPairs_labels [DecidableEq L] (l r : List L) :
    (leftPairs l r).map (·.1) = l.flatMap fun x => List.replicate (max 1 (placesOf r x).length) x := by
  unfold leftPairs
  have : l = l.zipIdx.map (·.1) := (List.zipIdx_map_fst 0 l).symm
  conv => rhs; rw [this]
  rw [List.map_flatMap, List.flatMap_map]
  apply flatMap_congr_mem
  intro e _
  by_cases hp : (placesOf r e.1).isEmpty = true
  · rw [if_pos hp, List.isEmpty_iff.1 hp]
    rfl
  · rw [if_neg hp]
    have : 1 ≤ (placesOf r e.1).length := List.length_pos_iff.2 (by simpa using hp)
    rw [Nat.max_eq_right this, List.map_map, List.eq_replicate_iff]
    simp

theorem count_placesOf [DecidableEq L] (r : List L) (x : L) : (placesOf r x).length = r.count x := by
  induction r with
  | nil => rfl
  | cons y r ih =>
    have : y :: r = [y] ++ r := rfl
    rw [this, placesOf_append, List.length_append, List.length_map, ih, List.count_append]
    congr 1
    by_cases h : y = x
    · subst h; simp [placesOf]
    · simp [placesOf, h]

theorem count_flatMap_replicate [DecidableEq L] (c : L → Nat) (l : List L) (x : L) :
    (l.flatMap fun y => List.replicate (c y) y).count x = l.count x * c x := by
  induction l with
  | nil => simp
  | cons y l ih =>
    rw [List.flatMap_cons, List.count_append, ih, List.count_replicate, List.count_cons]
    by_cases h : y = x
    · subst h; simp [Nat.add_mul, Nat.add_comm]
    · simp [h]

theorem nodup_of_count_one [DecidableEq L] {l : List L} (h : ∀ x ∈ l, l.count x = 1) : l.Nodup := by
  rw [List.nodup_iff_count]
  intro x
  by_cases hx : x ∈ l
  · rw [h x hx]; exact Nat.le_refl 1
  · rw [List.count_eq_zero.2 hx]; omega

theorem leftJoin_good [DecidableEq L] : (leftJoin : JoinOps L).Good := by
  intro l r
  rw [leftJoin_join2]
  simp only
  refine ⟨⟨by simp, ?_, ?_, ?_⟩, ⟨by simp, ?_, ?_, ?_⟩⟩
  · intro k p h
    rw [List.getElem?_map, Option.map_eq_some_iff] at h
    obtain ⟨t, ht, h⟩ := h
    obtain ⟨⟨i, h1, h2⟩, _⟩ := mem_leftPairs (List.mem_of_getElem? ht)
    rw [h1, Option.some.injEq] at h
    subst h
    rw [List.getElem?_map, ht]
    exact ⟨(List.getElem?_eq_some_iff.1 h2).1, h2⟩
  · intro k x h
    rw [List.getElem?_map, Option.map_eq_some_iff] at h
    obtain ⟨t, ht, h⟩ := h
    obtain ⟨⟨i, h1, h2⟩, _⟩ := mem_leftPairs (List.mem_of_getElem? ht)
    rw [h1] at h
    cases h
  · intro h
    have hlen : (leftPairs l r).length = l.length := by rw [h, List.length_map]; rw [← h]
    have hs := flatMap_singletons (fun e : L × Nat => if (placesOf r e.1).isEmpty then [(e.1, some e.2, (none : Option Nat))]
        else (placesOf r e.1).map fun p => (e.1, some e.2, some p)) l.zipIdx (fun e _ => by
      by_cases hp : (placesOf r e.1).isEmpty = true
      · simp only [if_pos hp]; simp
      · simp only [if_neg hp]; simpa using hp) (by rw [List.length_zipIdx]; exact hlen)
    rw [List.length_map, hlen]
    have : (leftPairs l r).map (·.2.1) = (l.zipIdx.map (·.2)).map some := by
      unfold leftPairs
      rw [List.map_flatMap, List.map_map, List.map_eq_flatMap (l := l.zipIdx)]
      apply flatMap_congr_mem
      intro e he
      have := hs e he
      by_cases hp : (placesOf r e.1).isEmpty = true
      · rw [if_pos hp]; rfl
      · rw [if_neg hp] at this ⊢
        rw [List.length_map] at this
        obtain ⟨a, ha⟩ := List.length_eq_one_iff.1 this
        rw [ha]; rfl
    rw [this, List.zipIdx_map_snd, List.range_eq_range']
  · intro k p h
    rw [List.getElem?_map, Option.map_eq_some_iff] at h
    obtain ⟨t, ht, h⟩ := h
    obtain ⟨_, h2⟩ := mem_leftPairs (List.mem_of_getElem? ht)
    rcases h2 with ⟨h2, _⟩ | ⟨q, h1, h2⟩
    · rw [h2] at h; cases h
    · rw [h1, Option.some.injEq] at h
      subst h
      rw [List.getElem?_map, ht]
      exact ⟨(List.getElem?_eq_some_iff.1 h2).1, h2⟩
  · intro k x h hx
    rw [List.getElem?_map, Option.map_eq_some_iff] at h
    obtain ⟨t, ht, h⟩ := h
    rw [List.getElem?_map, ht, Option.map_some, Option.some.injEq] at hx
    obtain ⟨_, h2⟩ := mem_leftPairs (List.mem_of_getElem? ht)
    rcases h2 with ⟨_, h2⟩ | ⟨q, h1, h2⟩
    · exact hx ▸ h2
    · rw [h1] at h; cases h
  · intro h
    rw [leftPairs_labels] at h
    have hin : ∀ x ∈ l, x ∈ r := by
      intro x hx
      rw [h, List.mem_flatMap]
      exact ⟨x, hx, by simp [List.mem_replicate]⟩
    have hc1 : ∀ x ∈ l, l.count x = 1 := by
      intro x hx
      have h1 : 1 ≤ r.count x := List.count_pos_iff.2 (hin x hx)
      have h2 : r.count x = l.count x * max 1 (placesOf r x).length := by
        conv => lhs; rw [h]
        exact count_flatMap_replicate _ l x
      rw [count_placesOf, Nat.max_eq_right h1] at h2
      have : (l.count x - 1) * r.count x = 0 := by rw [Nat.sub_mul, ← h2]; omega
      rcases Nat.mul_eq_zero.1 this with h3 | h3
      · have := List.count_pos_iff.2 hx
        omega
      · omega
    have hn := nodup_of_count_one hc1
    have hpl := placesOf_grouped (fun x => max 1 (placesOf r x).length) l hn
    rw [← h] at hpl
    have : (leftPairs l r).map (·.2.2) = (l.flatMap (placesOf r)).map some := by
      unfold leftPairs
      have e : l = l.zipIdx.map (·.1) := (List.zipIdx_map_fst 0 l).symm
      conv => rhs; rw [e]
      rw [List.map_flatMap, List.flatMap_map, List.map_flatMap]
      apply flatMap_congr_mem
      intro e he
      have hm : e.1 ∈ l := by
        obtain ⟨x, i⟩ := e
        exact List.mem_of_getElem? (List.mk_mem_zipIdx_iff_getElem?.1 he)
      have hp : ¬(placesOf r e.1).isEmpty = true := by
        rw [List.isEmpty_iff]
        intro h0
        obtain ⟨p, hp⟩ := List.getElem?_of_mem (hin _ hm)
        have := mem_placesOf.2 hp
        rw [h0] at this
        cases this
      rw [if_neg hp, List.map_map]
      rfl
    rw [this, hpl, List.length_map, ← List.length_map (f := (·.1)) (as := leftPairs l r), leftPairs_labels, ← h]

/-- the rows and columns of the first frame stay, if no label of the other repeats -/
theorem leftJoin_keeps [DecidableEq L] (axis0 : Bool) {l r : List L} (h : r = l ∨ r.Nodup) : joinedLabels leftJoin axis0 l [r] = l := by
  rcases h with rfl | h
  · simp [joinedLabels, allSame]
  · unfold joinedLabels
    split
    · rfl
    · simp only
      split
      · rw [leftJoin_join2, leftPairs_labels]
        simp only
        have : (l.flatMap fun x => List.replicate (max 1 (placesOf r x).length) x) = l.flatMap fun x => [x] := by
          apply flatMap_congr_mem
          intro x _
          have := List.nodup_iff_count.1 h x
          rw [← count_placesOf] at this
          have : max 1 (placesOf r x).length = 1 := by omega
          rw [this]
          rfl
        rw [this, List.flatMap_singleton']
      · exact sortBy_of_pairwise _ (by
          rw [List.pairwise_iff_getElem]
          intros
          rfl)

/-! ### cells that may fail -/

theorem Frame.allSome_mapCells (f : Frame ι κ α) : (f.mapCells some).allSome = some f := by
  unfold Frame.allSome Frame.mapCells
  simp only
  rw [show (f.rows.map fun r => r.map some).mapM (fun r : List (Option α) => r.mapM id) = some f.rows by
    rw [mapM_congr_some (g := fun r : List (Option α) => r.filterMap id)]
    · congr 1
      rw [List.map_map]
      conv => rhs; rw [← List.map_id f.rows]
      apply List.map_congr_left
      intro r _
      simp [List.filterMap_map]
    · intro r hr
      rw [List.mem_map] at hr
      obtain ⟨r', _, rfl⟩ := hr
      rw [mapM_id_some]
      simp [List.filterMap_map]]
  rfl

theorem Frame.allSome_some {f : Frame ι κ (Option α)} {c : Frame ι κ α} (h : f.allSome = some c) : f = c.mapCells some := by
  unfold Frame.allSome at h
  rw [Option.map_eq_some_iff] at h
  obtain ⟨rows, h1, rfl⟩ := h
  unfold Frame.mapCells
  simp only
  have : f.rows = rows.map fun r => r.map some := by
    obtain ⟨i, k, rs⟩ := f
    simp only at h1 ⊢
    clear i k
    induction rs generalizing rows with
    | nil => cases h1; rfl
    | cons r rs ih =>
      rw [List.mapM_cons] at h1
      simp only [bind, Option.bind_eq_some_iff, pure, Option.some.injEq] at h1
      obtain ⟨r', h2, rs', h3, rfl⟩ := h1
      rw [ih rs' h3, List.map_cons]
      congr 1
      clear h3 ih
      induction r generalizing r' with
      | nil => cases h2; rfl
      | cons v r ih =>
        rw [List.mapM_cons] at h2
        simp only [bind, Option.bind_eq_some_iff, pure, Option.some.injEq, id] at h2
        obtain ⟨v', h4, r2, h5, rfl⟩ := h2
        rw [ih r2 h5, h4]
        rfl
  rw [← this]

theorem Frame.allSome_none {f : Frame ι κ (Option α)} (h : f.allSome = none) : ∃ r ∈ f.rows, none ∈ r := by
  unfold Frame.allSome at h
  rw [Option.map_eq_none_iff] at h
  obtain ⟨r, hr, h⟩ := mapM_none_mem h
  obtain ⟨x, hx, h⟩ := mapM_none_mem h
  exact ⟨r, hr, by cases x with
    | none => exact hx
    | some v => cases h⟩

theorem Frame.allSome_none_of {f : Frame ι κ (Option α)} {r : List (Option α)} (hr : r ∈ f.rows) (h : none ∈ r) : f.allSome = none := by
  unfold Frame.allSome
  rw [Option.map_eq_none_iff]
  exact mapM_mem_none hr (mapM_mem_none h rfl)

theorem allSome_cut {f : Frame ι κ (Option α)} (hwf : f.WF) {rl cw : List Nat} (hc : f.IsCut rl cw) :
    ((f.cut rl cw).mapM fun row => row.mapM Frame.allSome) = f.allSome.map fun c => c.cut rl cw := by
  cases ha : f.allSome with
  | some c =>
    rw [Option.map_some, Frame.allSome_some ha, ← Frame.cut_mapCells]
    rw [mapM_map_some _ _ id _ (fun row _ => by
      rw [mapM_map_some _ _ id _ (fun b _ => Frame.allSome_mapCells b)]
      simp)]
    simp
  | none =>
    obtain ⟨r, hr, hn⟩ := Frame.allSome_none ha
    rw [Option.map_none]
    have h1 := covers_lens rl f.rows (by rw [hwf.rows_len, hc.rl_sum]; rfl)
    have h2 := covers_lens cw r (by rw [hwf.row_width r hr, hc.cw_sum]; rfl)
    rw [← h1, List.mem_flatten] at hr
    obtain ⟨band, hb, hr⟩ := hr
    rw [List.mem_map] at hb
    obtain ⟨p, hp, rfl⟩ := hb
    rw [← h2, List.mem_flatten] at hn
    obtain ⟨cells, hb, hn⟩ := hn
    rw [List.mem_map] at hb
    obtain ⟨q, hq, rfl⟩ := hb
    refine mapM_mem_none (x := (sliceBounds cw).map fun q => (f.ilocRows p.1 p.2).ilocCols q.1 q.2) ?_ ?_
    · exact List.mem_map.2 ⟨p, hp, rfl⟩
    · refine mapM_mem_none (x := (f.ilocRows p.1 p.2).ilocCols q.1 q.2) (List.mem_map.2 ⟨q, hq, rfl⟩) ?_
      exact Frame.allSome_none_of (r := pySlice r q.1 q.2) (List.mem_map.2 ⟨r, hr, rfl⟩) hn

theorem mapM_then {A B C : Type} (F : A → Option B) (h : B → Option C) (l : List A) :
    (l.mapM fun x => (F x).bind h) = (l.mapM F).bind fun bs => bs.mapM h := by
  induction l with
  | nil => rfl
  | cons x l ih =>
    rw [List.mapM_cons, List.mapM_cons, ih]
    simp only [bind, pure]
    cases hx : F x with
    | none => rfl
    | some b =>
      simp only [Option.bind_some]
      cases hl : l.mapM F with
      | none =>
        simp only [Option.bind_none]
        cases h b <;> rfl
      | some bs =>
        simp only [Option.bind_some, List.mapM_cons]
        rfl

theorem nAryOperation_then {γ : Type} (op : Frame L L α → List (Frame L L α) → Option (Frame L L β)) (h : Frame L L β → Option (Frame L L γ))
    (left : Grid L L α) (right : List (Grid L L α)) :
    nAryOperation (fun b os => (op b os).bind h) left right = (nAryOperation op left right).bind fun g => g.mapM fun row => row.mapM h := by
  unfold nAryOperation
  have : ∀ (r : List (Frame L L α) × Nat), (r.1.zipIdx.mapM fun c =>
        (right.mapM fun g => g[r.2]?.bind (·[c.2]?)).bind fun os => (op c.1 os).bind h) =
      (r.1.zipIdx.mapM fun c => (right.mapM fun g => g[r.2]?.bind (·[c.2]?)).bind (op c.1)).bind fun row => row.mapM h := by
    intro r
    rw [← mapM_then]
    congr 1
    funext c
    cases (right.mapM fun g => g[r.2]?.bind (·[c.2]?)) <;> rfl
  simp only [this]
  exact mapM_then _ _ _

/-- a frame of the cells two frames have under the labels `J`, `K` -/
def joinedCells [DecidableEq L] (nan : α) (f : α → List α → β) (J K : List L) (a b : Frame L L α) : Frame L L β :=
  ⟨J, K, (List.range J.length).map fun x => (List.range K.length).map fun y =>
    f ((a.alignedCell J K x y).getD nan) [(b.alignedCell J K x y).getD nan]⟩

theorem mapIdx_range {A B : Type} (l : List A) (f : Nat → A → B) (g : Nat → B) (n : Nat) (hn : l.length = n)
    (h : ∀ i a, l[i]? = some a → f i a = g i) : l.mapIdx f = (List.range n).map g := by
  apply List.ext_getElem?
  intro i
  rw [List.getElem?_mapIdx, List.getElem?_map]
  cases hl : l[i]? with
  | none =>
    rw [List.getElem?_eq_none_iff] at hl
    rw [List.getElem?_eq_none (by rw [List.length_range]; omega)]
    rfl
  | some a =>
    have := (List.getElem?_eq_some_iff.1 hl).1
    rw [List.getElem?_range (by omega)]
    simp only [Option.map_some]
    rw [h i a hl]

theorem cellwise_reindexed [DecidableEq L] (nan : α) (f : α → List α → β) (J K : List L) {a b : Frame L L α} (ha : a.WF) (hb : b.WF) :
    ((a.reindexRows nan J (labelPositions a.index J)).reindexCols nan K (labelPositions a.columns K)).cellwise f
      [(b.reindexRows nan J (labelPositions b.index J)).reindexCols nan K (labelPositions b.columns K)] = joinedCells nan f J K a b := by
  have hA : ∀ x y, x < J.length → y < K.length → _ := fun x y hx hy => cell_reindexed nan ha J K (x := x) (y := y) hx hy
  have hB : ∀ x y, x < J.length → y < K.length → _ := fun x y hx hy => cell_reindexed nan hb J K (x := x) (y := y) hx hy
  have hrl : ((a.reindexRows nan J (labelPositions a.index J)).reindexCols nan K (labelPositions a.columns K)).rows.length = J.length := by
    unfold Frame.reindexCols Frame.mapRows
    simp only
    rw [reindexRows_rows (labelPositions_length _ _) ha, List.length_map, List.length_map, labelPositions_length]
  have hrw : ∀ r ∈ ((a.reindexRows nan J (labelPositions a.index J)).reindexCols nan K (labelPositions a.columns K)).rows,
      r.length = K.length := by
    intro r hr
    unfold Frame.reindexCols Frame.mapRows at hr
    simp only [List.mem_map] at hr
    obtain ⟨r', _, rfl⟩ := hr
    unfold pick
    rw [List.length_map, labelPositions_length]
  generalize hX : (a.reindexRows nan J (labelPositions a.index J)).reindexCols nan K (labelPositions a.columns K) = X at *
  generalize (b.reindexRows nan J (labelPositions b.index J)).reindexCols nan K (labelPositions b.columns K) = Y at *
  have e1 : X.index = J := by rw [← hX]; rfl
  have e2 : X.columns = K := by rw [← hX]; rfl
  unfold Frame.cellwise joinedCells
  rw [e1, e2]
  congr 1
  apply mapIdx_range _ _ _ _ hrl
  intro x row hx
  apply mapIdx_range _ _ _ _ (hrw row (List.mem_of_getElem? hx))
  intro y v hy
  have hxl : x < J.length := by rw [← hrl]; exact (List.getElem?_eq_some_iff.1 hx).1
  have hyl : y < K.length := by rw [← hrw row (List.mem_of_getElem? hx)]; exact (List.getElem?_eq_some_iff.1 hy).1
  have hA := hA x y hxl hyl
  have hB := hB x y hxl hyl
  unfold Frame.cell at hA
  rw [hx, Option.bind_some, hy, Option.some.injEq] at hA
  rw [hA]
  simp [hB]

/-- **Two frames with any labels**: the blocks of the result hold the operation on the cells under the same labels; it fails if it fails
    for some cell. -/
theorem nAry_joined [DecidableEq L] (P : JoinOps L) (hP : P.Good) (hf : P.first = false) (cfg : Cfg) (hp : 1 ≤ cfg.nPartitions)
    (hr : 1 ≤ cfg.minRow) (hc : 1 ≤ cfg.minCol) (nan : α) (f : α → List α → Option β)
    (m other : MFrame L L α) (a b : Frame L L α) (hm : m.Represents a) (ho : other.Represents b)
    (hjc : b.columns = a.columns ∨ (a.columns.Nodup ∧ b.columns.Nodup))
    {J K : List L} (hJ : joinedLabels P true a.index [b.index] = J) (hK : joinedLabels P false a.columns [b.columns] = K)
    (hia : a.index = J ∨ a.index.Nodup) (hib : b.index = J ∨ b.index.Nodup)
    (hbands : (m.colWidths = none ∧ other.colWidths = none) ∨ (0 ∉ m.getRowLens ∧ 0 ∉ other.getRowLens ∧
      ((K ≠ [] ∧ m.colWidths.isSome ∧ other.colWidths.isSome ∧ a.columns ≠ [] ∧ b.columns ≠ []) ∨ b.index = a.index))) :
    ((joinedCells nan f J K a b).allSome = none →
      nAryOp P cfg nan (fun x os => (cellwiseBlock f x os).bind Frame.allSome) m [other] = none) ∧
    ∀ C, (joinedCells nan f J K a b).allSome = some C →
      ∃ m', nAryOp P cfg nan (fun x os => (cellwiseBlock f x os).bind Frame.allSome) m [other] = some m' ∧ m'.Represents C := by
  obtain ⟨B0, Bs, R, lens2, h1, h2, h3, h4, h5, h6⟩ := nAry_frames P hP cfg hp hr hc nan m a [(other, b)] (by simp)
    (by
      simp only [List.mem_cons, List.not_mem_nil, or_false]
      rintro e (rfl | rfl)
      · exact hm
      · exact ho)
    (by exact Or.inr (Or.inr (Or.inl ⟨rfl, hf, rfl⟩)))
    (fun h => by rw [hf] at h; cases h)
    (by
      rcases hjc with h | h
      · exact Or.inl (by simp [h])
      · exact Or.inr (Or.inl (by simp [h])))
    (by
      simp only [List.map_cons, List.map_nil, hK]
      rcases hbands with ⟨e1, e2⟩ | ⟨e1, e2, h⟩
      · left; simp [e1, e2]
      · right
        refine ⟨by simp [e1, e2], ?_⟩
        rcases h with ⟨g1, g2, g3, g4, g5⟩ | h
        · left; simp [g1, g2, g3, g4, g5]
        · right; simp [h])
  simp only [List.map_cons, List.map_nil, hJ, hK] at h6
  have hK1 : a.columns = K ∨ a.columns.Nodup := by
    rcases hjc with h | h
    · rw [h] at hK
      left
      rw [← hK]
      simp [joinedLabels, allSame]
    · exact Or.inr h.1
  have hK2 : b.columns = K ∨ b.columns.Nodup := by
    rcases hjc with h | h
    · rw [h] at hK ⊢
      left
      rw [← hK]
      simp [joinedLabels, allSame]
    · exact Or.inr h.2
  have hB0 : B0 = (a.reindexRows nan J (labelPositions a.index J)).reindexCols nan K (labelPositions a.columns K) := by
    obtain ⟨I, Q, i1, i2, i3⟩ := h6 0 (m, a) B0 rfl rfl
    rw [i3, isIndexer_unique i1 hia, isIndexer_unique i2 hK1]
  obtain ⟨B1, rfl⟩ : ∃ B1, Bs = [B1] := List.length_eq_one_iff.1 h5
  have hB1 : B1 = (b.reindexRows nan J (labelPositions b.index J)).reindexCols nan K (labelPositions b.columns K) := by
    obtain ⟨I, Q, i1, i2, i3⟩ := h6 1 (other, b) B1 rfl rfl
    rw [i3, isIndexer_unique i1 hib, isIndexer_unique i2 hK2]
  have hcw : B0.cellwise f [B1] = joinedCells nan f J K a b := by
    rw [hB0, hB1]
    exact cellwise_reindexed nan f J K hm.wf ho.wf
  have hwf := cellwise_wf f (h1 B0 (by simp)).1 [B1]
  have hcut : (B0.cellwise f [B1]).IsCut R lens2 := ⟨h2.1, h2.2, h2.3, h2.4⟩
  have hop : nAryOperation (fun x os => (cellwiseBlock f x os).bind Frame.allSome) (B0.cut R lens2) ([B1].map (·.cut R lens2)) =
      (joinedCells nan f J K a b).allSome.map fun C => C.cut R lens2 := by
    rw [nAryOperation_then, nAryOperation_cut f (fun b hb' => (h1 b (List.mem_cons_of_mem _ hb')).2) R lens2, Option.bind_some,
      allSome_cut hwf hcut, hcw]
  constructor
  · intro h
    exact h3 _ (by rw [hop, h]; rfl)
  · intro C h
    have hs := Frame.allSome_some h
    rw [← hcw] at hs
    refine h4 _ C ?_ ?_ ?_ (by rw [hop, h]; rfl)
    · rw [hs] at hwf
      refine ⟨by simpa [Frame.mapCells] using hwf.1, ?_⟩
      intro r hr
      simpa [Frame.mapCells] using hwf.2 (r.map some) (List.mem_map.2 ⟨r, hr, rfl⟩)
    · exact (congrArg Frame.index hs).symm
    · exact (congrArg Frame.columns hs).symm

/-! ### `update` -/

theorem alignedCell_own [DecidableEq ι] [DecidableEq κ] {f : Frame ι κ α} {x y : Nat} (hx : x < f.index.length)
    (hy : y < f.columns.length) : f.alignedCell f.index f.columns x y = f.cell x y := by
  unfold Frame.alignedCell labelPositions
  rw [if_pos rfl, if_pos rfl]
  simp [List.getElem?_map, List.getElem?_range hx, List.getElem?_range hy]

theorem updateCell_missing (isna : α → Bool) (nan : α) (hna : ∀ x, isna x = true ↔ x = nan) (a : UpdateArgs α) (v : α) (o : Option α) :
    updateCell isna a v (some (o.getD nan)) = updateCell isna a v o := by
  cases o with
  | some o => rfl
  | none =>
    have hn : isna nan = true := (hna nan).2 rfl
    unfold updateCell
    simp only [Option.getD_none]
    cases a.filter with
    | some p => simp [hn]
    | none =>
      simp only [hn, Bool.not_true, Bool.and_false, Bool.false_eq_true, if_false, if_true]
      by_cases ho : a.overwrite = true
      · rw [if_pos ho]
      · rw [if_neg ho]
        by_cases hv : isna v = true
        · rw [if_pos hv, (hna v).1 hv]
        · rw [if_neg hv]

theorem update_joined [DecidableEq L] (isna : α → Bool) (nan : α) (hna : ∀ x, isna x = true ↔ x = nan) (args : UpdateArgs α)
    {a b : Frame L L α} (ha : a.WF) (hi : b.index = a.index ∨ b.index.Nodup) :
    a.update isna args b =
      (joinedCells nan (fun v os => updateCell isna args v os.head?) a.index a.columns a b).allSome := by
  unfold Frame.update joinedCells
  rw [if_neg (by rintro ⟨h1, h2⟩; exact hi.elim h1 h2)]
  congr 2
  apply mapIdx_range _ _ _ _ ha.rows_len
  intro x row hx
  apply mapIdx_range _ _ _ _ (ha.row_width row (List.mem_of_getElem? hx))
  intro y v hy
  have hxl : x < a.index.length := by rw [← ha.rows_len]; exact (List.getElem?_eq_some_iff.1 hx).1
  have hyl : y < a.columns.length := by
    rw [← ha.row_width row (List.mem_of_getElem? hx)]; exact (List.getElem?_eq_some_iff.1 hy).1
  rw [alignedCell_own hxl hyl]
  unfold Frame.cell
  rw [hx, Option.bind_some, hy, Option.getD_some]
  exact (updateCell_missing isna nan hna args v _).symm

theorem cellwiseBlock_total [DecidableEq L] (f : α → List α → β) :
    (fun (x : Frame L L α) os => (cellwiseBlock (fun v vs => some (f v vs)) x os).bind Frame.allSome) = cellwiseBlock f := by
  funext x os
  unfold cellwiseBlock
  split
  · rw [Option.bind_some]
    have : x.cellwise (fun v vs => some (f v vs)) os = (x.cellwise f os).mapCells some := by
      unfold Frame.cellwise Frame.mapCells
      simp only [map_mapIdx']
    rw [this, Frame.allSome_mapCells]
  · rfl

/-! ### `compare` -/

theorem picked_length {A : Type} {labels : List A} {ps : List Nat} (h : ∀ p ∈ ps, p < labels.length) :
    (ps.filterMap (labels[·]?)).length = ps.length := by
  induction ps with
  | nil => rfl
  | cons p ps ih =>
    rw [List.filterMap_cons_some (List.getElem?_eq_getElem (h p (by simp))), List.length_cons, List.length_cons,
      ih fun q hq => h q (List.mem_cons_of_mem _ hq)]

theorem compareWith_wf [DecidableEq ι] [DecidableEq κ] {same : α → α → Bool} {nan : α} {args : CompareArgs} {a b : Frame ι κ α}
    {c : Frame (ι × Option Side) (κ × Option Side) α} (h : a.compareWith same nan args b = some c) : c.WF := by
  have h1 : ((a.comparedRows same args b).filterMap (a.index[·]?)).length = (a.comparedRows same args b).length :=
    picked_length fun p hp => by
      unfold Frame.comparedRows at hp
      exact List.mem_range.1 (List.mem_filter.1 hp).1
  have h2 : ((a.comparedCols same args b).filterMap (a.columns[·]?)).length = (a.comparedCols same args b).length :=
    picked_length fun p hp => by
      unfold Frame.comparedCols at hp
      exact List.mem_range.1 (List.mem_filter.1 hp).1
  have two : ∀ {A B : Type} (l : List A) (f g : A → B), (l.flatMap fun x => [f x, g x]).length = 2 * l.length := by
    intro A B l f g
    induction l with
    | nil => rfl
    | cons x l ih => rw [List.flatMap_cons, List.length_append, ih, List.length_cons]; simp only [List.length_cons, List.length_nil]; omega
  unfold Frame.compareWith at h
  by_cases hl : a.index ≠ b.index ∨ a.columns ≠ b.columns
  · rw [if_pos hl] at h; cases h
  · rw [if_neg hl] at h
    dsimp only at h
    by_cases hc : args.columns = true
    · rw [if_pos hc, Option.some.injEq] at h
      subst h
      constructor
      · simp [h1]
      · intro r hr
        simp only [List.mem_map] at hr
        obtain ⟨x, _, rfl⟩ := hr
        rw [two, two, h2]
    · rw [if_neg hc, Option.some.injEq] at h
      subst h
      constructor
      · simp only
        rw [two, two, h1]
      · intro r hr
        simp only [List.mem_flatMap, List.mem_cons, List.not_mem_nil, or_false] at hr
        obtain ⟨x, _, rfl | rfl⟩ := hr <;> simp [h2]

/-- one block column for which the function fails -/
theorem applyColBands_none [DecidableEq ι] [DecidableEq κ] {ι' κ' : Type} (cfg : Cfg) {df : Frame ι κ α} (hwf : df.WF) {rl cw : List Nat}
    (hc : df.IsCut rl cw) (func : Nat → Frame ι κ α → Option (Frame ι' κ' β)) {idx : List Nat} {e : Nat × Nat} (he : e ∈ idx.zipIdx)
    (g0 : e.1 < cw.length) (h : func e.2 (colBand cw df e.1) = none) : applyColBands cfg func idx (df.cut rl cw) = none := by
  unfold applyColBands
  rw [Option.map_eq_none_iff]
  refine mapM_mem_none he ?_
  rw [colBlocks_cut hc.rl_ne, List.getElem?_map, sliceBounds_getElem? g0, Option.map_some, Option.bind_some]
  have hv : Frame.vcat ((sliceBounds rl).map fun p => (df.ilocRows p.1 p.2).ilocCols (off cw e.1) (off cw (e.1 + 1))) =
      some (colBand cw df e.1) := by
    have : ((sliceBounds rl).map fun p => (df.ilocRows p.1 p.2).ilocCols (off cw e.1) (off cw (e.1 + 1))) =
        (sliceBounds rl).map fun p => (colBand cw df e.1).ilocRows p.1 p.2 := by
      apply List.map_congr_left
      intro p _
      exact ilocRows_ilocCols df _ _ _ _
    rw [this]
    refine Frame.vcat_ilocRows (hwf.ilocCols _ _) (sliceBounds_ne_nil hc.rl_ne) ?_
    show Covers (sliceBounds rl) df.nrows
    rw [← hc.rl_sum]
    exact covers_lens rl
  unfold deployAxisFunc
  simp only [axisConcat, ↓reduceIte, hv, Option.bind_eq_bind, Option.bind_some, h, Option.bind_none]

theorem stackCols_one {c : Frame ι κ α} (h : c.WF) : Frame.stackCols c.index [c] = c := by
  obtain ⟨i, k, r⟩ := c
  unfold Frame.stackCols
  simp only [List.map_cons, List.map_nil, List.flatten_cons, List.flatten_nil, List.append_nil, Frame.mk.injEq, true_and]
  have := h.rows_len
  simp only at this
  have e := hrows_map r [fun x => x]
  simp only [List.map_cons, List.map_nil, List.map_id', List.flatten_cons, List.flatten_nil, List.append_nil] at e
  rw [← this, e]

theorem compare_one_band [DecidableEq ι] [DecidableEq κ] (cfg : Cfg) (hmr : 1 ≤ cfg.minRow) (same : α → α → Bool) (nan : α)
    (args : CompareArgs) {m other : MFrame ι κ α} {a b : Frame ι κ α} (hm : m.Represents a) (ho : other.Represents b) (hb : 0 < b.ncols)
    (hw : gridWidth m.parts = 1) :
    (a.compareWith same nan args b = none → m.compare cfg same nan args other = none) ∧
    ∀ c, a.compareWith same nan args b = some c → ∃ m', m.compare cfg same nan args other = some m' ∧ m'.Represents c := by
  obtain ⟨rl, cw, hcut, hparts, _, _⟩ := hm.blocks
  obtain ⟨rl2, cw2, hcut2, hparts2, _, _⟩ := ho.blocks
  rw [hparts, gridWidth_cut hcut.rl_ne] at hw
  obtain ⟨n, rfl⟩ := List.length_eq_one_iff.1 hw
  have hn : n = a.ncols := by simpa using hcut.cw_sum
  have hband : colBand [n] a 0 = a := by
    unfold colBand
    rw [hn]
    exact hm.wf.ilocCols_all
  unfold MFrame.compare
  rw [hparts, hparts2, assemble_cut ho.wf hcut2 hb, Option.bind_some, gridWidth_cut hcut.rl_ne]
  constructor
  · intro h
    rw [applyColBands_none cfg hm.wf hcut _ (e := (0, 0)) (by simp) (by simp) (by rw [hband]; exact h)]
    rfl
  · intro c h
    obtain ⟨lens, h1, h2, h3⟩ := applyColBands_cut cfg hmr hm.wf hcut (fun _ left => left.compareWith same nan args b) c.index
      (fun _ _ => c) (idx := List.range 1) (by decide) (by
        intro e he
        have : e = (0, 0) := by simpa using he
        subst this
        rw [hband]
        exact ⟨by simp, h, compareWith_wf h, rfl⟩)
    have h3' : applyColBands cfg (fun _ left => left.compareWith same nan args b) (List.range [n].length) (a.cut rl [n]) =
        some (c.cut lens [c.ncols]) := by
      rw [show [n].length = 1 from rfl, h3]
      simp only [List.range_one, List.zipIdx_cons, List.zipIdx_nil, List.map_cons, List.map_nil]
      rw [stackCols_one (compareWith_wf h)]
    rw [h3', Option.bind_some]
    exact represents_mk' ⟨compareWith_wf h, ⟨lens, [c.ncols], ⟨h1, by simp, h2, by simp⟩, rfl, Or.inl rfl, Or.inl rfl⟩, Or.inl rfl, Or.inl rfl⟩

/-- two block columns cannot both have all the columns -/
theorem compare_two_bands [DecidableEq ι] [DecidableEq κ] (cfg : Cfg) (same : α → α → Bool) (nan : α)
    (args : CompareArgs) {m other : MFrame ι κ α} {a b : Frame ι κ α} (hm : m.Represents a) (ho : other.Represents b) (hb : 0 < b.ncols)
    (hcols : b.columns = a.columns) (hw : 2 ≤ gridWidth m.parts) : m.compare cfg same nan args other = none := by
  obtain ⟨rl, cw, hcut, hparts, _, _⟩ := hm.blocks
  obtain ⟨rl2, cw2, hcut2, hparts2, _, _⟩ := ho.blocks
  rw [hparts, gridWidth_cut hcut.rl_ne] at hw
  unfold MFrame.compare
  rw [hparts, hparts2, assemble_cut ho.wf hcut2 hb, Option.bind_some, gridWidth_cut hcut.rl_ne]
  have : ∃ j, j < 2 ∧ (colBand cw a j).columns ≠ b.columns := by
    match cw, hw, hcut with
    | x :: y :: cw, _, hcut =>
      have hs := hcut.cw_sum
      simp only [List.sum_cons] at hs
      have hl : b.columns.length = a.columns.length := by rw [hcols]
      have hn : a.ncols = a.columns.length := rfl
      have hn2 : b.ncols = b.columns.length := rfl
      by_cases h0 : (colBand (x :: y :: cw) a 0).columns = b.columns
      · refine ⟨1, by omega, fun h1 => ?_⟩
        have e0 := congrArg List.length h0
        have e1 := congrArg List.length h1
        simp only [colBand, Frame.ilocCols, off, pySlice, List.length_take, List.length_drop, List.take_succ_cons, List.take_zero,
          List.sum_cons, List.sum_nil] at e0 e1
        omega
      · exact ⟨0, by omega, h0⟩
  obtain ⟨j, hj, hne⟩ := this
  rw [applyColBands_none cfg hm.wf hcut _ (e := (j, j)) (by
    rw [List.mk_mem_zipIdx_iff_getElem?, List.getElem?_range (by omega)]) (by simp only; omega) (by
    unfold Frame.compareWith
    rw [if_pos (Or.inr hne)])]
  rfl
