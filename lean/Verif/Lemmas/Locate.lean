import Verif.Model.Select
import Verif.Lemmas.Represents

/-! Block location: `digitize`, `blockDict`, `blockSlices`. -/

/-- where block `i` starts -/
def off (lens : List Nat) (i : Nat) : Nat := (lens.take i).sum

theorem off_zero (lens : List Nat) : off lens 0 = 0 := by simp [off]

theorem off_succ {lens : List Nat} {i : Nat} (h : i < lens.length) :
    off lens (i + 1) = off lens i + lens[i] := by
  unfold off
  rw [List.take_succ_eq_append_getElem h, List.sum_append]
  simp

theorem off_length (lens : List Nat) : off lens lens.length = lens.sum := by simp [off]

theorem off_mono (lens : List Nat) {i j : Nat} (h : i ≤ j) : off lens i ≤ off lens j := by
  induction j with
  | zero => have : i = 0 := by omega
            subst this; exact Nat.le_refl _
  | succ j ih =>
    by_cases hij : i = j + 1
    · subst hij; exact Nat.le_refl _
    · refine Nat.le_trans (ih (by omega)) ?_
      by_cases hj : j < lens.length
      · rw [off_succ hj]; omega
      · simp only [off]
        rw [List.take_of_length_le (by omega), List.take_of_length_le (by omega)]
        exact Nat.le_refl _

theorem off_le_sum (lens : List Nat) (i : Nat) : off lens i ≤ lens.sum := by
  by_cases h : i ≤ lens.length
  · rw [← off_length]; exact off_mono lens h
  · simp only [off]; rw [List.take_of_length_le (by omega)]; exact Nat.le_refl _

theorem cumsumFrom_eq (s : Nat) (l : List Nat) :
    cumsumFrom s l = (List.range (l.length + 1)).map fun i => s + off l i := by
  induction l generalizing s with
  | nil => simp [cumsumFrom, off]
  | cons a l ih =>
    rw [cumsumFrom, ih, List.length_cons, List.range_succ_eq_map (n := l.length + 1)]
    simp only [List.map_cons, List.map_map, off_zero, Nat.add_zero, List.cons.injEq, true_and]
    congr 1
    funext i
    simp [off, Nat.add_assoc]

theorem consecutive_map_range (f : Nat → Nat) (n : Nat) :
    consecutive ((List.range (n + 1)).map f) = (List.range n).map fun i => (f i, f (i + 1)) := by
  induction n generalizing f with
  | zero => simp [consecutive]
  | succ n ih =>
    have h := ih (fun i => f (i + 1))
    rw [List.range_succ_eq_map (n := n), List.range_succ_eq_map (n := n + 1)]
    rw [List.range_succ_eq_map (n := n)] at h ⊢
    simp only [List.map_cons, List.map_map, consecutive] at h ⊢
    refine congrArg _ ?_
    exact h

theorem sliceBounds_eq (lens : List Nat) :
    sliceBounds lens = (List.range lens.length).map fun i => (off lens i, off lens (i + 1)) := by
  unfold sliceBounds
  rw [cumsumFrom_eq, consecutive_map_range]
  simp

theorem sliceBounds_getElem? {lens : List Nat} {i : Nat} (h : i < lens.length) :
    (sliceBounds lens)[i]? = some (off lens i, off lens (i + 1)) := by
  rw [sliceBounds_eq]; simp [h]

theorem innerEdges_eq (lens : List Nat) :
    innerEdges lens = (List.range (lens.length - 1)).map fun i => off lens (i + 1) := by
  unfold innerEdges
  rw [cumsumFrom_eq, List.range_succ_eq_map]
  simp only [List.map_cons, List.map_map, List.drop_succ_cons, List.drop_zero, List.length_dropLast]
  apply List.map_congr_left
  intro i hi
  simp only [List.mem_range] at hi
  simp only [Function.comp, Nat.zero_add, off]
  congr 1
  rw [List.dropLast_eq_take, List.take_take]
  congr 1
  omega

theorem innerEdges_length {lens : List Nat} (h : lens ≠ []) :
    (innerEdges lens).length + 1 = lens.length := by
  have := List.length_pos_iff.mpr h
  rw [innerEdges_eq]; simp; omega

theorem filter_range_prefix (p : Nat → Bool) (m : Nat)
    (hp : ∀ i j, i ≤ j → j < m → p j → p i) :
    ((List.range m).filter p).length ≤ m ∧
    (∀ i, i < ((List.range m).filter p).length → p i) ∧
    (∀ i, ((List.range m).filter p).length ≤ i → i < m → ¬ p i) := by
  induction m with
  | zero => simp
  | succ m ih =>
    have ih := ih (fun i j hij hj => hp i j hij (by omega))
    rw [List.range_succ, List.filter_append, List.length_append]
    by_cases hm : p m
    · have hall : ∀ i, i < m → p i := fun i hi => hp i m (by omega) (by omega) hm
      have hlen : ((List.range m).filter p).length = m := by
        rw [List.filter_eq_self.mpr (by intro a ha; exact hall a (by simpa using ha))]; simp
      simp only [List.filter_cons, hm, ↓reduceIte, List.filter_nil, List.length_cons, List.length_nil, hlen]
      refine ⟨by omega, ?_, ?_⟩
      · intro i hi
        by_cases h : i = m
        · subst h; exact hm
        · exact hall i (by omega)
      · intro i h1 h2; omega
    · have h0 : [m].filter p = [] := by simp [hm]
      rw [h0, List.length_nil, Nat.add_zero]
      refine ⟨by omega, ih.2.1, ?_⟩
      intro i h1 h2
      by_cases h : i = m
      · subst h; exact hm
      · exact ih.2.2 i h1 (by omega)

theorem digitize_spec {lens : List Nat} (hne : lens ≠ []) (x : Nat) :
    digitize (innerEdges lens) x < lens.length ∧
    off lens (digitize (innerEdges lens) x) ≤ x ∧
    (x < lens.sum → x < off lens (digitize (innerEdges lens) x + 1)) := by
  have hl := List.length_pos_iff.mpr hne
  have h := filter_range_prefix (fun i => decide (off lens (i + 1) ≤ x)) (lens.length - 1) (by
    intro i j hij _ h
    simp only [decide_eq_true_eq] at h ⊢
    exact Nat.le_trans (off_mono lens (by omega)) h)
  have e : digitize (innerEdges lens) x
      = ((List.range (lens.length - 1)).filter fun i => decide (off lens (i + 1) ≤ x)).length := by
    unfold digitize
    rw [innerEdges_eq, List.filter_map, List.length_map]
    rfl
  rw [e]
  generalize ((List.range (lens.length - 1)).filter fun i => decide (off lens (i + 1) ≤ x)).length = k
    at h
  obtain ⟨h1, h2, h3⟩ := h
  refine ⟨by omega, ?_, ?_⟩
  · cases k with
    | zero => rw [off_zero]; omega
    | succ k => simpa using h2 k (by omega)
  · intro hx
    by_cases hk : k < lens.length - 1
    · have := h3 k (Nat.le_refl _) hk
      simpa using this
    · have : k + 1 = lens.length := by omega
      rw [this, off_length]; exact hx

theorem digitize_mono {lens : List Nat} (hne : lens ≠ []) {x y : Nat} (h : x ≤ y) :
    digitize (innerEdges lens) x ≤ digitize (innerEdges lens) y := by
  unfold digitize
  rw [← List.countP_eq_length_filter, ← List.countP_eq_length_filter]
  apply List.countP_mono_left
  intro e _ he
  simp only [decide_eq_true_eq] at he ⊢
  omega

/-- the block found is determined by its interval -/
theorem digitize_unique {lens : List Nat} (hne : lens ≠ []) {x : Nat} (hx : x < lens.sum) {i : Nat}
    (h1 : off lens i ≤ x) (h2 : x < off lens (i + 1)) : digitize (innerEdges lens) x = i := by
  obtain ⟨a, b, c⟩ := digitize_spec hne x
  have c := c hx
  by_cases hlt : digitize (innerEdges lens) x < i
  · have := off_mono lens (i := digitize (innerEdges lens) x + 1) (j := i) (by omega); omega
  · by_cases hgt : i < digitize (innerEdges lens) x
    · have := off_mono lens (i := i + 1) (j := digitize (innerEdges lens) x) (by omega); omega
    · omega

theorem internalPos_eq {lens : List Nat} {i : Nat} (hi : i < lens.length) (x : Nat) :
    internalPos (innerEdges lens) i x = x - off lens i := by
  unfold internalPos
  split
  · rename_i h; subst h; rw [off_zero]; omega
  · have hlt : i - 1 < lens.length - 1 := by omega
    have he : i - 1 + 1 = i := by omega
    rw [innerEdges_eq, List.getD_eq_getElem?_getD, List.getElem?_map]
    simp [hlt, he]

/-! ### Grouping a sorted list by key -/

theorem filter_key_succ {τ : Type} (key : τ → Nat) (n : Nat) (l : List τ)
    (hs : l.Pairwise fun a b => key a ≤ key b) :
    l.filter (fun x => decide (key x < n + 1))
      = l.filter (fun x => decide (key x < n)) ++ l.filter (fun x => decide (key x = n)) := by
  induction l with
  | nil => rfl
  | cons a l ih =>
    rw [List.pairwise_cons] at hs
    have ih := ih hs.2
    by_cases h1 : key a < n
    · have h2 : key a < n + 1 := by omega
      have h3 : ¬ key a = n := by omega
      simp [List.filter_cons, h1, h2, h3, ih]
    · by_cases h3 : key a = n
      · have h2 : key a < n + 1 := by omega
        have h4 : l.filter (fun x => decide (key x < n)) = [] := by
          rw [List.filter_eq_nil_iff]
          intro b hb
          have := hs.1 b hb
          simp; omega
        rw [h4] at ih
        simp [List.filter_cons, h1, h2, h3, ih, h4]
      · have h2 : ¬ key a < n + 1 := by omega
        simp [List.filter_cons, h1, h2, h3, ih]

theorem flatten_filter_key {τ : Type} (key : τ → Nat) (l : List τ)
    (hs : l.Pairwise fun a b => key a ≤ key b) (n : Nat) :
    ((List.range n).map fun i => l.filter fun x => decide (key x = i)).flatten
      = l.filter fun x => decide (key x < n) := by
  induction n with
  | zero => simp
  | succ n ih =>
    rw [List.range_succ, List.map_append, List.flatten_append, ih, filter_key_succ key n l hs]
    simp

theorem strict_eq_range' (l : List Nat) (s : Nat) (hp : l.Pairwise (· < ·))
    (h : ∀ x ∈ l, s ≤ x ∧ x < s + l.length) : l = List.range' s l.length := by
  induction l generalizing s with
  | nil => rfl
  | cons a t ih =>
    rw [List.pairwise_cons] at hp
    have ha := h a (by simp)
    have ht := ih (s + 1) hp.2 (by
      intro x hx
      have h1 := hp.1 x hx
      have h2 := h x (by simp [hx])
      simp only [List.length_cons] at h2
      omega)
    rw [List.length_cons, List.range'_succ, ← ht]
    congr 1
    cases t with
    | nil => simp at ha; omega
    | cons b t =>
      simp only [List.length_cons, List.range'_succ, List.cons.injEq] at ht
      have := hp.1 b (by simp)
      omega

theorem strict_eq_range (l : List Nat) (hp : l.Pairwise (· < ·))
    (h : ∀ x ∈ l, x < l.length) : l = List.range l.length := by
  rw [List.range_eq_range']
  exact strict_eq_range' l 0 hp (by intro x hx; have := h x hx; omega)

/-! ### Selections -/

/-- the global positions chosen by an entry `(block, selector)` -/
def selGlobal (lens : List Nat) (e : Nat × BlockSel) : List Nat :=
  (e.2.positions (lens.getD e.1 0)).map (· + off lens e.1)

/-- an entry that stays inside its block; `kn`: the "whole block" shortcut is right for it -/
structure GoodSel (lens : List Nat) (kn : Bool) (e : Nat × BlockSel) : Prop where
  lt : e.1 < lens.length
  inside : ∀ x ∈ e.2.positions lens[e.1], x < lens[e.1]
  full : kn = true → isFullMask e.2 (some lens[e.1]) = true →
    e.2.positions lens[e.1] = List.range lens[e.1]

theorem positions_slice (n i : Nat) (j : Option Nat) :
    (BlockSel.slice i j).positions n = List.range' i (min (j.getD n) n - i) := by
  simp only [BlockSel.positions, pySlice]
  apply List.ext_getElem
  · simp; omega
  · intro k h1 h2; simp

theorem goodSel_full {lens : List Nat} {i : Nat} (h : i < lens.length) (kn : Bool) :
    GoodSel lens kn (i, .full) :=
  ⟨h, by simp [BlockSel.positions], fun _ _ => rfl⟩

theorem goodSel_slice {lens : List Nat} {e : Nat × BlockSel} {i : Nat} {j : Option Nat}
    (hlt : e.1 < lens.length) (he : e.2 = .slice i j) (kn : Bool) : GoodSel lens kn e := by
  refine ⟨hlt, ?_, ?_⟩
  · intro x hx
    rw [he, positions_slice, List.mem_range'_1] at hx
    omega
  · intro _ hf
    rw [he] at hf ⊢
    simp only [isFullMask, beq_iff_eq] at hf
    rw [positions_slice] at hf ⊢
    simp only [List.length_range'] at hf
    rw [List.range_eq_range']
    by_cases h0 : lens[e.1] = 0
    · rw [h0] at hf ⊢; rw [hf]; rfl
    · have h1 : i = 0 := by omega
      subst h1
      rw [hf]

theorem goodSel_list {lens : List Nat} {e : Nat × BlockSel} {js : List Nat}
    (hlt : e.1 < lens.length) (he : e.2 = .list js) (hin : ∀ x ∈ js, x < lens[e.1])
    (kn : Bool) (hs : kn = true → js.Pairwise (· < ·)) : GoodSel lens kn e := by
  refine ⟨hlt, ?_, ?_⟩
  · intro x hx; rw [he] at hx; exact hin x hx
  · intro hk hf
    rw [he] at hf ⊢
    simp only [isFullMask, beq_iff_eq] at hf
    simp only [BlockSel.positions]
    conv => rhs; rw [← hf]
    exact strict_eq_range js (hs hk) (by rw [hf]; exact hin)

theorem map_count_eq {τ : Type} (key : τ → Nat) (l : List τ) (i : Nat) :
    (l.map key).count i = (l.filter fun x => decide (key x = i)).length := by
  rw [List.count_eq_countP, List.countP_map, List.countP_eq_length_filter]
  congr 1

/-- entries of the counting dictionary -/
theorem blockDict_slices {lens ps : List Nat} (hne : lens ≠ []) (hs : ps.Pairwise (· ≤ ·))
    {e : (Nat × Nat) × Nat}
    (he : e ∈ (sliceBounds ((List.range ((innerEdges lens).length + 1)).map
      fun i => (ps.map (digitize (innerEdges lens))).count i)).zipIdx) :
    e.2 < lens.length ∧
    pySlice ps e.1.1 e.1.2 = ps.filter fun x => decide (digitize (innerEdges lens) x = e.2) := by
  generalize hkey : digitize (innerEdges lens) = key at he ⊢
  have hlt : ∀ x, key x < lens.length := by
    intro x; rw [← hkey]; exact (digitize_spec hne x).1
  have hks : ps.Pairwise fun a b => key a ≤ key b :=
    hs.imp (by intro a b h; rw [← hkey]; exact digitize_mono hne h)
  rw [innerEdges_length hne] at he
  have hls : (List.range lens.length).map (fun i => (ps.map key).count i)
      = ((List.range lens.length).map fun i => ps.filter fun x => decide (key x = i)).map
          List.length := by
    rw [List.map_map]
    apply List.map_congr_left
    intro i _
    exact map_count_eq key ps i
  have hflat : ((List.range lens.length).map fun i => ps.filter fun x => decide (key x = i)).flatten
      = ps := by
    rw [flatten_filter_key key ps hks]
    exact List.filter_eq_self.mpr (by intro a _; simpa using hlt a)
  rw [List.mem_zipIdx_iff_getElem?] at he
  have hi : e.2 < (sliceBounds ((List.range lens.length).map fun i => (ps.map key).count i)).length := by
    rw [List.getElem?_eq_some_iff] at he; exact he.1
  have hi' : e.2 < lens.length := by
    rw [sliceBounds_length] at hi; simpa using hi
  refine ⟨hi', ?_⟩
  have := sliceBounds_flatten_self_get
    ((List.range lens.length).map fun i => ps.filter fun x => decide (key x = i))
    _ hls.symm e.2 hi (by simpa using hi')
  rw [hflat] at this
  rw [List.getElem?_eq_some_iff] at he
  obtain ⟨h1, h2⟩ := he
  rw [h2] at this
  rw [this]
  simp

theorem filterMap_flatten_eq {A B : Type} (l : List A) (f : A → Option B) (g : B → List Nat)
    (h : A → List Nat) (heq : ∀ a ∈ l, (f a).elim [] g = h a) :
    ((l.filterMap f).map g).flatten = (l.map h).flatten := by
  induction l with
  | nil => rfl
  | cons a l ih =>
    have ha := heq a (by simp)
    have ih := ih (fun x hx => heq x (by simp [hx]))
    rw [List.filterMap_cons]
    cases hf : f a with
    | none =>
      rw [hf] at ha
      simp only [Option.elim_none] at ha
      simp only [List.map_cons, List.flatten_cons, ← ha, List.nil_append]
      exact ih
    | some b =>
      rw [hf] at ha
      simp only [Option.elim_some] at ha
      simp only [List.map_cons, List.flatten_cons, ha, ih]

theorem pairwise_filterMap_zipIdx {A B : Type} (l : List A) (f : A × Nat → Option (Nat × B))
    (hf : ∀ e r, f e = some r → r.1 = e.2) :
    (l.zipIdx.filterMap f).Pairwise (fun a b => a.1 < b.1) := by
  rw [List.pairwise_filterMap]
  have : l.zipIdx.Pairwise (fun a b => a.2 < b.2) := by
    rw [List.pairwise_iff_getElem]
    intro i j hi hj hij
    simp
    exact hij
  exact this.imp (by
    intro a b hab r hr r' hr'
    rw [hf a r (by simpa using hr), hf b r' (by simpa using hr')]
    exact hab)

theorem blockDict_globals {lens ps : List Nat} (hne : lens ≠ []) (hs : ps.Pairwise (· ≤ ·)) :
    ((blockDict lens ps).map (selGlobal lens)).flatten = ps := by
  unfold blockDict
  split
  · rename_i h
    have : ps = [] := by simpa using h
    subst this
    simp [selGlobal, BlockSel.positions]
  · rw [filterMap_flatten_eq (h := fun e => pySlice ps e.1.1 e.1.2)]
    · have : ∀ l : List (Nat × Nat), l.zipIdx.map (fun e => pySlice ps e.1.1 e.1.2)
          = l.map fun p => pySlice ps p.1 p.2 := by
        intro l
        have h1 : l.zipIdx.map (fun e => pySlice ps e.1.1 e.1.2)
            = (l.zipIdx.map Prod.fst).map fun p => pySlice ps p.1 p.2 := by
          rw [List.map_map]; rfl
        rw [h1]; simp
      rw [this, sliceBounds_flatten]
      have hsum : ((List.range ((innerEdges lens).length + 1)).map
          fun i => (ps.map (digitize (innerEdges lens))).count i).sum = ps.length := by
        have h2 : ps = ((List.range lens.length).map fun i =>
            ps.filter fun x => decide (digitize (innerEdges lens) x = i)).flatten := by
          rw [flatten_filter_key _ ps (hs.imp (fun h => digitize_mono hne h))]
          exact (List.filter_eq_self.mpr (by
            intro a _; simpa using (digitize_spec hne a).1)).symm
        conv => rhs; rw [h2]
        rw [List.length_flatten, List.map_map, innerEdges_length hne]
        congr 1
        apply List.map_congr_left
        intro i _
        exact map_count_eq _ ps i
      rw [hsum]; exact List.take_length
    · intro e he
      obtain ⟨h1, h2⟩ := blockDict_slices hne hs he
      split
      · simp only [Option.elim_some, selGlobal, BlockSel.positions, List.map_map]
        rw [h2]
        conv => rhs; rw [← List.map_id (ps.filter _)]
        apply List.map_congr_left
        intro x hx
        simp only [List.mem_filter, decide_eq_true_eq] at hx
        simp only [Function.comp, id]
        rw [internalPos_eq h1]
        have := (digitize_spec hne x).2.1
        rw [hx.2] at this
        omega
      · rename_i hlt
        simp only [Option.elim_none]
        simp only [pySlice]
        have : e.1.2 - e.1.1 = 0 := by omega
        simp [this]

theorem blockDict_good {lens ps : List Nat} (hne : lens ≠ []) (hs : ps.Pairwise (· ≤ ·))
    (hin : ∀ x ∈ ps, x < lens.sum) (kn : Bool) (hk : kn = true → ps.Pairwise (· < ·)) :
    ∀ e ∈ blockDict lens ps, GoodSel lens kn e := by
  have hl := List.length_pos_iff.mpr hne
  intro e he
  unfold blockDict at he
  split at he
  · simp only [List.mem_singleton] at he
    subst he
    exact goodSel_list (js := []) hl rfl (by simp) kn (by simp)
  · simp only [List.mem_filterMap] at he
    obtain ⟨a, ha, h⟩ := he
    split at h
    · obtain ⟨h1, h2⟩ := blockDict_slices hne hs ha
      cases h
      refine goodSel_list h1 rfl ?_ kn ?_
      · intro y hy
        simp only [List.mem_map] at hy
        obtain ⟨x, hx, rfl⟩ := hy
        rw [h2, List.mem_filter, decide_eq_true_eq] at hx
        obtain ⟨hxm, hxd⟩ := hx
        rw [internalPos_eq h1]
        have := (digitize_spec hne x).2.2 (hin x hxm)
        have h3 := (digitize_spec hne x).2.1
        rw [hxd] at this h3
        rw [off_succ h1] at this
        simp only
        omega
      · intro hkn
        rw [h2, List.pairwise_map]
        have hp := (hk hkn).filter (fun x => decide (digitize (innerEdges lens) x = a.2))
        refine hp.imp_of_mem ?_
        intro x y hx hy hxy
        simp only [List.mem_filter, decide_eq_true_eq] at hx hy
        have := (digitize_spec hne x).2.1
        rw [hx.2] at this
        rw [internalPos_eq h1, internalPos_eq h1]
        omega
    · cases h

theorem blockDict_ordered (lens ps : List Nat) :
    (blockDict lens ps).Pairwise (fun a b => a.1 < b.1) := by
  unfold blockDict
  split
  · simp
  · exact pairwise_filterMap_zipIdx _ _ (by
      intro e r h
      split at h
      · cases h; rfl
      · cases h)

/-- Looking up one position. -/
theorem blockOf_eq {lens : List Nat} (hne : lens ≠ []) (x : Nat) :
    blockOf lens x = some (digitize (innerEdges lens) x,
      x - off lens (digitize (innerEdges lens) x)) := by
  obtain ⟨hlt, hle, _⟩ := digitize_spec hne x
  have hg := blockDict_globals (lens := lens) (ps := [x]) hne (by simp)
  unfold blockOf
  unfold blockDict at hg ⊢
  simp only [List.isEmpty_cons, Bool.false_eq_true, ↓reduceIte] at hg ⊢
  generalize hL : (List.filterMap _ _ : List (Nat × BlockSel)) = L at hg ⊢
  have hmem : ∀ e ∈ L, e = (digitize (innerEdges lens) x,
      BlockSel.list [x - off lens (digitize (innerEdges lens) x)]) ∨
      e.2 = .list [] := by
    intro e he
    rw [← hL, List.mem_filterMap] at he
    obtain ⟨a, ha, h⟩ := he
    split at h
    · obtain ⟨h1, h2⟩ := blockDict_slices (ps := [x]) hne (by simp) ha
      cases h
      by_cases hd : digitize (innerEdges lens) x = a.2
      · left
        rw [h2]
        simp [hd, internalPos_eq h1]
      · right
        rw [h2]
        simp [hd]
    · cases h
  have hmem2 : ∀ e ∈ L, e.2 ≠ .list [] := by
    intro e he
    rw [← hL, List.mem_filterMap] at he
    obtain ⟨a, ha, h⟩ := he
    split at h
    · rename_i hlt2
      obtain ⟨h1, h2⟩ := blockDict_slices (ps := [x]) hne (by simp) ha
      cases h
      simp only [ne_eq, BlockSel.list.injEq, List.map_eq_nil_iff]
      intro h0
      -- an empty slice of a one-element list with a < b starts past the end
      have hcount := sliceBounds_flatten [x] ((List.range ((innerEdges lens).length + 1)).map
        fun i => ([x].map (digitize (innerEdges lens))).count i)
      rw [List.mem_zipIdx_iff_getElem?, List.getElem?_eq_some_iff] at ha
      obtain ⟨hi, hv⟩ := ha
      have hb := sliceBounds_eq ((List.range ((innerEdges lens).length + 1)).map
        fun i => ([x].map (digitize (innerEdges lens))).count i)
      have hs2 : a.1.2 ≤ 1 := by
        rw [← hv]
        simp only [hb, List.getElem_map]
        refine Nat.le_trans (off_le_sum _ _) ?_
        have : ((List.range ((innerEdges lens).length + 1)).map
            fun i => ([x].map (digitize (innerEdges lens))).count i).sum ≤ 1 := by
          have h3 : ∀ n, ((List.range n).map fun i =>
              ([x].map (digitize (innerEdges lens))).count i).sum
              = (([x].filter fun y => decide (digitize (innerEdges lens) y < n))).length := by
            intro n
            rw [← flatten_filter_key (digitize (innerEdges lens)) [x] (by simp) n,
              List.length_flatten, List.map_map]
            congr 1
            apply List.map_congr_left
            intro i _
            exact map_count_eq _ [x] i
          rw [h3]
          exact List.length_filter_le _ _
        exact this
      have : a.1.1 = 0 ∧ a.1.2 = 1 := by omega
      rw [this.1, this.2] at h0
      simp [pySlice] at h0
    · cases h
  cases L with
  | nil => simp at hg
  | cons e L =>
    rcases hmem e (by simp) with h | h
    · rw [h]
    · exact absurd h (hmem2 e (by simp))

/-! ### the slice fast path -/

theorem selGlobal_full {lens : List Nat} {i : Nat} (h : i < lens.length) :
    selGlobal lens (i, .full) = List.range' (off lens i) (off lens (i + 1) - off lens i) := by
  rw [off_succ h]
  simp only [selGlobal, BlockSel.positions, List.getD_eq_getElem?_getD, List.getElem?_eq_getElem h,
    Option.getD_some]
  apply List.ext_getElem
  · simp
  · intro k h1 h2; simp; omega

theorem selGlobal_slice {lens : List Nat} {i a : Nat} {j : Option Nat} (h : i < lens.length) :
    selGlobal lens (i, .slice a j)
      = List.range' (off lens i + a) (min (j.getD lens[i]) lens[i] - a) := by
  simp only [selGlobal, List.getD_eq_getElem?_getD, List.getElem?_eq_getElem h,
    Option.getD_some, positions_slice]
  apply List.ext_getElem
  · simp
  · intro k h1 h2; simp; omega

theorem fullRun {lens : List Nat} (a k : Nat) (h : a + k ≤ lens.length) :
    (((List.range' a k).map fun i => (i, BlockSel.full)).map (selGlobal lens)).flatten
      = List.range' (off lens a) (off lens (a + k) - off lens a) := by
  induction k generalizing a with
  | zero => simp
  | succ k ih =>
    rw [List.range'_succ, List.map_cons, List.map_cons, List.flatten_cons, ih (a + 1) (by omega),
      selGlobal_full (by omega)]
    have h1 := off_mono lens (i := a) (j := a + 1) (by omega)
    have h2 := off_mono lens (i := a + 1) (j := a + 1 + k) (by omega)
    have e : off lens (a + 1) = off lens a + (off lens (a + 1) - off lens a) := by omega
    have e2 : a + (k + 1) = a + 1 + k := by omega
    rw [e2]
    conv => lhs; arg 2; rw [e]
    rw [List.range'_append_1]
    congr 1
    omega

theorem blockSlices_spec {lens : List Nat} (hne : lens ≠ []) {start stop : Nat}
    (h1 : start < stop) (h2 : stop ≤ lens.sum) (kn : Bool) :
    ∃ d, blockSlices lens lens.sum lens.length start stop = some d ∧ d ≠ [] ∧
      (d.map (selGlobal lens)).flatten = List.range' start (stop - start) ∧
      (∀ e ∈ d, GoodSel lens kn e) ∧ d.Pairwise (fun a b => a.1 < b.1) := by
  have hl := List.length_pos_iff.mpr hne
  have hpw : ∀ a k, ((List.range' a k).map fun i => (i, BlockSel.full)).Pairwise
      (fun a b => a.1 < b.1) := by
    intro a k
    rw [List.pairwise_map]
    exact List.pairwise_lt_range'
  unfold blockSlices
  by_cases hfull : start = 0 ∧ lens.sum ≤ stop
  · obtain ⟨rfl, h3⟩ := hfull
    simp only [ge_iff_le, h3, decide_true, Bool.and_true, ↓reduceIte]
    refine ⟨_, rfl, ?_, ?_, ?_, ?_⟩
    · intro h
      have := congrArg List.length h
      rw [List.length_map, List.length_range, List.length_nil] at this
      omega
    · have hs : stop = lens.sum := by omega
      rw [List.range_eq_range', fullRun 0 lens.length (by omega), off_zero, Nat.zero_add,
        off_length, hs]
    · intro e he
      simp only [List.mem_map, List.mem_range] at he
      obtain ⟨i, hi, rfl⟩ := he
      exact goodSel_full hi kn
    · rw [List.range_eq_range']; exact hpw _ _
  · have hc : (decide (start = 0) && decide (stop ≥ lens.sum)) = false := by
      simp only [Bool.and_eq_false_iff, decide_eq_false_iff_not]; omega
    have hne2 : ¬ start = stop := by omega
    rw [hc]
    simp only [Bool.false_eq_true, ↓reduceIte, hne2]
    rw [blockOf_eq hne, blockOf_eq hne]
    obtain ⟨l1, l2, l3⟩ := digitize_spec hne stop
    obtain ⟨f1, f2, f3⟩ := digitize_spec hne start
    have f3 := f3 (by omega)
    have hmono := digitize_mono hne (Nat.le_of_lt h1)
    generalize digitize (innerEdges lens) stop = l at l1 l2 l3 hmono
    generalize digitize (innerEdges lens) start = f at f1 f2 f3 hmono
    have el := off_succ l1
    have ef := off_succ f1
    by_cases h0 : start = 0
    · subst h0
      simp only [↓reduceIte, Option.bind_eq_bind, Option.bind_some, Option.pure_def,
        Option.some.injEq, exists_eq_left']
      have l3 := l3 (by omega)
      refine ⟨by simp, ?_, ?_, ?_⟩
      · rw [List.map_append, List.flatten_append, List.range_eq_range', fullRun 0 l (by omega),
          off_zero, Nat.zero_add]
        simp only [List.map_cons, List.map_nil, List.flatten_cons, List.flatten_nil,
          List.append_nil, selGlobal_slice l1, Option.getD_some, Nat.sub_zero, Nat.add_zero]
        have : off lens l = 0 + off lens l := by omega
        conv => lhs; arg 2; rw [this]
        rw [List.range'_append_1]
        congr 1
        omega
      · intro e he
        simp only [List.mem_append, List.mem_map, List.mem_range, List.mem_singleton] at he
        rcases he with ⟨i, hi, rfl⟩ | rfl
        · exact goodSel_full (by omega) kn
        · exact goodSel_slice l1 rfl kn
      · rw [List.pairwise_append]
        refine ⟨by rw [List.range_eq_range']; exact hpw _ _, by simp, ?_⟩
        intro a ha b hb
        simp only [List.mem_map, List.mem_range] at ha
        obtain ⟨i, hi, rfl⟩ := ha
        simp only [List.mem_singleton] at hb
        subst hb
        exact hi
    · simp only [h0, ↓reduceIte]
      by_cases h3 : lens.sum ≤ stop
      · have hs : stop = lens.sum := by omega
        simp only [ge_iff_le, h3, ↓reduceIte, Option.bind_eq_bind, Option.bind_some,
          Option.pure_def, Option.some.injEq, exists_eq_left']
        refine ⟨by simp, ?_, ?_, ?_⟩
        · rw [List.map_cons, List.flatten_cons, fullRun (f + 1) _ (by omega), selGlobal_slice f1]
          have e1 : f + 1 + (lens.length - (f + 1)) = lens.length := by omega
          rw [e1, off_length]
          simp only [Option.getD_none, Nat.min_self]
          have hm := off_le_sum lens (f + 1)
          have e2 : off lens f + (start - off lens f) = start := by omega
          have e3 : off lens (f + 1) = start + (lens[f] - (start - off lens f)) := by omega
          rw [e2]
          conv => lhs; arg 2; rw [e3]
          rw [List.range'_append_1]
          congr 1
          omega
        · intro e he
          simp only [List.mem_cons, List.mem_map, List.mem_range'_1] at he
          rcases he with rfl | ⟨i, hi, rfl⟩
          · exact goodSel_slice f1 rfl kn
          · exact goodSel_full (by omega) kn
        · rw [List.pairwise_cons]
          refine ⟨?_, hpw _ _⟩
          intro b hb
          simp only [List.mem_map, List.mem_range'_1] at hb
          obtain ⟨i, hi, rfl⟩ := hb
          simp only; omega
      · have l3 := l3 (by omega)
        simp only [ge_iff_le, h3, ↓reduceIte, Option.bind_eq_bind, Option.bind_some,
          Option.pure_def]
        by_cases hfl : f = l
        · subst hfl
          simp only [↓reduceIte, Option.some.injEq, exists_eq_left']
          refine ⟨by simp, ?_, ?_, by simp⟩
          · simp only [List.map_cons, List.map_nil, List.flatten_cons, List.flatten_nil,
              List.append_nil, selGlobal_slice f1, Option.getD_some]
            congr 1 <;> omega
          · intro e he
            simp only [List.mem_singleton] at he
            subst he
            exact goodSel_slice f1 rfl kn
        · simp only [hfl, ↓reduceIte, Option.some.injEq, exists_eq_left']
          have hlt : f < l := by omega
          have hm := off_mono lens (i := f + 1) (j := l) (by omega)
          refine ⟨by simp, ?_, ?_, ?_⟩
          · rw [List.map_append, List.flatten_append, List.map_cons, List.flatten_cons,
              fullRun (f + 1) _ (by omega), selGlobal_slice f1]
            simp only [List.map_cons, List.map_nil, List.flatten_cons, List.flatten_nil,
              List.append_nil, selGlobal_slice l1, Option.getD_some, Option.getD_none,
              Nat.min_self, Nat.add_zero, Nat.sub_zero]
            have e1 : f + 1 + (l - (f + 1)) = l := by omega
            rw [e1]
            have e2 : off lens f + (start - off lens f) = start := by omega
            have e3 : off lens (f + 1) = start + (lens[f] - (start - off lens f)) := by omega
            rw [e2]
            have e4 : List.range' start (lens[f] - (start - off lens f))
                ++ List.range' (off lens (f + 1)) (off lens l - off lens (f + 1))
                = List.range' start (off lens l - start) := by
              conv => lhs; arg 2; arg 1; rw [e3]
              rw [List.range'_append_1]
              congr 1
              omega
            rw [e4]
            have e5 : off lens l = start + (off lens l - start) := by omega
            conv => lhs; arg 2; arg 1; rw [e5]
            rw [List.range'_append_1]
            congr 1
            omega
          · intro e he
            simp only [List.cons_append, List.mem_cons, List.mem_append, List.mem_map, List.mem_range'_1,
              List.not_mem_nil, or_false] at he
            rcases he with rfl | ⟨i, hi, rfl⟩ | rfl
            · exact goodSel_slice f1 rfl kn
            · exact goodSel_full (by omega) kn
            · exact goodSel_slice l1 rfl kn
          · rw [List.pairwise_append]
            refine ⟨?_, by simp, ?_⟩
            · rw [List.pairwise_cons]
              refine ⟨?_, hpw _ _⟩
              intro b hb
              simp only [List.mem_map, List.mem_range'_1] at hb
              obtain ⟨i, hi, rfl⟩ := hb
              simp only; omega
            · intro a ha b hb
              simp only [List.mem_singleton] at hb
              subst hb
              simp only [List.mem_cons, List.mem_map, List.mem_range'_1] at ha
              rcases ha with rfl | ⟨i, hi, rfl⟩
              · exact hlt
              · simp only; omega
