import Verif.Pandas.Sort

variable {α : Type}

theorem insertBy_perm (le : α → α → Bool) (x : α) (l : List α) : (insertBy le x l).Perm (x :: l) := by
  induction l with
  | nil => exact List.Perm.refl _
  | cons y ys ih =>
    unfold insertBy
    split
    · exact List.Perm.refl _
    · exact (List.Perm.cons y ih).trans (List.Perm.swap x y ys)

theorem sortBy_perm (le : α → α → Bool) (l : List α) : (sortBy le l).Perm l := by
  induction l with
  | nil => exact List.Perm.refl _
  | cons x xs ih => exact (insertBy_perm le x _).trans (ih.cons x)

theorem sortBy_length (le : α → α → Bool) (l : List α) : (sortBy le l).length = l.length :=
  (sortBy_perm le l).length_eq

theorem mem_sortBy {le : α → α → Bool} {l : List α} {x : α} : x ∈ sortBy le l ↔ x ∈ l :=
  (sortBy_perm le l).mem_iff

theorem insertBy_pairwise {le : α → α → Bool} (htr : ∀ a b c, le a b → le b c → le a c)
    (htot : ∀ a b, le a b ∨ le b a) (x : α) (l : List α) (h : l.Pairwise (le · ·)) :
    (insertBy le x l).Pairwise (le · ·) := by
  induction l with
  | nil => simp [insertBy]
  | cons y ys ih =>
    unfold insertBy
    rw [List.pairwise_cons] at h
    split
    · rename_i hxy
      refine List.Pairwise.cons ?_ (List.Pairwise.cons h.1 h.2)
      intro z hz
      rcases List.mem_cons.mp hz with rfl | hz
      · exact hxy
      · exact htr _ _ _ hxy (h.1 z hz)
    · rename_i hxy
      refine List.Pairwise.cons ?_ (ih h.2)
      intro z hz
      rcases List.mem_cons.mp ((insertBy_perm le x ys).mem_iff.mp hz) with rfl | hz
      · exact (htot z y).resolve_left hxy
      · exact h.1 z hz

theorem sortBy_pairwise {le : α → α → Bool} (htr : ∀ a b c, le a b → le b c → le a c)
    (htot : ∀ a b, le a b ∨ le b a) (l : List α) : (sortBy le l).Pairwise (le · ·) := by
  induction l with
  | nil => simp [sortBy]
  | cons x xs ih => exact insertBy_pairwise htr htot x _ ih

theorem sortBy_of_pairwise {le : α → α → Bool} (l : List α) (h : l.Pairwise (le · ·)) :
    sortBy le l = l := by
  induction l with
  | nil => rfl
  | cons x xs ih =>
    rw [List.pairwise_cons] at h
    rw [sortBy, ih h.2]
    cases xs with
    | nil => rfl
    | cons y ys => rw [insertBy, if_pos (h.1 y (by simp))]

theorem npSort_perm (l : List Nat) : (npSort l).Perm l := sortBy_perm _ l

theorem npSort_pairwise (l : List Nat) : (npSort l).Pairwise (· ≤ ·) := by
  have := sortBy_pairwise (le := fun a b : Nat => decide (a ≤ b))
    (by intro a b c h1 h2; simp only [decide_eq_true_eq] at *; omega)
    (by intro a b; simp only [decide_eq_true_eq]; omega) l
  exact this.imp (by intro a b h; simpa using h)

theorem npSort_of_pairwise {l : List Nat} (h : l.Pairwise (· ≤ ·)) : npSort l = l :=
  sortBy_of_pairwise l (h.imp (by intro a b h; simpa using h))

theorem sorted_perm_eq {l r : List Nat} (h1 : l.Pairwise (· ≤ ·)) (h2 : r.Pairwise (· ≤ ·))
    (h : l.Perm r) : l = r :=
  h.eq_of_pairwise (le := (· ≤ ·)) (by intro a b _ _ h1 h2; omega) h1 h2

theorem npArgsort_length (l : List Nat) : (npArgsort l).length = l.length := by
  simp [npArgsort, sortBy_length]

theorem npArgsort_perm (l : List Nat) : (npArgsort l).Perm (List.range l.length) := by
  have := (sortBy_perm (fun a b : Nat × Nat => decide (a.1 ≤ b.1)) l.zipIdx).map (·.2)
  refine this.trans (List.Perm.of_eq ?_)
  apply List.ext_getElem
  · simp
  · intro i h1 h2; simp
