import Verif.Model.Share
/-
Lemmas on objects that share a query compiler.
-/

variable {C : Type}

theorem fset_same {A : Type} (f : Nat → A) (i : Nat) (v : A) : fset f i v i = v := by simp [fset]

theorem fset_other {A : Type} (f : Nat → A) {i j : Nat} (v : A) (h : j ≠ i) : fset f i v j = f j := by simp [fset, h]

theorem foldl_fset_const {A : Type} (l : List Nat) (g : Nat → A) (v : A) (x : Nat) :
    l.foldl (fun qc sib => fset qc sib v) g x = if x ∈ l then v else g x := by
  induction l generalizing g with
  | nil => simp
  | cons a l ih =>
    simp only [List.foldl_cons, ih, List.mem_cons]
    by_cases hx : x ∈ l
    · simp [hx]
    · by_cases ha : x = a
      · simp [ha, fset]
      · simp [hx, ha, fset]

theorem ShareHeap.updateInplace_qc (h : ShareHeap C) (o : Nat) (c : C) (x : Nat) :
    (h.updateInplace o c).qc x = if x = o ∨ x ∈ h.sibs o then h.nq else h.qc x := by
  simp only [updateInplace, foldl_fset_const]
  by_cases hx : x ∈ h.sibs o
  · simp [hx]
  · by_cases ho : x = o
    · simp [ho, fset]
    · simp [hx, ho, fset]

theorem foldl_addSib (n : Nat) (l : List Nat) (h : ShareHeap C) :
    (l.foldl (ShareHeap.addSib n) h).n = h.n ∧ (l.foldl (ShareHeap.addSib n) h).qc = h.qc ∧
    (l.foldl (ShareHeap.addSib n) h).parent = h.parent ∧ (l.foldl (ShareHeap.addSib n) h).nq = h.nq ∧
    (l.foldl (ShareHeap.addSib n) h).val = h.val ∧
    ∀ o x, x ∈ (l.foldl (ShareHeap.addSib n) h).sibs o ↔ x ∈ h.sibs o ∨ (o ∈ l ∧ x = n) := by
  induction l generalizing h with
  | nil => simp
  | cons a l ih =>
    simp only [List.foldl_cons]
    obtain ⟨h1, h2, h3, h4, h5, h6⟩ := ih (h.addSib n a)
    refine ⟨h1, h2, h3, h4, h5, fun o x => ?_⟩
    rw [h6]
    by_cases ho : o = a
    · subst ho
      simp only [ShareHeap.addSib, fset_same, List.mem_append, List.mem_singleton, List.mem_cons, true_or, true_and]
      constructor
      · rintro ((h | h) | h) <;> simp_all
      · rintro (h | h) <;> simp_all
    · simp [ShareHeap.addSib, fset, ho]

theorem ShareHeap.addSibling_fields (h : ShareHeap C) (self n : Nat) :
    (h.addSibling self n).n = h.n ∧ (h.addSibling self n).qc = h.qc ∧ (h.addSibling self n).parent = h.parent ∧
    (h.addSibling self n).nq = h.nq ∧ (h.addSibling self n).val = h.val := by
  obtain ⟨h1, h2, h3, h4, h5, -⟩ := foldl_addSib n
    ((({ h with sibs := fset h.sibs n (h.sibs self ++ [self]) } : ShareHeap C).addSib n self).sibs self ++
      List.replicate (((({ h with sibs := fset h.sibs n (h.sibs self ++ [self]) } : ShareHeap C).addSib n self).sibs self).count self) n)
    (({ h with sibs := fset h.sibs n (h.sibs self ++ [self]) } : ShareHeap C).addSib n self)
  exact ⟨h1, h2, h3, h4, h5⟩

theorem ShareHeap.addSibling_mem (h : ShareHeap C) {self n : Nat} (hn : self ≠ n) (o x : Nat) :
    x ∈ (h.addSibling self n).sibs o ↔
      (o = n ∧ (x ∈ h.sibs self ∨ x = self ∨ x = n)) ∨ (o ≠ n ∧ (x ∈ h.sibs o ∨ ((o = self ∨ o ∈ h.sibs self) ∧ x = n))) := by
  have hn' : n ≠ self := fun e => hn e.symm
  simp only [addSibling]
  rw [(foldl_addSib n _ _).2.2.2.2.2]
  simp only [addSib, fset_same, List.mem_append, List.mem_replicate, List.mem_singleton]
  by_cases ho : o = n
  · subst ho
    rw [fset_other _ _ hn', fset_same, fset_other _ _ hn]
    simp only [List.mem_append, List.mem_singleton]
    constructor
    · rintro ((h1 | h1) | ⟨-, h1⟩)
      · exact Or.inl ⟨trivial, Or.inl h1⟩
      · exact Or.inl ⟨trivial, Or.inr (Or.inl h1)⟩
      · exact Or.inl ⟨trivial, Or.inr (Or.inr h1)⟩
    · rintro (⟨-, h1 | h1 | h1⟩ | ⟨h1, -⟩)
      · exact Or.inl (Or.inl h1)
      · exact Or.inl (Or.inr h1)
      · exact Or.inr ⟨Or.inl (Or.inr trivial), h1⟩
      · exact absurd rfl h1
  · by_cases hs : o = self
    · subst hs
      simp only [fset, if_neg ho, if_true, List.mem_append, List.mem_singleton]
      simp only [ho, false_and, false_or, or_false, and_false, ne_eq, not_false_eq_true, true_and, true_or]
      constructor
      · rintro ((h1 | h1) | ⟨-, h1⟩)
        · exact Or.inl h1
        · exact Or.inr h1
        · exact Or.inr h1
      · rintro (h1 | h1)
        · exact Or.inl (Or.inl h1)
        · exact Or.inl (Or.inr h1)
    · simp [fset, ho, hs, hn]

/-- what the heap and the cells have to do with one another in every program -/
structure ShareHeap.Linked (h : ShareHeap C) (a : SharedCells C) : Prop where
  n : h.n = a.n
  parent : h.parent = a.parent
  parentLt : ∀ o p, h.parent o = some p → p < h.n ∧ a.cell p ≠ a.cell o
  cellLt : ∀ o, o < h.n → a.cell o < a.cells
  qcLt : ∀ o, o < h.n → h.qc o < h.nq
  noParent : ∀ o, h.n ≤ o → h.parent o = none
  sibs : ∀ o, o < h.n → ∀ x, x ∈ h.sibs o → x < h.n ∧ a.cell x = a.cell o
  cells : ∀ o, o < h.n → ∀ x, x < h.n → a.cell x = a.cell o → x = o ∨ x ∈ h.sibs o

/-- one query compiler for each cell -/
def ShareHeap.Strict (h : ShareHeap C) (a : SharedCells C) : Prop :=
  ∀ x y, x < h.n → y < h.n → (h.qc x = h.qc y ↔ a.cell x = a.cell y)

/-- each object shows what its cell holds -/
def ShareHeap.Agrees (h : ShareHeap C) (a : SharedCells C) : Prop := ∀ o, o < h.n → h.shows o = a.shows o

theorem ShareHeap.Linked.update_qc {h : ShareHeap C} {a : SharedCells C} (l : h.Linked a) {o : Nat} (ho : o < h.n) (c : C) {x : Nat} (hx : x < h.n) :
    (h.updateInplace o c).qc x = if a.cell x = a.cell o then h.nq else h.qc x := by
  rw [ShareHeap.updateInplace_qc]
  by_cases e : a.cell x = a.cell o
  · rw [if_pos e, if_pos (l.cells o ho x hx e)]
  · rw [if_neg e, if_neg]
    rintro (rfl | e')
    · exact e rfl
    · exact e (l.sibs o ho x e').2

theorem ShareHeap.Linked.update_shows {h : ShareHeap C} {a : SharedCells C} (l : h.Linked a) {o : Nat} (ho : o < h.n) (c : C) {x : Nat} (hx : x < h.n) :
    (h.updateInplace o c).shows x = if a.cell x = a.cell o then c else h.shows x := by
  unfold ShareHeap.shows
  rw [l.update_qc ho c hx]
  by_cases e : a.cell x = a.cell o
  · rw [if_pos e, if_pos e]; simp [ShareHeap.updateInplace, ShareHeap.alloc, fset]
  · have := l.qcLt x hx
    rw [if_neg e, if_neg e]
    simp [ShareHeap.updateInplace, ShareHeap.alloc, fset, show h.qc x ≠ h.nq by omega]

theorem ShareHeap.Linked.update {h : ShareHeap C} {a : SharedCells C} (l : h.Linked a) {o : Nat} (ho : o < h.n) (c d : C) :
    (h.updateInplace o c).Linked (a.write o d) where
  n := l.n
  parent := l.parent
  parentLt := l.parentLt
  cellLt := l.cellLt
  qcLt := fun x hx => by
    rw [l.update_qc ho c hx]
    show _ < h.nq + 1
    have := l.qcLt x hx
    split <;> omega
  noParent := l.noParent
  sibs := l.sibs
  cells := l.cells

theorem ShareHeap.Linked.update_strict {h : ShareHeap C} {a : SharedCells C} (l : h.Linked a) (s : h.Strict a) {o : Nat} (ho : o < h.n) (c d : C) :
    (h.updateInplace o c).Strict (a.write o d) := by
  intro x y hx hy
  rw [l.update_qc ho c hx, l.update_qc ho c hy]
  have h1 := l.qcLt x hx
  have h2 := l.qcLt y hy
  show _ ↔ a.cell x = a.cell y
  have h3 := s x y hx hy
  by_cases e1 : a.cell x = a.cell o <;> by_cases e2 : a.cell y = a.cell o
  · simp [e1, e2]
  · rw [if_pos e1, if_neg e2, e1]
    exact ⟨fun e => by omega, fun e => absurd e.symm e2⟩
  · rw [if_neg e1, if_pos e2, e2]
    exact ⟨fun e => by omega, fun e => absurd e e1⟩
  · rw [if_neg e1, if_neg e2]; exact h3

theorem ShareHeap.Linked.update_agrees {h : ShareHeap C} {a : SharedCells C} (l : h.Linked a) (g : h.Agrees a) {o : Nat} (ho : o < h.n) (c : C) :
    (h.updateInplace o c).Agrees (a.write o c) := by
  intro x hx
  rw [l.update_shows ho c hx]
  show _ = fset a.val (a.cell o) c (a.cell x)
  by_cases e : a.cell x = a.cell o
  · rw [if_pos e, e, fset_same]
  · rw [if_neg e, fset_other _ _ e]; exact g x hx

theorem ShareHeap.Linked.fresh {h : ShareHeap C} {a : SharedCells C} (l : h.Linked a) (c d : C) {p : Option Nat} (hp : ∀ q, p = some q → q < h.n) :
    ((h.alloc c).push h.nq p).Linked (a.fresh d p) where
  n := congrArg (· + 1) l.n
  parent := by
    show fset h.parent h.n p = fset a.parent a.n p
    rw [l.parent, l.n]
  parentLt := by
    intro o q hq
    have hq : fset h.parent h.n p o = some q := hq
    show q < h.n + 1 ∧ fset a.cell a.n a.cells q ≠ fset a.cell a.n a.cells o
    rw [← l.n]
    by_cases e : o = h.n
    · subst e
      rw [fset_same] at hq
      have h1 := hp q hq
      have h2 := l.cellLt q h1
      rw [fset_same, fset_other _ _ (by omega)]
      exact ⟨by omega, by omega⟩
    · rw [fset_other _ _ e] at hq
      have h1 := l.parentLt o q hq
      rw [fset_other _ _ e, fset_other _ _ (by omega)]
      exact ⟨by omega, h1.2⟩
  cellLt := by
    intro o ho
    have ho : o < h.n + 1 := ho
    show fset a.cell a.n a.cells o < a.cells + 1
    rw [← l.n]
    by_cases e : o = h.n
    · subst e; rw [fset_same]; omega
    · rw [fset_other _ _ e]; have := l.cellLt o (by omega); omega
  qcLt := by
    intro o ho
    have ho : o < h.n + 1 := ho
    show fset h.qc h.n h.nq o < h.nq + 1
    by_cases e : o = h.n
    · subst e; rw [fset_same]; omega
    · rw [fset_other _ _ e]; have := l.qcLt o (by omega); omega
  noParent := by
    intro o ho
    have ho : h.n + 1 ≤ o := ho
    show fset h.parent h.n p o = none
    rw [fset_other _ _ (by omega)]; exact l.noParent o (by omega)
  sibs := by
    intro o ho x hx
    have ho : o < h.n + 1 := ho
    have hx : x ∈ fset h.sibs h.n [] o := hx
    show x < h.n + 1 ∧ fset a.cell a.n a.cells x = fset a.cell a.n a.cells o
    rw [← l.n]
    by_cases e : o = h.n
    · subst e; rw [fset_same] at hx; simp at hx
    · rw [fset_other _ _ e] at hx
      have := l.sibs o (by omega) x hx
      rw [fset_other _ _ e, fset_other _ _ (by omega)]
      exact ⟨by omega, this.2⟩
  cells := by
    intro o ho x hx
    have ho : o < h.n + 1 := ho
    have hx : x < h.n + 1 := hx
    show fset a.cell a.n a.cells x = fset a.cell a.n a.cells o → x = o ∨ x ∈ fset h.sibs h.n [] o
    rw [← l.n]
    by_cases e : o = h.n
    · subst e
      by_cases e2 : x = h.n
      · exact fun _ => Or.inl e2
      · rw [fset_same, fset_other _ _ e2]
        have := l.cellLt x (by omega)
        omega
    · rw [fset_other _ _ e, fset_other _ _ e]
      by_cases e2 : x = h.n
      · subst e2
        rw [fset_same]
        have := l.cellLt o (by omega)
        omega
      · rw [fset_other _ _ e2]
        exact l.cells o (by omega) x (by omega)

theorem ShareHeap.Linked.fresh_strict {h : ShareHeap C} {a : SharedCells C} (l : h.Linked a) (s : h.Strict a) (c d : C) (p : Option Nat) :
    ((h.alloc c).push h.nq p).Strict (a.fresh d p) := by
  intro x y hx hy
  have hx : x < h.n + 1 := hx
  have hy : y < h.n + 1 := hy
  show fset h.qc h.n h.nq x = fset h.qc h.n h.nq y ↔ fset a.cell a.n a.cells x = fset a.cell a.n a.cells y
  rw [← l.n]
  by_cases e1 : x = h.n <;> by_cases e2 : y = h.n
  · subst e1; subst e2; simp
  · subst e1
    rw [fset_same, fset_same, fset_other _ _ e2, fset_other _ _ e2]
    have := l.cellLt y (by omega)
    have := l.qcLt y (by omega)
    omega
  · subst e2
    rw [fset_same, fset_same, fset_other _ _ e1, fset_other _ _ e1]
    have := l.cellLt x (by omega)
    have := l.qcLt x (by omega)
    omega
  · rw [fset_other _ _ e1, fset_other _ _ e1, fset_other _ _ e2, fset_other _ _ e2]
    exact s x y (by omega) (by omega)

theorem ShareHeap.Linked.fresh_agrees {h : ShareHeap C} {a : SharedCells C} (l : h.Linked a) (g : h.Agrees a) (c : C) (p : Option Nat) :
    ((h.alloc c).push h.nq p).Agrees (a.fresh c p) := by
  intro x hx
  have hx : x < h.n + 1 := hx
  show fset h.val h.nq c (fset h.qc h.n h.nq x) = fset a.val a.cells c (fset a.cell a.n a.cells x)
  rw [← l.n]
  by_cases e : x = h.n
  · subst e; rw [fset_same, fset_same, fset_same, fset_same]
  · have := l.cellLt x (by omega)
    have := l.qcLt x (by omega)
    rw [fset_other _ _ e, fset_other _ _ e, fset_other _ _ (by omega), fset_other _ _ (by omega)]
    exact g x (by omega)

/-- an object that shares the query compiler but is nobody's sibling: a cell of its own -/
theorem ShareHeap.Linked.unchanged {h : ShareHeap C} {a : SharedCells C} (l : h.Linked a) {o : Nat} (ho : o < h.n) (d : C) :
    (h.push (h.qc o) none).Linked (a.fresh d none) := by
  have f := l.fresh d d (p := none) (fun q e => nomatch e)
  exact { n := f.n, parent := f.parent, parentLt := f.parentLt, cellLt := f.cellLt, noParent := f.noParent, sibs := f.sibs, cells := f.cells
          qcLt := by
            intro x hx
            have hx : x < h.n + 1 := hx
            show fset h.qc h.n (h.qc o) x < h.nq
            by_cases e : x = h.n
            · subst e; rw [fset_same]; exact l.qcLt o ho
            · rw [fset_other _ _ e]; exact l.qcLt x (by omega) }

theorem ShareHeap.Linked.unchanged_agrees {h : ShareHeap C} {a : SharedCells C} (l : h.Linked a) (g : h.Agrees a) {o : Nat} (ho : o < h.n) :
    (h.push (h.qc o) none).Agrees (a.fresh (a.shows o) none) := by
  intro x hx
  have hx : x < h.n + 1 := hx
  show h.val (fset h.qc h.n (h.qc o) x) = fset a.val a.cells (a.shows o) (fset a.cell a.n a.cells x)
  rw [← l.n]
  by_cases e : x = h.n
  · subst e; rw [fset_same, fset_same, fset_same]; exact g o ho
  · have := l.cellLt x (by omega)
    rw [fset_other _ _ e, fset_other _ _ e, fset_other _ _ (by omega)]
    exact g x (by omega)

/-- a sibling, whatever query compiler it starts with -/
theorem ShareHeap.Linked.sibling {h h0 : ShareHeap C} {a : SharedCells C} (l : h.Linked a) {o q : Nat} (ho : o < h.n)
    (e1 : h0.n = h.n) (e2 : h0.qc = h.qc) (e3 : h0.sibs = h.sibs) (e4 : h0.parent = h.parent) (e5 : h.nq ≤ h0.nq) (hq : q < h0.nq) :
    ((h0.push q none).addSibling o h.n).Linked (a.same o) := by
  obtain ⟨f1, f2, f3, f4, -⟩ := (h0.push q none).addSibling_fields o h.n
  have f1' : ((h0.push q none).addSibling o h.n).n = h.n + 1 := by rw [f1]; show h0.n + 1 = _; rw [e1]
  have f2' : ((h0.push q none).addSibling o h.n).qc = fset h.qc h.n q := by rw [f2]; show fset h0.qc h0.n q = _; rw [e1, e2]
  have f3' : ((h0.push q none).addSibling o h.n).parent = fset h.parent h.n none := by
    rw [f3]; show fset h0.parent h0.n none = _; rw [e1, e4]
  have f4' : ((h0.push q none).addSibling o h.n).nq = h0.nq := f4
  have hs : ∀ o' x, x ∈ ((h0.push q none).addSibling o h.n).sibs o' ↔
      (o' = h.n ∧ (x ∈ h.sibs o ∨ x = o ∨ x = h.n)) ∨ (o' ≠ h.n ∧ (x ∈ h.sibs o' ∨ ((o' = o ∨ o' ∈ h.sibs o) ∧ x = h.n))) := by
    intro o' x
    rw [ShareHeap.addSibling_mem _ (by omega)]
    have : ∀ y, y ≠ h.n → (h0.push q none).sibs y = h.sibs y := by
      intro y hy
      show fset h0.sibs h0.n [] y = _
      rw [e1, fset_other _ _ hy, e3]
    rw [this o (by omega)]
    by_cases hy : o' = h.n
    · simp [hy]
    · rw [this o' hy]
  have hcell : ∀ y, (a.same o).cell y = if y = h.n then a.cell o else a.cell y := by
    intro y
    show fset a.cell a.n (a.cell o) y = _
    rw [← l.n]; rfl
  refine ⟨by rw [f1']; exact congrArg (· + 1) l.n, ?_, ?_, ?_, ?_, ?_, ?_, ?_⟩
  · rw [f3']; show _ = fset a.parent a.n none; rw [l.parent, l.n]
  · intro x p hp
    rw [f3'] at hp
    by_cases e : x = h.n
    · subst e; rw [fset_same] at hp; cases hp
    · rw [fset_other _ _ e] at hp
      have := l.parentLt x p hp
      rw [f1', hcell, hcell, if_neg e, if_neg (by omega)]
      exact ⟨by omega, this.2⟩
  · intro x hx
    rw [f1'] at hx
    rw [hcell]
    show _ < a.cells
    split
    · exact l.cellLt o ho
    · exact l.cellLt x (by omega)
  · intro x hx
    rw [f1'] at hx
    rw [f2', f4']
    by_cases e : x = h.n
    · subst e; rw [fset_same]; exact hq
    · rw [fset_other _ _ e]; have := l.qcLt x (by omega); omega
  · intro x hx
    rw [f1'] at hx
    rw [f3', fset_other _ _ (by omega)]
    exact l.noParent x (by omega)
  · intro y hy x hx
    rw [f1'] at hy
    rw [f1', hcell, hcell]
    rw [hs] at hx
    rcases hx with ⟨rfl, h1 | h1 | h1⟩ | ⟨hne, h1 | ⟨h1, h2⟩⟩
    · have := l.sibs o ho x h1
      rw [if_neg (by omega), if_pos rfl]; exact ⟨by omega, this.2⟩
    · subst h1; rw [if_neg (by omega), if_pos rfl]; exact ⟨by omega, rfl⟩
    · subst h1; rw [if_pos rfl]; exact ⟨by omega, rfl⟩
    · have := l.sibs y (by omega) x h1
      rw [if_neg (by omega), if_neg hne]; exact ⟨by omega, this.2⟩
    · subst h2
      rw [if_pos rfl, if_neg hne]
      rcases h1 with rfl | h1
      · exact ⟨by omega, rfl⟩
      · exact ⟨by omega, (l.sibs o ho y h1).2.symm⟩
  · intro y hy x hx
    rw [f1'] at hy hx
    rw [hcell, hcell, hs]
    by_cases e1 : y = h.n <;> by_cases e2 : x = h.n
    · exact fun _ => Or.inl (by omega)
    · rw [if_neg e2, if_pos e1]
      intro hc
      rcases l.cells o ho x (by omega) hc with h1 | h1
      · exact Or.inr (Or.inl ⟨e1, Or.inr (Or.inl h1)⟩)
      · exact Or.inr (Or.inl ⟨e1, Or.inl h1⟩)
    · rw [if_pos e2, if_neg e1]
      intro hc
      exact Or.inr (Or.inr ⟨e1, Or.inr ⟨l.cells o ho y (by omega) hc.symm, e2⟩⟩)
    · rw [if_neg e2, if_neg e1]
      intro hc
      rcases l.cells y (by omega) x (by omega) hc with h1 | h1
      · exact Or.inl h1
      · exact Or.inr (Or.inr ⟨e1, Or.inl h1⟩)

theorem ShareHeap.Linked.shallow {h : ShareHeap C} {a : SharedCells C} (l : h.Linked a) {o : Nat} (ho : o < h.n) :
    ((h.push (h.qc o) none).addSibling o h.n).Linked (a.same o) :=
  l.sibling ho rfl rfl rfl rfl (Nat.le_refl _) (l.qcLt o ho)

theorem ShareHeap.Linked.wrap {h : ShareHeap C} {a : SharedCells C} (l : h.Linked a) {o : Nat} (ho : o < h.n) (c : C) :
    (((h.alloc c).push h.nq none).addSibling o h.n).Linked (a.same o) :=
  l.sibling (h0 := h.alloc c) ho rfl rfl rfl rfl (Nat.le_succ _) (Nat.lt_succ_self _)

theorem ShareHeap.Linked.shallow_strict {h : ShareHeap C} {a : SharedCells C} (l : h.Linked a) (s : h.Strict a) {o : Nat} (ho : o < h.n) :
    ((h.push (h.qc o) none).addSibling o h.n).Strict (a.same o) := by
  obtain ⟨f1, f2, -, -, -⟩ := (h.push (h.qc o) none).addSibling_fields o h.n
  intro x y hx hy
  rw [f1] at hx hy
  have hx : x < h.n + 1 := hx
  have hy : y < h.n + 1 := hy
  rw [f2]
  show fset h.qc h.n (h.qc o) x = fset h.qc h.n (h.qc o) y ↔ fset a.cell a.n (a.cell o) x = fset a.cell a.n (a.cell o) y
  rw [← l.n]
  by_cases e1 : x = h.n <;> by_cases e2 : y = h.n
  · subst e1; subst e2; simp
  · subst e1
    rw [fset_same, fset_same, fset_other _ _ e2, fset_other _ _ e2]
    exact s o y ho (by omega)
  · subst e2
    rw [fset_same, fset_same, fset_other _ _ e1, fset_other _ _ e1]
    exact s x o (by omega) ho
  · rw [fset_other _ _ e1, fset_other _ _ e1, fset_other _ _ e2, fset_other _ _ e2]
    exact s x y (by omega) (by omega)

theorem ShareHeap.Linked.shallow_agrees {h : ShareHeap C} {a : SharedCells C} (l : h.Linked a) (g : h.Agrees a) {o : Nat} (ho : o < h.n) :
    ((h.push (h.qc o) none).addSibling o h.n).Agrees (a.same o) := by
  obtain ⟨f1, f2, -, -, f5⟩ := (h.push (h.qc o) none).addSibling_fields o h.n
  intro x hx
  rw [f1] at hx
  have hx : x < h.n + 1 := hx
  unfold ShareHeap.shows
  rw [f2, f5]
  show h.val (fset h.qc h.n (h.qc o) x) = a.val (fset a.cell a.n (a.cell o) x)
  rw [← l.n]
  by_cases e : x = h.n
  · subst e; rw [fset_same, fset_same]; exact g o ho
  · rw [fset_other _ _ e, fset_other _ _ e]; exact g x (by omega)

theorem ShareHeap.Linked.wrap_agrees {h : ShareHeap C} {a : SharedCells C} (l : h.Linked a) (g : h.Agrees a) {o : Nat} (ho : o < h.n) :
    (((h.alloc (h.shows o)).push h.nq none).addSibling o h.n).Agrees (a.same o) := by
  obtain ⟨f1, f2, -, -, f5⟩ := ((h.alloc (h.shows o)).push h.nq none).addSibling_fields o h.n
  intro x hx
  rw [f1] at hx
  have hx : x < h.n + 1 := hx
  show (((h.alloc (h.shows o)).push h.nq none).addSibling o h.n).val ((((h.alloc (h.shows o)).push h.nq none).addSibling o h.n).qc x) = _
  rw [f2, f5]
  show fset h.val h.nq (h.shows o) (fset h.qc h.n h.nq x) = a.val (fset a.cell a.n (a.cell o) x)
  rw [← l.n]
  by_cases e : x = h.n
  · subst e; rw [fset_same, fset_same, fset_same]; exact g o ho
  · have := l.qcLt x (by omega)
    rw [fset_other _ _ e, fset_other _ _ e, fset_other _ _ (by omega)]; exact g x (by omega)

theorem ShareHeap.Linked.relabel {h : ShareHeap C} {a : SharedCells C} (l : h.Linked a) (v w : Nat → C) :
    ({ h with val := v } : ShareHeap C).Linked { a with val := w } :=
  ⟨l.n, l.parent, l.parentLt, l.cellLt, l.qcLt, l.noParent, l.sibs, l.cells⟩

theorem ShareHeap.Linked.relabel_agrees {h : ShareHeap C} {a : SharedCells C} (s : h.Strict a) (g : h.Agrees a) {o : Nat} (ho : o < h.n) (c : C) :
    ({ h with val := fset h.val (h.qc o) c } : ShareHeap C).Agrees (a.write o c) := by
  intro x hx
  have hx : x < h.n := hx
  show fset h.val (h.qc o) c (h.qc x) = fset a.val (a.cell o) c (a.cell x)
  have := s x o hx ho
  by_cases e : a.cell x = a.cell o
  · rw [e, this.2 e, fset_same, fset_same]
  · rw [fset_other _ _ e, fset_other _ _ (fun e' => e (this.1 e'))]; exact g x hx

/-- the kind of a step -/
def ShareOp.isRelabel : ShareOp C → Bool
  | .relabel _ _ => true
  | _ => false

def ShareOp.isOdd : ShareOp C → Bool
  | .wrap _ => true
  | .unchanged _ => true
  | _ => false

/-- one step of both -/
theorem ShareHeap.Linked.step (put : C → C → C) {h : ShareHeap C} {a : SharedCells C} (l : h.Linked a) (op : ShareOp C) :
    (h.step put op = none ∧ a.step put op = none) ∨
    ∃ h' a', h.step put op = some h' ∧ a.step put op = some a' ∧ h'.Linked a' ∧
      (op.isOdd = false → h.Strict a → h'.Strict a') ∧
      (op.isRelabel = false ∨ h.Strict a → h.Agrees a → h'.Agrees a') := by
  have hlt : ∀ o, o < a.n ↔ o < h.n := fun o => by rw [l.n]
  cases op with
  | new c =>
    exact Or.inr ⟨_, _, rfl, rfl, l.fresh c c (fun q e => by cases e), fun _ s => l.fresh_strict s c c none, fun _ g => l.fresh_agrees g c none⟩
  | derive o f =>
    by_cases ho : o < h.n
    · refine Or.inr ⟨_, _, if_pos ho, if_pos ((hlt o).2 ho),
        l.fresh _ _ (fun q e => nomatch e), fun _ s => l.fresh_strict s _ _ none, fun _ g => ?_⟩
      rw [g o ho]; exact l.fresh_agrees g _ none
    · exact Or.inl ⟨by simp [ShareHeap.step, ho], by simp [SharedCells.step, hlt, ho]⟩
  | shallow o =>
    by_cases ho : o < h.n
    · exact Or.inr ⟨_, _, if_pos ho, if_pos ((hlt o).2 ho),
        l.shallow ho, fun _ s => l.shallow_strict s ho, fun _ g => l.shallow_agrees g ho⟩
    · exact Or.inl ⟨by simp [ShareHeap.step, ho], by simp [SharedCells.step, hlt, ho]⟩
  | wrap o =>
    by_cases ho : o < h.n
    · exact Or.inr ⟨_, _, if_pos ho, if_pos ((hlt o).2 ho),
        l.wrap ho _, fun e => (by cases e), fun _ g => l.wrap_agrees g ho⟩
    · exact Or.inl ⟨by simp [ShareHeap.step, ho], by simp [SharedCells.step, hlt, ho]⟩
  | unchanged o =>
    by_cases ho : o < h.n
    · exact Or.inr ⟨_, _, if_pos ho, if_pos ((hlt o).2 ho),
        l.unchanged ho _, fun e => (by cases e), fun _ g => l.unchanged_agrees g ho⟩
    · exact Or.inl ⟨by simp [ShareHeap.step, ho], by simp [SharedCells.step, hlt, ho]⟩
  | column o f =>
    by_cases ho : o < h.n
    · refine Or.inr ⟨_, _, if_pos ho, if_pos ((hlt o).2 ho),
        l.fresh _ _ (fun q e => by cases e; exact ho), fun _ s => l.fresh_strict s _ _ _, fun _ g => ?_⟩
      rw [g o ho]; exact l.fresh_agrees g _ _
    · exact Or.inl ⟨by simp [ShareHeap.step, ho], by simp [SharedCells.step, hlt, ho]⟩
  | assign o f =>
    by_cases ho : o < h.n
    · cases hp : h.parent o with
      | none =>
        have hp' : a.parent o = none := by rw [← l.parent]; exact hp
        refine Or.inr ⟨_, _, by simp only [ShareHeap.step, if_pos ho, hp]; rfl, by simp only [SharedCells.step, if_pos ((hlt o).2 ho), hp']; rfl,
          l.update ho _ _, fun _ s => l.update_strict s ho _ _, fun _ g => ?_⟩
        rw [g o ho]; exact l.update_agrees g ho _
      | some p =>
        have hp' : a.parent o = some p := by rw [← l.parent]; exact hp
        have hpl := (l.parentLt o p hp).1
        have l1 := l.update ho (f (h.shows o)) (f (a.shows o))
        have hpl1 : p < (h.updateInplace o (f (h.shows o))).n := hpl
        refine Or.inr ⟨_, _, by simp only [ShareHeap.step, if_pos ho, hp]; rfl, by simp only [SharedCells.step, if_pos ((hlt o).2 ho), hp']; rfl,
          l1.update hpl1 _ _, fun _ s => l1.update_strict (l.update_strict s ho _ _) hpl1 _ _, fun _ g => ?_⟩
        have g1 : (h.updateInplace o (f (h.shows o))).Agrees (a.write o (f (a.shows o))) := by
          rw [g o ho]; exact l.update_agrees g ho _
        rw [g1 p hpl1, g1 o ho]
        exact l1.update_agrees g1 hpl1 _
    · exact Or.inl ⟨by simp [ShareHeap.step, ho], by simp [SharedCells.step, hlt, ho]⟩
  | relabel o f =>
    by_cases ho : o < h.n
    · refine Or.inr ⟨_, _, if_pos ho, if_pos ((hlt o).2 ho),
        l.relabel (fset h.val (h.qc o) (f (h.shows o))) (fset a.val (a.cell o) (f (a.shows o))), fun _ s => s, fun hs g => ?_⟩
      rcases hs with hs | hs
      · cases hs
      · rw [g o ho]; exact ShareHeap.Linked.relabel_agrees hs g ho _
    · exact Or.inl ⟨by simp [ShareHeap.step, ho], by simp [SharedCells.step, hlt, ho]⟩

/-- both over a program -/
theorem ShareHeap.Linked.steps (put : C → C → C) (ops : List (ShareOp C)) {h : ShareHeap C} {a : SharedCells C} (l : h.Linked a) :
    (ops.foldlM (fun h op => h.step put op) h = none ∧ ops.foldlM (fun a op => a.step put op) a = none) ∨
    ∃ h' a', ops.foldlM (fun h op => h.step put op) h = some h' ∧ ops.foldlM (fun a op => a.step put op) a = some a' ∧ h'.Linked a' ∧
      ((∀ op ∈ ops, op.isRelabel = false) ∨ ((∀ op ∈ ops, op.isOdd = false) ∧ h.Strict a) → h.Agrees a → h'.Agrees a') := by
  induction ops generalizing h a with
  | nil => exact Or.inr ⟨h, a, rfl, rfl, l, fun _ g => g⟩
  | cons op ops ih =>
    simp only [List.foldlM_cons]
    rcases l.step put op with ⟨h1, h2⟩ | ⟨h', a', h1, h2, l', s', g'⟩
    · left; rw [h1, h2]; exact ⟨rfl, rfl⟩
    · rw [h1, h2]
      rcases ih l' with ⟨h3, h4⟩ | ⟨h'', a'', h3, h4, l'', g''⟩
      · left; exact ⟨h3, h4⟩
      · right
        refine ⟨h'', a'', h3, h4, l'', fun hyp g => ?_⟩
        rcases hyp with hyp | ⟨hyp, s⟩
        · exact g'' (Or.inl fun op' ho => hyp op' (List.mem_cons_of_mem _ ho)) (g' (Or.inl (hyp op List.mem_cons_self)) g)
        · exact g'' (Or.inr ⟨fun op' ho => hyp op' (List.mem_cons_of_mem _ ho), s' (hyp op List.mem_cons_self) s⟩) (g' (Or.inr s) g)

theorem linked_start (v w : Nat → C) :
    (⟨0, fun _ => 0, fun _ => [], fun _ => none, 0, v⟩ : ShareHeap C).Linked ⟨0, fun _ => 0, fun _ => none, 0, w⟩ := by
  refine ⟨rfl, rfl, ?_, ?_, ?_, ?_, ?_, ?_⟩ <;> intros <;> first | rfl | simp_all

theorem linked_runs [Inhabited C] (put : C → C → C) (ops : List (ShareOp C)) :
    (ShareHeap.run put ops = none ∧ SharedCells.run put ops = none) ∨
    ∃ h a, ShareHeap.run put ops = some h ∧ SharedCells.run put ops = some a ∧ h.Linked a ∧
      ((∀ op ∈ ops, op.isRelabel = false) ∨ (∀ op ∈ ops, op.isOdd = false) → h.Agrees a) := by
  rcases (linked_start (fun _ => (default : C)) (fun _ => default)).steps put ops with h1 | ⟨h, a, h1, h2, l, g⟩
  · exact Or.inl h1
  · refine Or.inr ⟨h, a, h1, h2, l, fun hyp => ?_⟩
    have s0 : (⟨0, fun _ => 0, fun _ => [], fun _ => none, 0, fun _ => default⟩ : ShareHeap C).Strict ⟨0, fun _ => 0, fun _ => none, 0, fun _ => default⟩ :=
      fun x y hx => absurd hx (Nat.not_lt_zero _)
    have g0 : (⟨0, fun _ => 0, fun _ => [], fun _ => none, 0, fun _ => default⟩ : ShareHeap C).Agrees ⟨0, fun _ => 0, fun _ => none, 0, fun _ => default⟩ :=
      fun x hx => absurd hx (Nat.not_lt_zero _)
    rcases hyp with hyp | hyp
    · exact g (Or.inl hyp) g0
    · exact g (Or.inr ⟨hyp, s0⟩) g0

/-! kinship -/

/-- the heap and the kinship -/
structure ShareHeap.Kin (h : ShareHeap C) (k : Kinship) : Prop where
  n : h.n = k.n
  parent : h.parent = k.parent
  parentLt : ∀ o p, h.parent o = some p → p < h.n
  qcLt : ∀ o, o < h.n → h.qc o < h.nq
  sibs : ∀ o, o < h.n → ∀ x, x ∈ h.sibs o → x < h.n ∧ k.kin x = k.kin o
  qc : ∀ x y, x < h.n → y < h.n → h.qc x = h.qc y → k.kin x = k.kin y

theorem ShareHeap.Kin.update {h : ShareHeap C} {k : Kinship} (l : h.Kin k) {o : Nat} (ho : o < h.n) (c : C) : (h.updateInplace o c).Kin k where
  n := l.n
  parent := l.parent
  parentLt := l.parentLt
  qcLt := fun x hx => by
    rw [ShareHeap.updateInplace_qc]
    show _ < h.nq + 1
    have := l.qcLt x hx
    split <;> omega
  sibs := l.sibs
  qc := fun x y hx hy => by
    rw [ShareHeap.updateInplace_qc, ShareHeap.updateInplace_qc]
    have h1 := l.qcLt x hx
    have h2 := l.qcLt y hy
    have key : ∀ z, z = o ∨ z ∈ h.sibs o → k.kin z = k.kin o := by
      rintro z (rfl | hz)
      · rfl
      · exact (l.sibs o ho z hz).2
    split <;> split
    · rename_i hx hy; intro _; rw [key x hx, key y hy]
    · intro e; omega
    · intro e; omega
    · exact l.qc x y hx hy

theorem ShareHeap.Kin.update_shows {h : ShareHeap C} {k : Kinship} (l : h.Kin k) {o : Nat} (ho : o < h.n) (c : C) {x : Nat} (hx : x < h.n)
    (hk : k.kin x ≠ k.kin o) : (h.updateInplace o c).shows x = h.shows x := by
  unfold ShareHeap.shows
  have : ¬(x = o ∨ x ∈ h.sibs o) := by
    rintro (rfl | e)
    · exact hk rfl
    · exact hk (l.sibs o ho x e).2
  have h1 := l.qcLt x hx
  rw [ShareHeap.updateInplace_qc, if_neg this]
  simp [ShareHeap.updateInplace, ShareHeap.alloc, fset, show h.qc x ≠ h.nq by omega]

theorem ShareHeap.Kin.push {h h0 : ShareHeap C} {k : Kinship} (l : h.Kin k) {q : Nat} {p : Option Nat} {r : Nat}
    (e1 : h0.n = h.n) (e2 : h0.qc = h.qc) (e3 : h0.sibs = h.sibs) (e4 : h0.parent = h.parent) (e5 : h.nq ≤ h0.nq) (hq : q < h0.nq)
    (hp : ∀ q, p = some q → q < h.n) (hr : ∀ x, x < h.n → h.qc x = q → k.kin x = r) :
    (h0.push q p).Kin ⟨k.n + 1, fset k.kin k.n r, fset k.parent k.n p⟩ := by
  refine ⟨?_, ?_, ?_, ?_, ?_, ?_⟩
  · show h0.n + 1 = k.n + 1; rw [e1, l.n]
  · show fset h0.parent h0.n p = fset k.parent k.n p; rw [e1, e4, l.parent, l.n]
  · intro o q' hq'
    have hq' : fset h0.parent h0.n p o = some q' := hq'
    show q' < h0.n + 1
    rw [e1, e4] at hq'
    rw [e1]
    by_cases e : o = h.n
    · subst e; rw [fset_same] at hq'; have := hp q' hq'; omega
    · rw [fset_other _ _ e] at hq'; have := l.parentLt o q' hq'; omega
  · intro o ho
    have ho : o < h0.n + 1 := ho
    show fset h0.qc h0.n q o < h0.nq
    rw [e1] at ho ⊢
    by_cases e : o = h.n
    · subst e; rw [fset_same]; exact hq
    · rw [fset_other _ _ e, e2]; have := l.qcLt o (by omega); omega
  · intro o ho x hx
    have ho : o < h0.n + 1 := ho
    have hx : x ∈ fset h0.sibs h0.n [] o := hx
    show x < h0.n + 1 ∧ fset k.kin k.n r x = fset k.kin k.n r o
    rw [e1] at ho hx ⊢
    rw [← l.n]
    by_cases e : o = h.n
    · subst e; rw [fset_same] at hx; simp at hx
    · rw [fset_other _ _ e, e3] at hx
      have := l.sibs o (by omega) x hx
      rw [fset_other _ _ e, fset_other _ _ (by omega)]
      exact ⟨by omega, this.2⟩
  · intro x y hx hy
    have hx : x < h0.n + 1 := hx
    have hy : y < h0.n + 1 := hy
    show fset h0.qc h0.n q x = fset h0.qc h0.n q y → fset k.kin k.n r x = fset k.kin k.n r y
    rw [e1] at hx hy ⊢
    rw [← l.n, e2]
    by_cases e1 : x = h.n <;> by_cases e2 : y = h.n
    · intro _; rw [e1, e2]
    · subst e1
      rw [fset_same, fset_same, fset_other _ _ e2, fset_other _ _ e2]
      exact fun e => (hr y (by omega) e.symm).symm
    · subst e2
      rw [fset_same, fset_same, fset_other _ _ e1, fset_other _ _ e1]
      exact fun e => hr x (by omega) e
    · rw [fset_other _ _ e1, fset_other _ _ e1, fset_other _ _ e2, fset_other _ _ e2]
      exact l.qc x y (by omega) (by omega)

theorem ShareHeap.Kin.addSibling {h : ShareHeap C} {k : Kinship} (l : h.Kin k) {o n : Nat} (ho : o < h.n) (hn : n < h.n) (hne : o ≠ n)
    (hk : k.kin n = k.kin o) : (h.addSibling o n).Kin k := by
  obtain ⟨f1, f2, f3, f4, -⟩ := h.addSibling_fields o n
  refine ⟨by rw [f1]; exact l.n, by rw [f3]; exact l.parent, ?_, ?_, ?_, ?_⟩
  · rw [f1, f3]; exact l.parentLt
  · rw [f1, f2, f4]; exact l.qcLt
  · rw [f1]
    intro y hy x hx
    rw [ShareHeap.addSibling_mem _ hne] at hx
    rcases hx with ⟨rfl, h1 | h1 | h1⟩ | ⟨hne, h1 | ⟨h1, h2⟩⟩
    · have := l.sibs o ho x h1
      exact ⟨this.1, by rw [this.2, hk]⟩
    · subst h1; exact ⟨ho, hk.symm⟩
    · subst h1; exact ⟨hn, rfl⟩
    · exact l.sibs y hy x h1
    · subst h2
      rcases h1 with rfl | h1
      · exact ⟨hn, hk⟩
      · exact ⟨hn, by rw [hk, (l.sibs o ho y h1).2]⟩
  · rw [f1, f2]; exact l.qc

/-- nothing that is already there shows anything else after a new object was made -/
theorem push_shows (h0 h : ShareHeap C) (q : Nat) (p : Option Nat) (e1 : h0.n = h.n) (e2 : h0.qc = h.qc) {x : Nat} (hx : x < h.n)
    (hv : h0.val (h.qc x) = h.val (h.qc x)) : (h0.push q p).shows x = h.shows x := by
  show h0.val (fset h0.qc h0.n q x) = h.val (h.qc x)
  rw [e1, e2, fset_other _ _ (by omega), hv]

theorem addSibling_shows (h : ShareHeap C) (o n x : Nat) : (h.addSibling o n).shows x = h.shows x := by
  obtain ⟨-, f2, -, -, f5⟩ := h.addSibling_fields o n
  unfold ShareHeap.shows
  rw [f2, f5]

theorem ShareHeap.Kin.step (put : C → C → C) {h h' : ShareHeap C} {k : Kinship} (l : h.Kin k) {op : ShareOp C} (hs : h.step put op = some h') :
    h'.Kin (k.step op) ∧ h.n ≤ h'.n ∧ ∀ x, x < h.n → ¬k.mayChange x op → h'.shows x = h.shows x := by
  have hv : ∀ c x, x < h.n → (h.alloc c).val (h.qc x) = h.val (h.qc x) := by
    intro c x hx
    have := l.qcLt x hx
    show fset h.val h.nq c _ = _
    rw [fset_other _ _ (by omega)]
  have hps : ∀ c q p x, x < h.n → ((h.alloc c).push q p).shows x = h.shows x := fun c q p x hx =>
    push_shows (h.alloc c) h q p rfl rfl hx (hv c x hx)
  have hfresh : ∀ (c : C) (p : Option Nat), (∀ q, p = some q → q < h.n) →
      ((h.alloc c).push h.nq p).Kin ⟨k.n + 1, fset k.kin k.n k.n, fset k.parent k.n p⟩ := fun c p hp =>
    l.push (h0 := h.alloc c) rfl rfl rfl rfl (Nat.le_succ _) (Nat.lt_succ_self _) hp
      (fun x hx e => absurd e (Nat.ne_of_lt (l.qcLt x hx)))
  cases op with
  | new c =>
    simp only [ShareHeap.step, Option.some.injEq] at hs
    subst hs
    exact ⟨hfresh c none (fun q e => nomatch e), Nat.le_succ _, fun x hx _ => hps c _ _ x hx⟩
  | derive o f =>
    by_cases ho : o < h.n
    · simp only [ShareHeap.step, if_pos ho, Option.some.injEq] at hs
      subst hs
      exact ⟨hfresh _ none (fun q e => nomatch e), Nat.le_succ _, fun x hx _ => hps _ _ _ x hx⟩
    · simp [ShareHeap.step, ho] at hs
  | shallow o =>
    by_cases ho : o < h.n
    · simp only [ShareHeap.step, if_pos ho, Option.some.injEq] at hs
      subst hs
      have l1 := l.push (h0 := h) (q := h.qc o) (p := none) (r := k.kin o) rfl rfl rfl rfl (Nat.le_refl _) (l.qcLt o ho) (fun q e => nomatch e)
        (fun x hx e => l.qc x o hx ho e)
      refine ⟨l1.addSibling (o := o) (n := h.n) (by show o < h.n + 1; omega) (Nat.lt_succ_self _) (by omega) ?_, ?_, fun x hx _ => ?_⟩
      · show fset k.kin k.n (k.kin o) h.n = fset k.kin k.n (k.kin o) o
        rw [← l.n, fset_same, fset_other _ _ (by omega)]
      · rw [((h.push (h.qc o) none).addSibling_fields o h.n).1]; exact Nat.le_succ _
      · rw [addSibling_shows]; exact push_shows _ _ _ _ rfl rfl hx rfl
    · simp [ShareHeap.step, ho] at hs
  | wrap o =>
    by_cases ho : o < h.n
    · simp only [ShareHeap.step, if_pos ho, Option.some.injEq] at hs
      subst hs
      have l1 := l.push (h0 := h.alloc (h.shows o)) (q := h.nq) (p := none) (r := k.kin o) rfl rfl rfl rfl (Nat.le_succ _) (Nat.lt_succ_self _)
        (fun q e => nomatch e) (fun x hx e => absurd e (Nat.ne_of_lt (l.qcLt x hx)))
      refine ⟨l1.addSibling (o := o) (n := h.n) (by show o < h.n + 1; omega) (Nat.lt_succ_self _) (by omega) ?_, ?_, fun x hx _ => ?_⟩
      · show fset k.kin k.n (k.kin o) h.n = fset k.kin k.n (k.kin o) o
        rw [← l.n, fset_same, fset_other _ _ (by omega)]
      · rw [(((h.alloc (h.shows o)).push h.nq none).addSibling_fields o h.n).1]; exact Nat.le_succ _
      · rw [addSibling_shows]; exact hps _ _ _ x hx
    · simp [ShareHeap.step, ho] at hs
  | unchanged o =>
    by_cases ho : o < h.n
    · simp only [ShareHeap.step, if_pos ho, Option.some.injEq] at hs
      subst hs
      exact ⟨l.push (h0 := h) (q := h.qc o) (p := none) (r := k.kin o) rfl rfl rfl rfl (Nat.le_refl _) (l.qcLt o ho) (fun q e => nomatch e)
        (fun x hx e => l.qc x o hx ho e), Nat.le_succ _, fun x hx _ => push_shows _ _ _ _ rfl rfl hx rfl⟩
    · simp [ShareHeap.step, ho] at hs
  | column o f =>
    by_cases ho : o < h.n
    · simp only [ShareHeap.step, if_pos ho, Option.some.injEq] at hs
      subst hs
      exact ⟨hfresh _ _ (fun q e => by cases e; exact ho), Nat.le_succ _, fun x hx _ => hps _ _ _ x hx⟩
    · simp [ShareHeap.step, ho] at hs
  | assign o f =>
    by_cases ho : o < h.n
    · cases hp : h.parent o with
      | none =>
        simp only [ShareHeap.step, if_pos ho, hp, Option.some.injEq] at hs
        subst hs
        refine ⟨l.update ho _, Nat.le_refl _, fun x hx hm => ?_⟩
        exact l.update_shows ho _ hx fun e => hm (Or.inl e)
      | some p =>
        simp only [ShareHeap.step, if_pos ho, hp, Option.some.injEq] at hs
        subst hs
        have l1 := l.update ho (f (h.shows o))
        have hpl : p < (h.updateInplace o (f (h.shows o))).n := l.parentLt o p hp
        refine ⟨l1.update hpl _, Nat.le_refl _, fun x hx hm => ?_⟩
        rw [l1.update_shows hpl _ hx fun e => hm (Or.inr ⟨p, by rw [← l.parent]; exact hp, e⟩)]
        exact l.update_shows ho _ hx fun e => hm (Or.inl e)
    · simp [ShareHeap.step, ho] at hs
  | relabel o f =>
    by_cases ho : o < h.n
    · simp only [ShareHeap.step, if_pos ho, Option.some.injEq] at hs
      subst hs
      refine ⟨⟨l.n, l.parent, l.parentLt, l.qcLt, l.sibs, l.qc⟩, Nat.le_refl _, fun x hx hm => ?_⟩
      show fset h.val (h.qc o) _ (h.qc x) = h.val (h.qc x)
      rw [fset_other _ _ fun e => hm (l.qc x o hx ho e)]
    · simp [ShareHeap.step, ho] at hs

theorem kin_runs [Inhabited C] (put : C → C → C) (ops : List (ShareOp C)) {h : ShareHeap C} (hr : ShareHeap.run put ops = some h) :
    h.Kin (kinship ops) := by
  have : ∀ (ops : List (ShareOp C)) (h h' : ShareHeap C) (k : Kinship), h.Kin k → ops.foldlM (fun h op => h.step put op) h = some h' →
      h'.Kin (ops.foldl Kinship.step k) := by
    intro ops
    induction ops with
    | nil => intro h h' k l e; cases e; exact l
    | cons op ops ih =>
      intro h h' k l e
      rw [List.foldlM_cons] at e
      cases hs : h.step put op with
      | none => rw [hs] at e; cases e
      | some h1 =>
        rw [hs] at e
        exact ih h1 h' _ (l.step put hs).1 e
  refine this ops _ h _ ⟨rfl, rfl, ?_, ?_, ?_, ?_⟩ hr <;> intros <;> simp_all
