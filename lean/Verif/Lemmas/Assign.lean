import Verif.Model.Assign
import Verif.Lemmas.Select

variable {ι κ α : Type}

/-! ### lastPos -/

theorem lastPos_append (a b : List Nat) (x : Nat) :
    lastPos (a ++ b) x = match lastPos b x with
      | some i => some (a.length + i)
      | none => lastPos a x := by
  induction a with
  | nil => cases h : lastPos b x <;> simp [lastPos, h]
  | cons p a ih =>
    rw [List.cons_append, lastPos, ih]
    cases h : lastPos b x with
    | none => simp [lastPos]
    | some i => simp; omega

theorem lastPos_none {ps : List Nat} {x : Nat} : lastPos ps x = none ↔ x ∉ ps := by
  induction ps with
  | nil => simp [lastPos]
  | cons p ps ih =>
    rw [lastPos]
    cases h : lastPos ps x with
    | some i =>
      have : x ∈ ps := by
        apply Decidable.byContradiction
        intro hn; rw [ih.mpr hn] at h; cases h
      simp [this]
    | none =>
      have := ih.mp h
      simp only [List.mem_cons, this, or_false]
      by_cases hp : p = x
      · simp [hp]
      · simp [hp]; exact fun h => hp h.symm

theorem lastPos_some {ps : List Nat} {x i : Nat} :
    lastPos ps x = some i ↔ ps[i]? = some x ∧ ∀ j, i < j → ps[j]? ≠ some x := by
  induction ps generalizing i with
  | nil => simp [lastPos]
  | cons p ps ih =>
    rw [lastPos]
    cases h : lastPos ps x with
    | some k =>
      have hk := ih.mp h
      simp only [Option.some.injEq]
      constructor
      · rintro rfl
        refine ⟨by simpa using hk.1, ?_⟩
        intro j hj
        obtain ⟨j, rfl⟩ : ∃ j', j = j' + 1 := ⟨j - 1, by omega⟩
        rw [List.getElem?_cons_succ]
        exact hk.2 j (by omega)
      · rintro ⟨h1, h2⟩
        apply Decidable.byContradiction
        intro hne
        by_cases hlt : i < k + 1
        · exact h2 (k + 1) hlt (by simpa using hk.1)
        · obtain ⟨i, rfl⟩ : ∃ i', i = i' + 1 := ⟨i - 1, by omega⟩
          rw [List.getElem?_cons_succ] at h1
          exact hk.2 i (by omega) h1
    | none =>
      have hn := lastPos_none.mp h
      have hno : ∀ j : Nat, ps[j]? ≠ some x := fun j hj => hn (List.mem_of_getElem? hj)
      by_cases hp : p = x
      · simp only [hp, ↓reduceIte, Option.some.injEq]
        constructor
        · rintro rfl
          refine ⟨by simp, ?_⟩
          intro j hj
          obtain ⟨j, rfl⟩ : ∃ j', j = j' + 1 := ⟨j - 1, by omega⟩
          rw [List.getElem?_cons_succ]; exact hno j
        · rintro ⟨h1, h2⟩
          cases i with
          | zero => rfl
          | succ i => rw [List.getElem?_cons_succ] at h1; exact absurd h1 (hno i)
      · simp only [hp, ↓reduceIte, reduceCtorEq, false_iff, not_and]
        intro h1
        cases i with
        | zero => simp at h1; exact absurd h1 hp
        | succ i => rw [List.getElem?_cons_succ] at h1; exact absurd h1 (hno i)

theorem lastPos_lt {ps : List Nat} {x i : Nat} (h : lastPos ps x = some i) : i < ps.length := by
  have := (lastPos_some.mp h).1
  exact (List.getElem?_eq_some_iff.mp this).1

theorem lastPos_shift (js : List Nat) (a u : Nat) :
    lastPos (js.map (· + a)) (a + u) = lastPos js u := by
  induction js with
  | nil => rfl
  | cons p ps ih =>
    rw [List.map_cons, lastPos, lastPos, ih]
    have : (p + a = a + u) ↔ p = u := by omega
    simp only [this]

/-! ### Distribution over blocks -/

/-- The computed sizes are the true ones, except that the last may be too large. -/
def SizesOk (cache : Option (List Nat)) (lens : List Nat) : Nat → List (Nat × BlockSel) → Prop
  | _, [] => True
  | k, e :: d => ∃ n, partSize cache k e.2 (lens.getD e.1 0) = some n ∧
      (n = (e.2.positions (lens.getD e.1 0)).length ∨
        (d = [] ∧ (e.2.positions (lens.getD e.1 0)).length ≤ n)) ∧
      SizesOk cache lens (k + 1) d

/-- What a list of slots must be like for writing values at the global positions `ps`. -/
def AxisPlan (lens ps : List Nat) (cnt : Nat) (plan : List Slot) : Prop :=
  (∀ r ∈ plan, r.blk < lens.length) ∧
  ∀ p, p < lens.length →
    (plan.filter (·.blk == p) = [] ∧ ∀ u, u < lens.getD p 0 → lastPos ps (off lens p + u) = none) ∨
    ∃ r, plan.filter (·.blk == p) = [r] ∧
      (∀ u, u < lens.getD p 0 →
        (lastPos (r.sel.positions (lens.getD p 0)) u).map (r.start + ·)
          = (lastPos ps (off lens p + u)).map (cnt + ·)) ∧
      cnt ≤ r.start ∧
      min (r.start + r.size) (cnt + ps.length)
        = r.start + (r.sel.positions (lens.getD p 0)).length

theorem lastPos_other {lens : List Nat} {kn : Bool} {e : Nat × BlockSel} (h : GoodSel lens kn e)
    {p u : Nat} (hp : p < lens.length) (hpe : e.1 ≠ p) (hu : u < lens.getD p 0) :
    lastPos (selGlobal lens e) (off lens p + u) = none := by
  rw [lastPos_none]
  intro hx
  simp only [selGlobal, List.getD_eq_getElem?_getD, List.getElem?_eq_getElem h.lt,
    Option.getD_some, List.mem_map] at hx
  obtain ⟨y, hy, he⟩ := hx
  have h1 := h.inside y hy
  have h2 := off_succ h.lt
  have h3 := off_succ hp
  rw [List.getD_eq_getElem?_getD, List.getElem?_eq_getElem hp, Option.getD_some] at hu
  rcases Nat.lt_or_gt_of_ne hpe with hlt | hgt
  · have := off_mono lens (i := e.1 + 1) (j := p) (by omega); omega
  · have := off_mono lens (i := p + 1) (j := e.1) (by omega); omega

theorem withOffsets_spec {cache : Option (List Nat)} {lens : List Nat} {kn : Bool}
    (d : List (Nat × BlockSel)) (hg : ∀ e ∈ d, GoodSel lens kn e)
    (ho : d.Pairwise (fun a b => a.1 < b.1)) (k cnt : Nat) (hs : SizesOk cache lens k d) :
    ∃ plan, withOffsets cache lens k cnt d = some plan ∧ (∀ r ∈ plan, ∃ e ∈ d, e.1 = r.blk) ∧
      AxisPlan lens (d.map (selGlobal lens)).flatten cnt plan := by
  induction d generalizing k cnt with
  | nil => exact ⟨[], rfl, by simp, by simp, fun p hp => Or.inl ⟨rfl, fun u hu => rfl⟩⟩
  | cons e d ih =>
    rw [List.pairwise_cons] at ho
    obtain ⟨n, hn, hsz, hrest⟩ := hs
    have ge := hg e (by simp)
    obtain ⟨plan, h1, h2, h3⟩ := ih (fun x hx => hg x (by simp [hx])) ho.2 (k + 1) (cnt + n) hrest
    have hlen : (selGlobal lens e).length = (e.2.positions (lens.getD e.1 0)).length := by
      simp [selGlobal]
    refine ⟨⟨e.1, e.2, cnt, n⟩ :: plan, ?_, ?_, ?_, ?_⟩
    · simp only [withOffsets, hn, Option.bind_some, h1, Option.map_some]
    · intro r hr
      rcases List.mem_cons.mp hr with rfl | hr
      · exact ⟨e, by simp, rfl⟩
      · obtain ⟨x, hx, hb⟩ := h2 r hr; exact ⟨x, by simp [hx], hb⟩
    · intro r hr
      rcases List.mem_cons.mp hr with rfl | hr
      · exact ge.lt
      · exact h3.1 r hr
    · intro p hp
      rw [List.map_cons, List.flatten_cons]
      have hnil : d = [] → plan = [] := by
        intro h; subst h; simp only [withOffsets, Option.some.injEq] at h1; exact h1.symm
      by_cases hpe : e.1 = p
      · subst hpe
        right
        refine ⟨⟨e.1, e.2, cnt, n⟩, ?_, ?_, Nat.le_refl _, ?_⟩
        · rw [List.filter_cons_of_pos (by simp)]
          have : plan.filter (·.blk == e.1) = [] := by
            rw [List.filter_eq_nil_iff]
            intro r hr
            obtain ⟨x, hx, hb⟩ := h2 r hr
            have := ho.1 x hx
            simp; omega
          rw [this]
        · intro u hu
          rw [lastPos_append]
          have hr0 : lastPos (d.map (selGlobal lens)).flatten (off lens e.1 + u) = none := by
            rw [lastPos_none, List.mem_flatten]
            rintro ⟨l, hl, hxl⟩
            rw [List.mem_map] at hl
            obtain ⟨x, hx, rfl⟩ := hl
            have := lastPos_other (hg x (by simp [hx])) hp (by have := ho.1 x hx; omega) hu
            exact (lastPos_none.mp this) hxl
          rw [hr0]
          simp only
          have := lastPos_shift (e.2.positions (lens.getD e.1 0)) (off lens e.1) u
          simp only [selGlobal]
          rw [this]
        · simp only
          rw [List.length_append, hlen]
          rcases hsz with hsz | ⟨hd, hsz⟩
          · omega
          · subst hd; simp only [List.map_nil, List.flatten_nil, List.length_nil]; omega
      · have hf : (({ blk := e.1, sel := e.2, start := cnt, size := n } : Slot) :: plan).filter (·.blk == p)
            = plan.filter (·.blk == p) := by
          rw [List.filter_cons_of_neg (by simp; exact hpe)]
        rw [hf]
        rcases h3.2 p hp with ⟨g1, g2⟩ | ⟨r, g1, g2, g3, g4⟩
        · left
          refine ⟨g1, fun u hu => ?_⟩
          rw [lastPos_append, g2 u hu]
          exact lastPos_other ge hp hpe hu
        · right
          have hd : d ≠ [] := by
            intro h
            have := hnil h
            rw [this] at g1
            simp at g1
          have hsz : n = (e.2.positions (lens.getD e.1 0)).length := by
            rcases hsz with h | ⟨h, _⟩
            · exact h
            · exact absurd h hd
          refine ⟨r, g1, fun u hu => ?_, by omega, ?_⟩
          · rw [g2 u hu, lastPos_append]
            cases hl : lastPos (d.map (selGlobal lens)).flatten (off lens p + u) with
            | some i => simp only [Option.map_some]; rw [hlen]; congr 1; omega
            | none => rw [lastPos_other ge hp hpe hu]; rfl
          · rw [List.length_append, hlen]
            omega

/-! ### Writing into a block is writing into the frame -/

theorem pySlice_mapIdx {A B : Type} (l : List A) (f : Nat → A → B) (a b : Nat) :
    pySlice (l.mapIdx f) a b = (pySlice l a b).mapIdx fun i => f (a + i) := by
  unfold pySlice
  apply List.ext_getElem
  · simp
  · intro i h1 h2
    simp

theorem mapIdx_congr {A B : Type} {l : List A} {f g : Nat → A → B}
    (h : ∀ i, (hi : i < l.length) → f i l[i] = g i l[i]) : l.mapIdx f = l.mapIdx g := by
  apply List.ext_getElem
  · simp
  · intro i h1 h2
    simp only [List.length_mapIdx] at h1
    simpa using h i h1

theorem mapIdx_eq_self {A : Type} {l : List A} {f : Nat → A → A}
    (h : ∀ i, (hi : i < l.length) → f i l[i] = l[i]) : l.mapIdx f = l := by
  apply List.ext_getElem
  · simp
  · intro i h1 h2
    simpa using h i h2

theorem Frame.WF.assign {df : Frame ι κ α} (h : df.WF) (rows cols : List Nat)
    (v : Nat → Nat → Option α) : (df.assign rows cols v).WF := by
  refine ⟨by simp [Frame.assign, h.rows_len], ?_⟩
  intro r hr
  simp only [Frame.assign, List.mem_mapIdx] at hr ⊢
  obtain ⟨i, hi, rfl⟩ := hr
  rw [List.length_mapIdx]
  exact h.row_width _ (List.getElem_mem hi)

/-- a block of the assigned frame, in terms of the block of the original -/
theorem assign_block (df : Frame ι κ α) (rows cols : List Nat) (v : Nat → Nat → Option α)
    (a b c d : Nat) :
    ((df.assign rows cols v).ilocRows a b).ilocCols c d
      = { (df.ilocRows a b).ilocCols c d with
          rows := ((df.ilocRows a b).ilocCols c d).rows.mapIdx fun x row => row.mapIdx fun y w =>
            match lastPos rows (a + x), lastPos cols (c + y) with
            | some i, some j => (v i j).getD w
            | _, _ => w } := by
  simp only [Frame.assign, Frame.ilocRows, Frame.ilocCols, Frame.mk.injEq, true_and]
  rw [pySlice_mapIdx]
  apply List.ext_getElem
  · simp
  · intro i h1 h2
    simp only [List.getElem_map, List.getElem_mapIdx]
    rw [pySlice_mapIdx]
    rfl

theorem foldlM_single {A B : Type} (f : B → A → Option B) (b : B) (a : A) :
    [a].foldlM f b = f b a := by
  simp [List.foldlM_cons, List.foldlM_nil]

theorem getElem?_pySlice {A : Type} (l : List A) (a b i : Nat) :
    (pySlice l a b)[i]? = if i < b - a then l[a + i]? else none := by
  unfold pySlice
  rw [List.getElem?_take]
  simp only [List.getElem?_drop]

theorem pySlice_length' {A : Type} (l : List A) (a b : Nat) :
    (pySlice l a b).length = min (b - a) (l.length - a) := by
  simp [pySlice]

theorem ilocMut_piece {df : Frame ι κ α} (hwf : df.WF) {rl cw : List Nat} (hcut : df.IsCut rl cw)
    {rows cols : List Nat} {it : Item α} (hfit : it.Fits rows.length cols.length)
    {p q : Nat} (hp : p < rl.length) (hq : q < cw.length) {r c : Slot}
    (hr : ∀ u, u < rl.getD p 0 → (lastPos (r.sel.positions (rl.getD p 0)) u).map (r.start + ·)
        = lastPos rows (off rl p + u))
    (hrn : min (r.start + r.size) rows.length = r.start + (r.sel.positions (rl.getD p 0)).length)
    (hc : ∀ u, u < cw.getD q 0 → (lastPos (c.sel.positions (cw.getD q 0)) u).map (c.start + ·)
        = lastPos cols (off cw q + u))
    (hcn : min (c.start + c.size) cols.length = c.start + (c.sel.positions (cw.getD q 0)).length) :
    let b := (df.ilocRows (off rl p) (off rl (p + 1))).ilocCols (off cw q) (off cw (q + 1))
    ilocMut b (r.sel.positions b.nrows) (c.sel.positions b.ncols) (it.piece r c)
      = some (((df.assign rows cols it.value).ilocRows (off rl p) (off rl (p + 1))).ilocCols
          (off cw q) (off cw (q + 1))) := by
  intro b
  have e1 := off_succ hp
  have e2 := off_succ hq
  have s1 := off_le_sum rl (p + 1)
  have s2 := off_le_sum cw (q + 1)
  rw [hcut.rl_sum] at s1
  rw [hcut.cw_sum] at s2
  simp only [Frame.nrows, Frame.ncols] at s1 s2
  have g1 : rl.getD p 0 = rl[p] := by simp [List.getD_eq_getElem?_getD, hp]
  have g2 : cw.getD q 0 = cw[q] := by simp [List.getD_eq_getElem?_getD, hq]
  have bn : b.nrows = rl.getD p 0 := by
    simp only [b, Frame.nrows, Frame.ilocRows, Frame.ilocCols, pySlice_length']
    omega
  have bc : b.ncols = cw.getD q 0 := by
    simp only [b, Frame.ncols, Frame.ilocRows, Frame.ilocCols, pySlice_length']
    omega
  have hbr : b.rows.length = b.nrows := by
    simp only [b, Frame.nrows, Frame.ilocRows, Frame.ilocCols, List.length_map, pySlice_length',
      hwf.rows_len]
  have hbw : ∀ x ∈ b.rows, x.length = b.ncols := by
    intro x hx
    simp only [b, Frame.ilocRows, Frame.ilocCols, List.mem_map] at hx
    obtain ⟨y, hy, rfl⟩ := hx
    have hy' : y ∈ df.rows := List.mem_of_mem_drop (List.mem_of_mem_take hy)
    simp only [b, Frame.ncols, Frame.ilocRows, Frame.ilocCols, pySlice_length', hwf.row_width y hy']
  rw [assign_block]
  rw [bn, bc]
  -- both sides assign cell by cell
  have key : ∀ (v' : Nat → Nat → Option α),
      (∀ i j, i < (r.sel.positions (rl.getD p 0)).length → j < (c.sel.positions (cw.getD q 0)).length →
        v' i j = it.value (r.start + i) (c.start + j)) →
      b.assign (r.sel.positions (rl.getD p 0)) (c.sel.positions (cw.getD q 0)) v'
        = { b with rows := b.rows.mapIdx fun x row => row.mapIdx fun y w =>
            match lastPos rows (off rl p + x), lastPos cols (off cw q + y) with
            | some i, some j => (it.value i j).getD w
            | _, _ => w } := by
    intro v' hv
    simp only [Frame.assign, Frame.mk.injEq, true_and]
    apply mapIdx_congr
    intro x hx
    apply mapIdx_congr
    intro y hy
    rw [hbw _ (List.getElem_mem hx), bc] at hy
    rw [hbr, bn] at hx
    rw [← hr x hx, ← hc y hy]
    cases h1 : lastPos (r.sel.positions (rl.getD p 0)) x with
    | none => rfl
    | some i =>
      cases h2 : lastPos (c.sel.positions (cw.getD q 0)) y with
      | none => rfl
      | some j =>
        simp only [Option.map_some]
        rw [hv i j (lastPos_lt h1) (lastPos_lt h2)]
  cases it with
  | arr1 xs => exact absurd hfit id
  | scalar a =>
    simp only [Item.piece, ilocMut]
    exact congrArg some (key (fun _ _ => some a) (fun i j _ _ => rfl))
  | arr2 M =>
    obtain ⟨hM1, hM2⟩ := hfit
    simp only [Item.piece, ilocMut]
    have hPl : ((pySlice M r.start (r.start + r.size)).map fun row =>
        pySlice row c.start (c.start + c.size)).length = (r.sel.positions (rl.getD p 0)).length := by
      rw [List.length_map, pySlice_length', hM1]; omega
    have hPw : ∀ x ∈ ((pySlice M r.start (r.start + r.size)).map fun row =>
        pySlice row c.start (c.start + c.size)), x.length = (c.sel.positions (cw.getD q 0)).length := by
      intro x hx
      rw [List.mem_map] at hx
      obtain ⟨y, hy, rfl⟩ := hx
      have hy' : y ∈ M := List.mem_of_mem_drop (List.mem_of_mem_take hy)
      rw [pySlice_length', hM2 y hy']; omega
    generalize hP : ((pySlice M r.start (r.start + r.size)).map fun row =>
        pySlice row c.start (c.start + c.size)) = P at hPl hPw
    rw [if_pos ⟨Or.inl hPl, by
      rw [List.all_eq_true]; intro x hx; simp [hPw x hx]⟩]
    rw [key]
    intro i j hi hj
    have hi' : (if P.length = 1 then 0 else i) = i := by split <;> omega
    rw [hi']
    simp only [Item.value, entry]
    rw [← hP, List.getElem?_map, getElem?_pySlice, if_pos (by omega)]
    cases hx : M[r.start + i]? with
    | none => rfl
    | some row =>
      simp only [Option.map_some, Option.bind_some]
      have hrow : (pySlice row c.start (c.start + c.size)).length = (c.sel.positions (cw.getD q 0)).length := by
        rw [pySlice_length', hM2 row (List.mem_of_getElem? hx)]; omega
      have hj' : (if (pySlice row c.start (c.start + c.size)).length = 1 then 0 else j) = j := by
        split <;> omega
      rw [hj', getElem?_pySlice, if_pos (by omega)]

/-- a block without slots is a block of the assigned frame already -/
theorem untouched_block {df : Frame ι κ α} (hwf : df.WF) {rl cw : List Nat} (hcut : df.IsCut rl cw)
    {rows cols : List Nat} {v : Nat → Nat → Option α} {p q : Nat} (hp : p < rl.length)
    (hq : q < cw.length)
    (h : (∀ u, u < rl.getD p 0 → lastPos rows (off rl p + u) = none) ∨
      (∀ u, u < cw.getD q 0 → lastPos cols (off cw q + u) = none)) :
    ((df.assign rows cols v).ilocRows (off rl p) (off rl (p + 1))).ilocCols (off cw q) (off cw (q + 1))
      = (df.ilocRows (off rl p) (off rl (p + 1))).ilocCols (off cw q) (off cw (q + 1)) := by
  rw [assign_block]
  have e1 := off_succ hp
  have e2 := off_succ hq
  have g1 : rl.getD p 0 = rl[p] := by simp [List.getD_eq_getElem?_getD, hp]
  have g2 : cw.getD q 0 = cw[q] := by simp [List.getD_eq_getElem?_getD, hq]
  generalize hb : (df.ilocRows (off rl p) (off rl (p + 1))).ilocCols (off cw q) (off cw (q + 1)) = b
  have hrows : b.rows.mapIdx (fun x row => row.mapIdx fun y w =>
      match lastPos rows (off rl p + x), lastPos cols (off cw q + y) with
      | some i, some j => (v i j).getD w
      | _, _ => w) = b.rows := by
    apply mapIdx_eq_self
    intro x hx
    apply mapIdx_eq_self
    intro y hy
    have hx' : x < rl.getD p 0 := by
      rw [← hb] at hx
      simp only [Frame.ilocRows, Frame.ilocCols, List.length_map, pySlice_length'] at hx
      omega
    have hy' : y < cw.getD q 0 := by
      subst hb
      simp only [Frame.ilocRows, Frame.ilocCols, List.getElem_map, pySlice_length'] at hy
      omega
    rcases h with h | h
    · rw [h x hx']
    · rw [h y hy']
      cases lastPos rows (off rl p + x) <;> rfl
  rw [hrows]

theorem zipIdx_mapM_some {A B : Type} (l : List A) (f : A × Nat → Option B) (g : Nat → B)
    (h : ∀ i, (hi : i < l.length) → f (l[i], i) = some (g i)) :
    l.zipIdx.mapM f = some ((List.range l.length).map g) := by
  have : l.zipIdx.mapM f = some (l.zipIdx.map fun e => g e.2) := by
    apply mapM_congr_some
    intro e he
    rw [List.mem_zipIdx_iff_getElem?] at he
    obtain ⟨hi, he'⟩ := List.getElem?_eq_some_iff.mp he
    have := h e.2 hi
    rw [he'] at this
    exact this
  rw [this]
  congr 1
  apply List.ext_getElem
  · simp
  · intro i h1 h2; simp

theorem foldlM_nil' {A B : Type} (f : B → A → Option B) (b : B) : ([] : List A).foldlM f b = some b := rfl

theorem applyBothAxes_cut {df : Frame ι κ α} (hwf : df.WF) {rl cw : List Nat} (hcut : df.IsCut rl cw)
    {rows cols : List Nat} {it : Item α} (hfit : it.Fits rows.length cols.length)
    {rp cp : List Slot} (hr : AxisPlan rl rows 0 rp) (hc : AxisPlan cw cols 0 cp) :
    applyBothAxes (df.cut rl cw) rp cp it = some ((df.assign rows cols it.value).cut rl cw) := by
  have hlen : (df.cut rl cw).length = rl.length := by simp [Frame.cut, sliceBounds_length]
  unfold applyBothAxes
  rw [gridWidth_cut hcut.rl_ne, hlen]
  rw [if_pos (by
    rw [Bool.and_eq_true, List.all_eq_true, List.all_eq_true]
    exact ⟨fun r h => by simpa using hr.1 r h, fun c h => by simpa using hc.1 c h⟩)]
  have hgoal : (df.assign rows cols it.value).cut rl cw
      = (List.range (df.cut rl cw).length).map fun p => (List.range cw.length).map fun q =>
        ((df.assign rows cols it.value).ilocRows (off rl p) (off rl (p + 1))).ilocCols
          (off cw q) (off cw (q + 1)) := by
    rw [hlen]
    unfold Frame.cut
    rw [sliceBounds_eq, sliceBounds_eq]
    simp only [List.map_map]
    rfl
  rw [hgoal]
  apply zipIdx_mapM_some
  intro p hp
  rw [hlen] at hp
  have hrow := cut_getElem? (df := df) (cw := cw) hp
  have hrow' : (df.cut rl cw)[p]'(by rw [hlen]; exact hp) = (sliceBounds cw).map fun q =>
      (df.ilocRows (off rl p) (off rl (p + 1))).ilocCols q.1 q.2 := by
    rw [List.getElem?_eq_some_iff] at hrow
    exact hrow.2
  simp only [hrow']
  have hwl : ((sliceBounds cw).map fun q =>
      (df.ilocRows (off rl p) (off rl (p + 1))).ilocCols q.1 q.2).length = cw.length := by
    simp [sliceBounds_length]
  conv => rhs; rw [← hwl]
  apply zipIdx_mapM_some
  intro q hq
  rw [hwl] at hq
  have hblk : ((sliceBounds cw).map fun q =>
      (df.ilocRows (off rl p) (off rl (p + 1))).ilocCols q.1 q.2)[q]'(by rw [hwl]; exact hq)
      = (df.ilocRows (off rl p) (off rl (p + 1))).ilocCols (off cw q) (off cw (q + 1)) := by
    have := sliceBounds_getElem? hq
    rw [List.getElem?_eq_some_iff] at this
    rw [List.getElem_map, this.2]
  simp only [hblk]
  rcases hr.2 p hp with ⟨r1, r2⟩ | ⟨r, r1, r2, _, r4⟩
  · rw [r1, foldlM_nil', untouched_block hwf hcut hp hq (Or.inl r2)]
  · rw [r1, foldlM_single]
    rcases hc.2 q hq with ⟨c1, c2⟩ | ⟨c, c1, c2, _, c4⟩
    · rw [c1, foldlM_nil', untouched_block hwf hcut hp hq (Or.inr c2)]
    · rw [c1, foldlM_single]
      exact ilocMut_piece hwf hcut hfit hp hq
        (fun u hu => by rw [r2 u hu]; cases lastPos rows (off rl p + u) <;> simp)
        (by omega)
        (fun u hu => by rw [c2 u hu]; cases lastPos cols (off cw q + u) <;> simp)
        (by omega)

/-! ### Sorting the positions -/

theorem insertBy_lex (x : Nat × Nat) (l : List (Nat × Nat))
    (hl : l.Pairwise fun a b => a.1 < b.1 ∨ (a.1 = b.1 ∧ a.2 < b.2)) (hx : ∀ y ∈ l, x.2 < y.2) :
    (insertBy (fun a b => decide (a.1 ≤ b.1)) x l).Pairwise
      fun a b => a.1 < b.1 ∨ (a.1 = b.1 ∧ a.2 < b.2) := by
  induction l with
  | nil => simp [insertBy]
  | cons y ys ih =>
    rw [List.pairwise_cons] at hl
    unfold insertBy
    split
    · rename_i hxy
      simp only [decide_eq_true_eq] at hxy
      refine List.Pairwise.cons ?_ (List.Pairwise.cons hl.1 hl.2)
      intro z hz
      have hz2 := hx z hz
      rcases List.mem_cons.mp hz with rfl | hz
      · omega
      · have := hl.1 z hz; omega
    · rename_i hxy
      simp only [decide_eq_true_eq] at hxy
      refine List.Pairwise.cons ?_ (ih hl.2 (fun z hz => hx z (by simp [hz])))
      intro z hz
      rcases List.mem_cons.mp ((insertBy_perm _ x ys).mem_iff.mp hz) with rfl | hz
      · omega
      · exact hl.1 z hz

theorem sortBy_zipIdx_lex (l : List Nat) (s : Nat) :
    (sortBy (fun a b : Nat × Nat => decide (a.1 ≤ b.1)) (l.zipIdx s)).Pairwise
      fun a b => a.1 < b.1 ∨ (a.1 = b.1 ∧ a.2 < b.2) := by
  induction l generalizing s with
  | nil => simp [sortBy]
  | cons a l ih =>
    rw [List.zipIdx_cons, sortBy]
    refine insertBy_lex _ _ (ih (s + 1)) ?_
    intro y hy
    rw [mem_sortBy] at hy
    have := List.le_snd_of_mem_zipIdx hy
    simp only
    omega

/-- the sort is stable: the last occurrence in the sorted list is the last occurrence in the
    original -/
theorem lastPos_argsort (ps : List Nat) (x : Nat) :
    (lastPos (takeList ps (npArgsort ps)) x).bind ((npArgsort ps)[·]?) = lastPos ps x := by
  have hin : ∀ i ∈ npArgsort ps, i < ps.length := by
    intro i hi; simpa using (npArgsort_perm ps).mem_iff.mp hi
  have hget := takeList_getElem? hin
  have hpm : (takeList ps (npArgsort ps)).Perm ps := by
    rw [takeList_npArgsort]; exact npSort_perm ps
  -- entries of the sorted list of pairs
  have hpair : ∀ k : Nat, k < (npArgsort ps).length → ∃ v i,
      (sortBy (fun a b : Nat × Nat => decide (a.1 ≤ b.1)) ps.zipIdx)[k]? = some (v, i) ∧
      (npArgsort ps)[k]? = some i ∧ ps[i]? = some v := by
    intro k hk
    have hk' : k < (sortBy (fun a b : Nat × Nat => decide (a.1 ≤ b.1)) ps.zipIdx).length := by
      simpa [npArgsort] using hk
    have hm := List.getElem_mem hk'
    rw [mem_sortBy, List.mem_zipIdx_iff_getElem?] at hm
    exact ⟨_, _, List.getElem?_eq_getElem hk', by
      simp only [npArgsort, List.getElem?_map, List.getElem?_eq_getElem hk', Option.map_some]; rfl, hm⟩
  cases h : lastPos (takeList ps (npArgsort ps)) x with
  | none =>
    symm
    rw [Option.bind_none, lastPos_none]
    intro hx
    exact (lastPos_none.mp h) (hpm.mem_iff.mpr hx)
  | some j =>
    obtain ⟨h1, h2⟩ := lastPos_some.mp h
    have hjlt : j < (npArgsort ps).length := by
      have := lastPos_lt h
      rwa [takeList_length hin] at this
    obtain ⟨v, i, s1, s2, s3⟩ := hpair j hjlt
    rw [hget, s2, Option.bind_some, s3] at h1
    rw [Option.bind_some, s2]
    symm
    rw [lastPos_some]
    refine ⟨s3.trans h1, ?_⟩
    intro i' hi' hx'
    -- i' occurs at some place j' of the argsort
    have hi'lt : i' < ps.length := (List.getElem?_eq_some_iff.mp hx').1
    have hmem : i' ∈ npArgsort ps := (npArgsort_perm ps).mem_iff.mpr (by simpa using hi'lt)
    obtain ⟨j', hj', hij'⟩ := List.getElem_of_mem hmem
    obtain ⟨v', i'', t1, t2, t3⟩ := hpair j' hj'
    have hi'' : i'' = i' := by
      rw [List.getElem?_eq_getElem hj', hij'] at t2
      simpa using t2.symm
    subst hi''
    rw [hx'] at t3
    have hlex := sortBy_zipIdx_lex ps 0
    rw [List.pairwise_iff_getElem] at hlex
    obtain ⟨l1, e1⟩ := List.getElem?_eq_some_iff.mp s1
    obtain ⟨l2, e2⟩ := List.getElem?_eq_some_iff.mp t1
    have hv : v = x := by simpa using h1
    have hv' : x = v' := by simpa using t3
    by_cases hlt : j < j'
    · have := h2 j' hlt
      rw [hget, t2, Option.bind_some, hx'] at this
      exact this rfl
    · by_cases heq : j' = j
      · subst heq
        rw [s2] at t2
        simp at t2
        omega
      · have := hlex j' j l2 l1 (by omega)
        rw [e1, e2] at this
        simp only at this
        omega

/-! ### Sizes -/

theorem sizesOk_true {cache : Option (List Nat)} {lens : List Nat} (d : List (Nat × BlockSel)) (k : Nat)
    (h : ∀ i, (hi : i < d.length) → partSize cache (k + i) d[i].2 (lens.getD d[i].1 0)
      = some (d[i].2.positions (lens.getD d[i].1 0)).length) : SizesOk cache lens k d := by
  induction d generalizing k with
  | nil => trivial
  | cons e d ih =>
    refine ⟨_, h 0 (by simp), Or.inl rfl, ih (k + 1) ?_⟩
    intro i hi
    have := h (i + 1) (by simpa using hi)
    simpa [Nat.add_assoc, Nat.add_comm 1 i] using this

theorem blockDict_list {lens ps : List Nat} {e : Nat × BlockSel} (h : e ∈ blockDict lens ps) :
    ∃ js, e.2 = .list js := by
  unfold blockDict at h
  split at h
  · simp at h; exact ⟨[], by rw [h]⟩
  · simp only [List.mem_filterMap] at h
    obtain ⟨a, _, ha⟩ := h
    split at ha
    · simp at ha; exact ⟨_, by rw [← ha]⟩
    · cases ha

theorem sizesOk_list {cache : Option (List Nat)} {lens ps : List Nat} (k : Nat) :
    SizesOk cache lens k (blockDict lens ps) := by
  apply sizesOk_true
  intro i hi
  obtain ⟨js, hjs⟩ := blockDict_list (List.getElem_mem hi)
  rw [hjs]
  rfl

theorem sizesOk_nocache {lens : List Nat} (d : List (Nat × BlockSel)) (k : Nat) :
    SizesOk none lens k d := by
  apply sizesOk_true
  intro i hi
  cases h : d[i].2 <;> simp [partSize, BlockSel.positions]

/-- blocks of a slice are consecutive -/
theorem blockSlices_blocks {lens : List Nat} (hne : lens ≠ []) {n start stop : Nat}
    (hss : start ≤ stop) {d}
    (h : blockSlices lens n lens.length start stop = some d) :
    d.map (·.1) = List.range' (if start = 0 then 0 else digitize (innerEdges lens) start) d.length := by
  have hid : ∀ a k, ((List.range' a k).map fun i => (i, BlockSel.full)).map (·.1) = List.range' a k := by
    intro a k; rw [List.map_map]; exact List.map_id _
  have hmono := digitize_mono hne hss
  unfold blockSlices at h
  rw [blockOf_eq hne, blockOf_eq hne] at h
  simp only [Option.bind_eq_bind, Option.bind_some, Option.pure_def] at h
  split at h
  · rename_i hc
    cases h
    simp only [Bool.and_eq_true, decide_eq_true_eq] at hc
    rw [if_pos hc.1, List.range_eq_range', hid]
    simp
  · split at h
    · cases h; rfl
    · split at h
      · rename_i h0
        cases h
        rw [if_pos h0, List.map_append, List.range_eq_range', hid]
        simp only [List.map_cons, List.map_nil, List.length_append, List.length_map,
          List.length_range', List.length_cons, List.length_nil]
        rw [List.range'_concat]
        simp
      · rename_i h0
        rw [if_neg h0]
        split at h
        · cases h
          rw [List.map_cons, hid]
          simp only [List.length_cons, List.length_map, List.length_range']
          rw [List.range'_succ]
        · split at h
          · cases h; rfl
          · cases h
            rename_i hfl
            rw [List.map_append, List.map_cons, hid]
            simp only [List.map_cons, List.map_nil, List.length_append, List.length_cons,
              List.length_map, List.length_range', List.length_nil]
            rw [List.range'_concat, List.range'_succ]
            simp only [Nat.one_mul, List.append_cancel_left_eq, List.cons.injEq, and_true]
            omega

/-- every block has `c` elements, except that the last may have fewer -/
def EvenlyCut (lens : List Nat) (c : Nat) : Prop :=
  (∀ i, i + 1 < lens.length → lens.getD i 0 = c) ∧ ∀ i, lens.getD i 0 ≤ c

theorem positions_length_mono (s : BlockSel) {a b : Nat} (h : a ≤ b) :
    (s.positions a).length ≤ (s.positions b).length := by
  cases s with
  | full => simpa [BlockSel.positions] using h
  | list js => exact Nat.le_refl _
  | slice i j =>
    cases j <;>
    simp only [BlockSel.positions, pySlice_length', List.length_range, Option.getD_none,
      Option.getD_some] <;> omega

theorem sizesOk_suffix {lens : List Nat} (d : List (Nat × BlockSel)) (f k : Nat)
    (hb : d.map (·.1) = List.range' (f + k) d.length) (hlt : ∀ e ∈ d, e.1 < lens.length)
    (hlen : ∀ i, f + i < lens.length → lens.getD i 0 = lens.getD (f + i) 0 ∨
      (f + i + 1 = lens.length ∧ lens.getD (f + i) 0 ≤ lens.getD i 0)) :
    SizesOk (some lens) lens k d := by
  induction d generalizing k with
  | nil => trivial
  | cons e d ih =>
    rw [List.map_cons, List.length_cons, List.range'_succ] at hb
    injection hb with h1 h2
    have he := hlt e (by simp)
    have hk : k < lens.length := by omega
    have hg : lens[k]? = some (lens.getD k 0) := by
      simp [List.getD_eq_getElem?_getD, List.getElem?_eq_getElem hk]
    have hlast : f + k + 1 = lens.length → d = [] := by
      intro hl
      cases d with
      | nil => rfl
      | cons e' d' =>
        rw [List.map_cons, List.length_cons, List.range'_succ] at h2
        injection h2 with h3 _
        have := hlt e' (by simp)
        omega
    refine ⟨(e.2.positions (match e.2 with | .list _ => lens.getD e.1 0 | _ => lens.getD k 0)).length,
      ?_, ?_, ?_⟩
    · cases e2 : e.2 <;> simp only [partSize, hg, Option.map_some]
      rfl
    · have := hlen k (by omega)
      rw [h1]
      cases e2 : e.2 with
      | list js => exact Or.inl rfl
      | full =>
        rcases this with h | ⟨h, h'⟩
        · left; simp only [h]
        · right; exact ⟨hlast h, positions_length_mono _ h'⟩
      | slice i j =>
        rcases this with h | ⟨h, h'⟩
        · left; simp only [h]
        · right; exact ⟨hlast h, positions_length_mono _ h'⟩
    · exact ih (k + 1) (by rw [h2]; congr 1) (fun x hx => hlt x (by simp [hx]))

/-- the cases where the sizes computed for a range are right -/
def RangeSafe (cache : Option (List Nat)) (lens : List Nat) (start : Nat) : Prop :=
  cache = none ∨ start < lens.headD 0 ∨ start = 0 ∨ ∃ c, EvenlyCut lens c

def Positions.Safe (cache : Option (List Nat)) (lens : List Nat) : Positions → Prop
  | .range a _ => RangeSafe cache lens a
  | .array _ => True

theorem sizesOk_range {cache : Option (List Nat)} {lens : List Nat} (hne : lens ≠ [])
    (hc : cache = none ∨ cache = some lens) {start stop : Nat} (h1 : start < stop)
    (h2 : stop ≤ lens.sum) (hsafe : RangeSafe cache lens start) {d}
    (h : blockSlices lens lens.sum lens.length start stop = some d)
    (hlt : ∀ e ∈ d, e.1 < lens.length) : SizesOk cache lens 0 d := by
  rcases hc with rfl | rfl
  · exact sizesOk_nocache d 0
  have hb := blockSlices_blocks hne (Nat.le_of_lt h1) h
  apply sizesOk_suffix d _ 0 (by rw [Nat.add_zero]; exact hb) hlt
  rcases hsafe with h0 | h0 | h0 | ⟨c, hc1, hc2⟩
  · cases h0
  · intro i _
    left
    have : digitize (innerEdges lens) start = 0 := by
      apply digitize_unique hne (by omega)
      · rw [off_zero]; omega
      · cases lens with
        | nil => exact absurd rfl hne
        | cons a l => simpa [off] using h0
    rw [this]; simp
  · intro i _; left; simp [h0]
  · intro i hi
    generalize (if start = 0 then 0 else digitize (innerEdges lens) start) = f at hi
    by_cases hf : f = 0
    · left; simp [hf]
    · have e1 := hc1 i (by omega)
      by_cases hl : f + i + 1 = lens.length
      · right; exact ⟨hl, by rw [e1]; exact hc2 _⟩
      · left; rw [e1, hc1 (f + i) (by omega)]

/-- the positions in the order of the axis -/
def Positions.axisOrder : Positions → List Nat
  | .range a b => List.range' a (b - a)
  | .array ps => npSort ps

theorem assignIndex_plan {cache : Option (List Nat)} {lens : List Nat} (hne : lens ≠ [])
    (hc : cache = none ∨ cache = some lens) {p : Positions} (hv : p.Valid lens.sum)
    (hsafe : p.Safe cache lens) :
    ∃ d plan, assignIndex lens lens.sum lens.length p = some d ∧
      withOffsets cache lens 0 0 d = some plan ∧
      AxisPlan lens p.axisOrder 0 plan := by
  cases p with
  | range a b =>
    obtain ⟨h1, h2⟩ := hv
    by_cases hab : a = b
    · subst hab
      simp only [Positions.axisOrder, Nat.sub_self, List.range'_zero]
      by_cases h0 : a = 0 ∧ lens.sum = 0
      · obtain ⟨rfl, hz⟩ := h0
        have hd : assignIndex lens lens.sum lens.length (.range 0 0)
            = some ((List.range lens.length).map fun i => (i, BlockSel.full)) := by
          simp [assignIndex, blockSlices, hz]
        have hlt : ∀ e ∈ (List.range lens.length).map fun i => (i, BlockSel.full), e.1 < lens.length := by
          intro e he
          simp only [List.mem_map, List.mem_range] at he
          obtain ⟨i, hi, rfl⟩ := he
          exact hi
        obtain ⟨plan, p1, _, p3⟩ := withOffsets_spec (cache := cache) (kn := false) (lens := lens)
          ((List.range lens.length).map fun i => (i, BlockSel.full))
          (by
            intro e he
            simp only [List.mem_map, List.mem_range] at he
            obtain ⟨i, hi, rfl⟩ := he
            exact goodSel_full hi _)
          (by rw [List.pairwise_map]; exact List.pairwise_lt_range) 0 0
          (by
            rcases hc with rfl | rfl
            · exact sizesOk_nocache _ 0
            · apply sizesOk_suffix _ 0 0 _ hlt
              · intro i _; left; simp
              · rw [List.map_map, List.length_map, List.length_range, List.range_eq_range']
                exact List.map_id _)
        refine ⟨_, plan, hd, p1, ?_⟩
        rw [List.range_eq_range', fullRun 0 lens.length (by omega), off_zero, Nat.zero_add,
          off_length, hz] at p3
        exact p3
      · refine ⟨[], [], ?_, rfl, by simp, fun p hp => Or.inl ⟨rfl, fun u hu => rfl⟩⟩
        simp only [assignIndex, blockSlices, ↓reduceIte]
        rw [if_neg]
        simp only [Bool.and_eq_true, decide_eq_true_eq]
        omega
    have h1 : a < b := by omega
    obtain ⟨d, d1, _, d3, d4, d5⟩ := blockSlices_spec hne h1 h2 false
    obtain ⟨plan, p1, _, p3⟩ := withOffsets_spec (cache := cache) d d4 d5 0 0
      (sizesOk_range hne hc h1 h2 hsafe d1 (fun e he => (d4 e he).lt))
    rw [d3] at p3
    exact ⟨d, plan, d1, p1, p3⟩
  | array ps =>
    have hin : ∀ x ∈ npSort ps, x < lens.sum := fun x hx => hv x ((npSort_perm ps).mem_iff.mp hx)
    obtain ⟨plan, p1, _, p3⟩ := withOffsets_spec (cache := cache) _
      (blockDict_good hne (npSort_pairwise ps) hin false (by simp)) (blockDict_ordered _ _) 0 0
      (sizesOk_list 0)
    rw [blockDict_globals hne (npSort_pairwise ps)] at p3
    exact ⟨_, plan, rfl, p1, p3⟩

/-- applying the two-axis write to positions already in the order of the axis -/
theorem applySelectBoth_spec [DecidableEq ι] [DecidableEq κ] {m : MFrame ι κ α} {df : Frame ι κ α}
    (h : m.Represents df) {rows cols : Positions} (hr : rows.Valid df.nrows)
    (hc : cols.Valid df.ncols) (hrs : rows.Safe m.rowLens m.getRowLens)
    (hcs : cols.Safe m.colWidths m.getColWidths)
    {it : Item α} (hfit : it.Fits rows.count cols.count) :
    ∃ m', applySelectBoth m rows cols it = some m' ∧
      m'.Represents (df.assign
        rows.axisOrder
        cols.axisOrder it.value) := by
  obtain ⟨rl, cw, hcut, hparts, hrl, hcw⟩ := h.blocks
  have eri := getRowLens_cut hcut hparts hrl
  have eci := getColWidths_cut hcut hparts hcw
  rw [eri] at hrs
  rw [eci] at hcs
  rw [← hcut.rl_sum] at hr
  rw [← hcut.cw_sum] at hc
  obtain ⟨rd, rp, r1, r2, r3⟩ := assignIndex_plan hcut.rl_ne hrl hr hrs
  obtain ⟨cd, cp, c1, c2, c3⟩ := assignIndex_plan hcut.cw_ne hcw hc hcs
  have hlen : m.parts.length = rl.length := by rw [hparts]; simp [Frame.cut, sliceBounds_length]
  have hw : gridWidth m.parts = cw.length := by rw [hparts, gridWidth_cut hcut.rl_ne]
  have hni : m.getIndex.length = rl.sum := by rw [h.getIndex, hcut.rl_sum]; rfl
  have hnc : m.getColumns.length = cw.sum := by rw [h.getColumns, hcut.cw_sum]; rfl
  have hgrid := applyBothAxes_cut h.wf hcut (it := it) (by
    have e1 : rows.axisOrder.length
        = rows.count := by
      cases rows with
      | range a b => rfl
      | array ps => exact (npSort_perm ps).length_eq
    have e2 : cols.axisOrder.length
        = cols.count := by
      cases cols with
      | range a b => rfl
      | array ps => exact (npSort_perm ps).length_eq
    rw [e1, e2]; exact hfit) r3 c3
  unfold applySelectBoth
  rw [eri, eci, hni, hnc, hlen, hw, r1, Option.bind_some, c1, Option.bind_some, r2,
    Option.bind_some, c2, Option.bind_some, hparts, hgrid, Option.bind_some, h.getIndex, h.getColumns]
  apply represents_mk'
  refine ⟨h.wf.assign _ _ _, ⟨rl, cw, ⟨hcut.rl_ne, hcut.cw_ne, ?_, ?_⟩, rfl, hrl, hcw⟩, ?_, ?_⟩
  · rw [hcut.rl_sum]; rfl
  · rw [hcut.cw_sum]; rfl
  · right; rfl
  · right; rfl

/-! ### Reordering the item -/

theorem entry_take (M : List (List α)) (ro co : List Nat) (hr : ∀ x ∈ ro, x < M.length)
    {c : Nat} (hM : ∀ x ∈ M, x.length = c) (hc : ∀ x ∈ co, x < c) (i j : Nat) :
    entry ((takeList M ro).map fun r => takeList r co) i j
      = (ro[i]?).bind fun a => (co[j]?).bind fun b => entry M a b := by
  unfold entry
  rw [List.getElem?_map, takeList_getElem? hr]
  cases h1 : ro[i]? with
  | none => rfl
  | some a =>
    simp only [Option.bind_some]
    have ha : a < M.length := hr a (List.mem_of_getElem? h1)
    rw [List.getElem?_eq_getElem ha, Option.map_some, Option.bind_some]
    have hl := hM _ (List.getElem_mem ha)
    rw [takeList_getElem? (by rw [hl]; exact hc)]
    rfl

theorem Frame.assign_congr {df : Frame ι κ α} {rows rows' cols cols' : List Nat}
    {v v' : Nat → Nat → Option α}
    (h : ∀ x y, (lastPos rows x).bind (fun i => (lastPos cols y).bind fun j => v i j)
      = (lastPos rows' x).bind (fun i => (lastPos cols' y).bind fun j => v' i j)) :
    df.assign rows cols v = df.assign rows' cols' v' := by
  unfold Frame.assign
  congr 1
  apply mapIdx_congr
  intro x hx
  apply mapIdx_congr
  intro y hy
  have := h x y
  revert this
  cases lastPos rows x <;> cases lastPos cols y <;> cases lastPos rows' x <;>
    cases lastPos cols' y <;>
    simp only [Option.bind_none, Option.bind_some] <;> intro this <;>
    first | simp [← this] | simp [this]

theorem reshape_flatten (r c : Nat) (M : List (List α)) (h1 : M.length = r)
    (h2 : ∀ x ∈ M, x.length = c) : reshape r c M.flatten = M := by
  have h := sliceBounds_flatten_self_get M (M.map List.length) rfl
  have hlens : M.map List.length = List.replicate r c := by
    rw [List.eq_replicate_iff]
    refine ⟨by simpa using h1, ?_⟩
    intro b hb
    simp only [List.mem_map] at hb
    obtain ⟨x, hx, rfl⟩ := hb
    exact h2 x hx
  apply List.ext_getElem
  · simp [reshape, h1]
  · intro i hi hi'
    have hb : i < (M.map List.length).length := by simpa using hi'
    have := h i (by rw [sliceBounds_length]; exact hb) hi'
    have hs := sliceBounds_getElem? hb
    rw [List.getElem?_eq_some_iff] at hs
    rw [hs.2] at this
    simp only [reshape, List.getElem_map, List.getElem_range]
    rw [← this]
    have ho : ∀ k, k ≤ r → off (M.map List.length) k = k * c := by
      intro k hk
      rw [hlens]
      simp [off, List.take_replicate, Nat.min_eq_left hk]
    rw [ho i (by omega), ho (i + 1) (by omega)]

theorem flatten_length_const {M : List (List α)} {c : Nat} (h : ∀ x ∈ M, x.length = c) :
    M.flatten.length = M.length * c := by
  induction M with
  | nil => simp
  | cons x M ih =>
    rw [List.flatten_cons, List.length_append, h x (by simp), ih (fun y hy => h y (by simp [hy])),
      List.length_cons, Nat.succ_mul, Nat.add_comm]

theorem writeItems_spec [DecidableEq ι] [DecidableEq κ] {m : MFrame ι κ α} {df : Frame ι κ α}
    (h : m.Represents df) {rows cols : Positions} (hr : rows.Valid df.nrows)
    (hc : cols.Valid df.ncols) (hrs : rows.Safe m.rowLens m.getRowLens)
    (hcs : cols.Safe m.colWidths m.getColWidths)
    {it : Item α} (hfit : it.Fits rows.count cols.count) :
    ∃ m', writeItems m rows cols it = some m' ∧
      m'.Represents (df.assign rows.toList cols.toList it.value) := by
  cases it with
  | arr1 xs => exact hfit.elim
  | scalar a =>
    obtain ⟨m', h1, h2⟩ := applySelectBoth_spec h hr hc hrs hcs (it := .scalar a) hfit
    refine ⟨m', by simp only [writeItems, broadcastItem, Option.bind_some]; exact h1, ?_⟩
    have e : ∀ (p : Positions) x, (lastPos p.axisOrder x).isSome
        = (lastPos p.toList x).isSome := by
      intro p x
      cases p with
      | range a b => rfl
      | array ps =>
        simp only [Positions.toList, Positions.axisOrder]
        rw [← lastPos_argsort ps x, takeList_npArgsort]
        cases hl : lastPos (npSort ps) x with
        | none => rfl
        | some j =>
          have := lastPos_lt hl
          rw [(npSort_perm ps).length_eq, ← npArgsort_length] at this
          simp [List.getElem?_eq_getElem this]
    rw [Frame.assign_congr (rows' := rows.toList) (cols' := cols.toList) (v' := Item.value (.scalar a))] at h2
    · exact h2
    · intro x y
      have ex := e rows x
      have ey := e cols y
      revert ex ey
      generalize lastPos rows.axisOrder x = a1
      generalize lastPos cols.axisOrder y = a2
      generalize lastPos rows.toList x = b1
      generalize lastPos cols.toList y = b2
      cases a1 <;> cases a2 <;> cases b1 <;> cases b2 <;> simp [Item.value]
  | arr2 M =>
    obtain ⟨hM1, hM2⟩ := hfit
    -- the order of an axis as a list
    let ord : Positions → List Nat := fun p => match p with
      | .range a b => List.range (b - a)
      | .array ps => npArgsort ps
    have hord : ∀ p : Positions, ∀ x ∈ ord p, x < p.count := by
      intro p x hx
      cases p with
      | range a b => simpa [ord, Positions.count, Positions.toList] using hx
      | array ps => simpa [Positions.count, Positions.toList] using (npArgsort_perm ps).mem_iff.mp hx
    have hordl : ∀ p : Positions, (ord p).length = p.count := by
      intro p
      cases p with
      | range a b => simp [ord, Positions.count, Positions.toList]
      | array ps => simp [ord, Positions.count, Positions.toList, npArgsort_length]
    have hol : ∀ {τ : Type} (p : Positions) (l : List τ), l.length = p.count →
        orderList (sortLookup p).1 l = some (takeList l (ord p)) := by
      intro τ p l hl
      cases p with
      | range a b =>
        have : b - a = l.length := by simpa [Positions.count, Positions.toList] using hl.symm
        simp only [sortLookup, orderList, ord, this, takeList_range]
      | array ps =>
        simp only [sortLookup, orderList, ord]
        apply checkedTake_eq
        intro x hx; rw [hl]; exact hord (.array ps) x hx
    have hM' : broadcastItem rows cols (.arr2 M)
        = some (.arr2 ((takeList M (ord rows)).map fun r => takeList r (ord cols)),
          (sortLookup rows).2, (sortLookup cols).2) := by
      have hrowlen : ∀ x ∈ (takeList M (ord rows)).map fun r => takeList r (ord cols),
          x.length = cols.count := by
        intro x hx
        simp only [List.mem_map] at hx
        obtain ⟨r, hr', rfl⟩ := hx
        rw [takeList_length (by rw [hM2 r (mem_takeList hr')]; exact hord cols), hordl]
      have hlen : ((takeList M (ord rows)).map fun r => takeList r (ord cols)).length = rows.count := by
        rw [List.length_map, takeList_length (by rw [hM1]; exact hord rows), hordl]
      simp only [broadcastItem]
      rw [hol rows M hM1, Option.bind_some,
        mapM_congr_some (g := fun r => takeList r (ord cols)) (by
          intro r hr'; exact hol cols r (hM2 r (mem_takeList hr'))), Option.bind_some,
        if_pos (by rw [flatten_length_const hrowlen, hlen]), reshape_flatten _ _ _ hlen hrowlen]
      rfl
    have hsl : ∀ (p : Positions) n, p.Valid n → (sortLookup p).2.Valid n := by
      intro p n hv
      cases p with
      | range a b => exact hv
      | array ps => intro x hx; exact hv x (mem_takeList hx)
    have hss : ∀ (p : Positions) c l, p.Safe c l → (sortLookup p).2.Safe c l := by
      intro p c l hv
      cases p with
      | range a b => exact hv
      | array ps => trivial
    have hct : ∀ p : Positions, (sortLookup p).2.count = p.count := by
      intro p
      cases p with
      | range a b => rfl
      | array ps =>
        simp only [sortLookup, Positions.count, Positions.toList, takeList_npArgsort]
        exact (npSort_perm ps).length_eq
    have hlp : ∀ (p : Positions) x, (lastPos (sortLookup p).2.axisOrder x).bind ((ord p)[·]?)
        = lastPos p.toList x := by
      intro p x
      cases p with
      | range a b =>
        simp only [sortLookup, Positions.toList, Positions.axisOrder, ord]
        cases hl : lastPos (List.range' a (b - a)) x with
        | none => rfl
        | some j =>
          have := lastPos_lt hl
          rw [List.length_range'] at this
          simp [List.getElem?_range this]
      | array ps =>
        simp only [sortLookup, Positions.toList, Positions.axisOrder, ord]
        rw [takeList_npArgsort, npSort_of_pairwise (npSort_pairwise ps), ← takeList_npArgsort]
        exact lastPos_argsort ps x
    obtain ⟨m', h1, h2⟩ := applySelectBoth_spec h (hsl rows _ hr) (hsl cols _ hc) (hss rows _ _ hrs)
      (hss cols _ _ hcs) (it := .arr2 ((takeList M (ord rows)).map fun r => takeList r (ord cols))) (by
        rw [hct, hct]
        constructor
        · rw [List.length_map, takeList_length (by rw [hM1]; exact hord rows), hordl]
        · intro x hx
          simp only [List.mem_map] at hx
          obtain ⟨r, hr', rfl⟩ := hx
          rw [takeList_length (by rw [hM2 r (mem_takeList hr')]; exact hord cols), hordl])
    refine ⟨m', by rw [writeItems, hM', Option.bind_some]; exact h1, ?_⟩
    rw [Frame.assign_congr (rows' := rows.toList) (cols' := cols.toList) (v' := Item.value (.arr2 M))] at h2
    · exact h2
    · intro x y
      simp only [Item.value]
      rw [← hlp rows x, ← hlp cols y, Option.bind_assoc]
      congr 1
      funext i
      simp only [entry_take M (ord rows) (ord cols) (by rw [hM1]; exact hord rows) hM2 (hord cols)]
      cases (ord rows)[i]? with
      | none => simp
      | some a => simp only [Option.bind_some, Option.bind_assoc]
