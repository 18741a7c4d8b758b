import Verif.Lemmas.Locate

/-! Selection keeps the represented frame: masking, reordering, both. -/

variable {ι κ α : Type}

theorem Frame.takeRows_takeRows {f : Frame ι κ α} (hwf : f.WF) {p : List Nat} (q : List Nat)
    (h : ∀ i ∈ p, i < f.nrows) : (f.takeRows p).takeRows q = f.takeRows (takeList p q) := by
  simp only [Frame.takeRows, Frame.mk.injEq, true_and]
  exact ⟨takeList_takeList q h, takeList_takeList q (by intro i hi; rw [hwf.rows_len]; exact h i hi)⟩

theorem Frame.takeCols_takeCols {f : Frame ι κ α} (hwf : f.WF) {p : List Nat} (q : List Nat)
    (h : ∀ i ∈ p, i < f.ncols) : (f.takeCols p).takeCols q = f.takeCols (takeList p q) := by
  simp only [Frame.takeCols, List.map_map, Frame.mk.injEq, true_and]
  refine ⟨takeList_takeList q h, ?_⟩
  apply List.map_congr_left
  intro r hr
  exact takeList_takeList q (by intro i hi; rw [hwf.row_width r hr]; exact h i hi)

theorem Frame.takeRows_all {f : Frame ι κ α} (hwf : f.WF) : f.takeRows (List.range f.nrows) = f := by
  cases f with
  | mk index columns rows =>
    have := hwf.rows_len
    simp only at this
    simp only [Frame.takeRows, Frame.nrows, Frame.mk.injEq, true_and]
    refine ⟨takeList_range _, ?_⟩
    rw [← this]; exact takeList_range _

theorem Frame.takeCols_all {f : Frame ι κ α} (hwf : f.WF) : f.takeCols (List.range f.ncols) = f := by
  cases f with
  | mk index columns rows =>
    simp only [Frame.takeCols, Frame.ncols, Frame.mk.injEq, true_and]
    refine ⟨takeList_range _, ?_⟩
    conv => rhs; rw [← List.map_id rows]
    apply List.map_congr_left
    intro r hr
    have := hwf.row_width r hr
    simp only at this
    rw [← this]; exact takeList_range _

theorem Frame.ilocRows_takeRows {f : Frame ι κ α} (a b : Nat) (ps : List Nat)
    (h : ∀ i ∈ ps, i < b - a) : (f.ilocRows a b).takeRows ps = f.takeRows (ps.map (· + a)) := by
  simp [Frame.ilocRows, Frame.takeRows, takeList_pySlice _ _ _ _ h]

theorem Frame.ilocCols_takeCols {f : Frame ι κ α} (a b : Nat) (ps : List Nat)
    (h : ∀ i ∈ ps, i < b - a) : (f.ilocCols a b).takeCols ps = f.takeCols (ps.map (· + a)) := by
  simp [Frame.ilocCols, Frame.takeCols, takeList_pySlice _ _ _ _ h]

/-- A block masked by good selectors holds exactly the chosen global rows and columns. -/
theorem maskBlock_eq {df : Frame ι κ α} (hwf : df.WF) {rl cw : List Nat} (hcut : df.IsCut rl cw)
    {kl kw kn : Bool} (hkl : kl = true → kn = true) (hkw : kw = true → kn = true)
    {r c : Nat × BlockSel} (hr : GoodSel rl kn r) (hc : GoodSel cw kn c) :
    maskBlock kl kw r.2 c.2
      ((df.ilocRows (off rl r.1) (off rl (r.1 + 1))).ilocCols (off cw c.1) (off cw (c.1 + 1)))
      = (df.takeRows (selGlobal rl r)).takeCols (selGlobal cw c) := by
  obtain ⟨hr1, hr2, hr3⟩ := hr
  obtain ⟨hc1, hc2, hc3⟩ := hc
  have er := off_succ hr1
  have ec := off_succ hc1
  have hrs := off_le_sum rl (r.1 + 1)
  have hcs := off_le_sum cw (c.1 + 1)
  rw [hcut.rl_sum] at hrs
  rw [hcut.cw_sum] at hcs
  have en : ((df.ilocRows (off rl r.1) (off rl (r.1 + 1))).ilocCols (off cw c.1)
      (off cw (c.1 + 1))).nrows = rl[r.1] := by
    simp only [Frame.nrows] at hrs ⊢
    simp only [Frame.ilocCols, Frame.ilocRows, pySlice_length]; omega
  have em : ((df.ilocRows (off rl r.1) (off rl (r.1 + 1))).ilocCols (off cw c.1)
      (off cw (c.1 + 1))).ncols = cw[c.1] := by
    simp only [Frame.ncols] at hcs ⊢
    simp only [Frame.ilocCols, Frame.ilocRows, pySlice_length]; omega
  have main : (((df.ilocRows (off rl r.1) (off rl (r.1 + 1))).ilocCols (off cw c.1)
      (off cw (c.1 + 1))).takeRows (r.2.positions rl[r.1])).takeCols (c.2.positions cw[c.1])
      = (df.takeRows (selGlobal rl r)).takeCols (selGlobal cw c) := by
    rw [Frame.takeRows_ilocCols, Frame.ilocRows_takeRows _ _ _ (by
      intro i hi; have := hr2 i hi; omega), Frame.ilocCols_takeCols _ _ _ (by
      intro i hi; have := hc2 i hi; omega)]
    simp only [selGlobal, List.getD_eq_getElem?_getD, List.getElem?_eq_getElem hr1,
      List.getElem?_eq_getElem hc1, Option.getD_some]
  unfold maskBlock
  rw [en, em]
  by_cases hfull : (isFullMask r.2 (if kl = true then some rl[r.1] else none)
      && isFullMask c.2 (if kw = true then some cw[c.1] else none)) = true
  · rw [if_pos hfull]
    simp only [Bool.and_eq_true] at hfull
    have p1 : r.2.positions rl[r.1] = List.range rl[r.1] := by
      cases kl with
      | true => exact hr3 (hkl rfl) (by simpa using hfull.1)
      | false =>
        have := hfull.1
        simp only [Bool.false_eq_true, ↓reduceIte] at this
        cases hsel : r.2 <;> rw [hsel] at this <;> simp [isFullMask] at this
        rfl
    have p2 : c.2.positions cw[c.1] = List.range cw[c.1] := by
      cases kw with
      | true => exact hc3 (hkw rfl) (by simpa using hfull.2)
      | false =>
        have := hfull.2
        simp only [Bool.false_eq_true, ↓reduceIte] at this
        cases hsel : c.2 <;> rw [hsel] at this <;> simp [isFullMask] at this
        rfl
    rw [← main, p1, p2]
    have w1 := (hwf.ilocRows (off rl r.1) (off rl (r.1 + 1))).ilocCols (off cw c.1) (off cw (c.1 + 1))
    rw [← en, Frame.takeRows_all w1, ← em, Frame.takeCols_all w1]
  · rw [if_neg hfull]; exact main

theorem cut_getElem? {df : Frame ι κ α} {rl cw : List Nat} {i : Nat} (h : i < rl.length) :
    (df.cut rl cw)[i]? = some ((sliceBounds cw).map fun q =>
      (df.ilocRows (off rl i) (off rl (i + 1))).ilocCols q.1 q.2) := by
  unfold Frame.cut
  rw [List.getElem?_map, sliceBounds_getElem? h]
  rfl

theorem maskGrid_eq {df : Frame ι κ α} (hwf : df.WF) {rl cw : List Nat} (hcut : df.IsCut rl cw)
    {kn : Bool} {known : Nat → Nat → Bool × Bool}
    (hk : ∀ i j, (known i j).1 = true ∨ (known i j).2 = true → kn = true)
    {rd cd : List (Nat × BlockSel)} (hr : ∀ e ∈ rd, GoodSel rl kn e)
    (hc : ∀ e ∈ cd, GoodSel cw kn e) :
    maskGrid known rd cd (df.cut rl cw) = some ((rd.map (selGlobal rl)).map fun R =>
      (cd.map (selGlobal cw)).map fun C => (df.takeRows R).takeCols C) := by
  unfold maskGrid
  rw [List.map_map]
  apply mapM_congr_some
  intro r hrm
  simp only [Function.comp]
  rw [List.map_map]
  apply mapM_congr_some
  intro c hcm
  have h1 := hr r hrm
  have h2 := hc c hcm
  rw [cut_getElem? h1.lt]
  simp only [Option.bind_eq_bind, Option.bind_some, Option.pure_def]
  rw [List.getElem?_map, sliceBounds_getElem? h2.lt]
  simp only [Option.map_some, Option.bind_some, Option.some.injEq, Function.comp]
  exact maskBlock_eq hwf hcut (fun h => hk _ _ (Or.inl h)) (fun h => hk _ _ (Or.inr h)) h1 h2

/-- A grid of takes is a cut of the take. -/
theorem cut_of_globals {df : Frame ι κ α} (hwf : df.WF) (R C : List (List Nat))
    (hR : ∀ p ∈ R, ∀ x ∈ p, x < df.nrows) (hC : ∀ p ∈ C, ∀ x ∈ p, x < df.ncols) :
    ((df.takeRows R.flatten).takeCols C.flatten).cut (R.map List.length) (C.map List.length)
      = R.map fun r => C.map fun c => (df.takeRows r).takeCols c := by
  unfold Frame.cut
  apply List.ext_getElem
  · simp [sliceBounds_length]
  · intro i h1 h2
    have hi : i < R.length := by simpa using h2
    have hib : i < (sliceBounds (R.map List.length)).length := by simpa [sliceBounds_length] using hi
    simp only [List.getElem_map]
    apply List.ext_getElem
    · simp [sliceBounds_length]
    · intro j h3 h4
      have hj : j < C.length := by simpa using h4
      have hjb : j < (sliceBounds (C.map List.length)).length := by
        simpa [sliceBounds_length] using hj
      simp only [List.getElem_map]
      have rowsSlice : ∀ {τ : Type} (l : List τ), l.length = df.nrows →
          pySlice (takeList l R.flatten) (sliceBounds (R.map List.length))[i].1
            (sliceBounds (R.map List.length))[i].2 = takeList l R[i] := by
        intro τ l hl
        rw [takeList_flatten]
        have := sliceBounds_flatten_self_get (R.map (takeList l)) (R.map List.length) (by
          rw [List.map_map]; apply List.map_congr_left; intro p hp
          exact takeList_length (by rw [hl]; exact hR p hp)) i hib (by simpa using hi)
        rw [this, List.getElem_map]
      have colsSlice : ∀ {τ : Type} (l : List τ), l.length = df.ncols →
          pySlice (takeList l C.flatten) (sliceBounds (C.map List.length))[j].1
            (sliceBounds (C.map List.length))[j].2 = takeList l C[j] := by
        intro τ l hl
        rw [takeList_flatten]
        have := sliceBounds_flatten_self_get (C.map (takeList l)) (C.map List.length) (by
          rw [List.map_map]; apply List.map_congr_left; intro p hp
          exact takeList_length (by rw [hl]; exact hC p hp)) j hjb (by simpa using hj)
        rw [this, List.getElem_map]
      simp only [Frame.takeRows, Frame.takeCols, Frame.ilocRows, Frame.ilocCols, Frame.mk.injEq]
      refine ⟨rowsSlice _ rfl, colsSlice _ rfl, ?_⟩
      rw [pySlice_map, rowsSlice _ hwf.rows_len, List.map_map]
      apply List.map_congr_left
      intro r hr
      exact colsSlice _ (hwf.row_width r (mem_takeList hr))

/-! ### axis plans -/

/-- what a plan for one axis has to satisfy -/
structure GoodPlan {τ : Type} (lens : List Nat) (labels : List τ) (kn : Bool) (ps : List Nat)
    (d : List (Nat × BlockSel)) (nl : Option (List Nat)) (lab : Option (List τ)) : Prop where
  ne : d ≠ []
  good : ∀ e ∈ d, GoodSel lens kn e
  flat : (d.map (selGlobal lens)).flatten = ps
  lens_eq : nl = none ∨ nl = some ((d.map (selGlobal lens)).map List.length)
  lab_eq : lab = none ∨ lab = some (takeList labels ps)

theorem newLengths_eq {lens : List Nat} {kn : Bool} {d : List (Nat × BlockSel)}
    (hd : ∀ e ∈ d, GoodSel lens kn e) :
    newLengths lens d = some ((d.map (selGlobal lens)).map List.length) := by
  unfold newLengths
  rw [List.map_map]
  apply mapM_congr_some
  intro e he
  have h := (hd e he).lt
  simp only [Function.comp, selGlobal, List.length_map, List.getD_eq_getElem?_getD,
    List.getElem?_eq_getElem h, Option.getD_some, Option.map_some]
  cases e.2 <;> rfl

theorem nondecreasing_iff (l : List Nat) : nondecreasing l = true ↔ l.Pairwise (· ≤ ·) := by
  induction l with
  | nil => simp [nondecreasing]
  | cons a l ih =>
    cases l with
    | nil => simp [nondecreasing]
    | cons b l =>
      rw [nondecreasing, Bool.and_eq_true, ih, decide_eq_true_eq]
      constructor
      · rintro ⟨hab, hp⟩
        refine List.pairwise_cons.mpr ⟨?_, hp⟩
        intro c hc
        rcases List.mem_cons.mp hc with rfl | hc
        · exact hab
        · exact Nat.le_trans hab ((List.pairwise_cons.mp hp).1 c hc)
      · intro h
        rw [List.pairwise_cons] at h
        exact ⟨h.1 b (by simp), h.2⟩

/-- A request along one axis that pandas accepts: positions inside, a proper range. -/
def Positions.Valid (n : Nat) : Positions → Prop
  | .range a b => a ≤ b ∧ b ≤ n
  | .array ps => ∀ x ∈ ps, x < n

/-- the sorted positions -/
def sortedList (p : Positions) : List Nat := (sortedPositions p).toList

theorem sortedPositions_pairwise (ps : List Nat) :
    ∃ q, sortedPositions (.array ps) = .array q ∧ q.Pairwise (· ≤ ·) ∧ q.Perm ps ∧ q = npSort ps := by
  unfold sortedPositions
  by_cases h : nondecreasing ps = true
  · simp only [h, ↓reduceIte]
    have hp := (nondecreasing_iff ps).mp h
    exact ⟨ps, rfl, hp, List.Perm.refl _, (npSort_of_pairwise hp).symm⟩
  · simp only [h]
    exact ⟨_, rfl, npSort_pairwise ps, npSort_perm ps, rfl⟩

theorem pairwise_lt_of_nodup {l : List Nat} (h : l.Pairwise (· ≤ ·)) (hn : l.Nodup) :
    l.Pairwise (· < ·) := by
  have := h.and hn
  exact this.imp (by intro a b h; omega)

theorem maskAxisPlan_some {τ : Type} {lens : List Nat} (hne : lens ≠ []) {labels : List τ}
    (hlab : lens.sum = labels.length) {p : Positions} (hv : p.Valid labels.length)
    (hempty : ∀ a b, p = .range a b → a < b) (kn : Bool)
    (hk : kn = true → p.toList.Nodup) (lc : Option (List Nat)) (bc : Option (List τ)) :
    ∃ d nl lab, maskAxisPlan lens lc labels bc lens.length (some p) = some (d, some nl, some lab) ∧
      GoodPlan lens labels kn (sortedList p) d (some nl) (some lab) := by
  unfold maskAxisPlan
  cases p with
  | range a b =>
    have hab := hempty a b rfl
    obtain ⟨d, h1, h2, h3, h4, _⟩ := blockSlices_spec hne hab
      (by rw [hlab]; exact hv.2) kn
    simp only [sortedPositions, blockIndex, newLabels, ← hlab, h1, Option.bind_eq_bind,
      Option.bind_some, newLengths_eq h4, Option.pure_def]
    refine ⟨_, _, _, rfl, h2, h4, ?_, Or.inr rfl, Or.inr ?_⟩
    · rw [h3]; rfl
    · simp only [sortedList, sortedPositions, Positions.toList]
      rw [takeList_range' _ _ _ (by have := hv.2; omega)]
      have : a + (b - a) = b := by omega
      rw [this]
  | array ps =>
    obtain ⟨q, hq, hpw, hperm, _⟩ := sortedPositions_pairwise ps
    have hin : ∀ x ∈ q, x < labels.length := fun x hx => hv x (hperm.mem_iff.mp hx)
    have hgood := blockDict_good hne hpw (by rw [hlab]; exact hin) kn (by
      intro h
      exact pairwise_lt_of_nodup hpw (hperm.nodup_iff.mpr (hk h)))
    have hc : checkedTake labels q = some (takeList labels q) := by
      unfold checkedTake
      rw [if_pos (by rw [List.all_eq_true]; intro x hx; simpa using hin x hx)]
    simp only [hq, blockIndex, newLabels, Option.bind_eq_bind,
      Option.bind_some, newLengths_eq hgood, Option.pure_def, hc]
    refine ⟨_, _, _, rfl, ?_, hgood, ?_, Or.inr rfl, Or.inr ?_⟩
    · intro h0
      have := blockDict_globals hne hpw
      rw [h0] at this
      have hqn : q = [] := by simpa using this.symm
      subst hqn
      simp [blockDict] at h0
    · rw [blockDict_globals hne hpw]
      simp [sortedList, hq, Positions.toList]
    · simp [sortedList, hq, Positions.toList]

theorem maskAxisPlan_none {τ : Type} {lens : List Nat} (hne : lens ≠ []) {labels : List τ}
    (hlab : lens.sum = labels.length) (kn : Bool) {lc : Option (List Nat)} {bc : Option (List τ)}
    (hlc : lc = none ∨ lc = some lens) (hbc : bc = none ∨ bc = some labels) :
    ∃ d, maskAxisPlan lens lc labels bc lens.length none = some (d, lc, bc) ∧
      GoodPlan lens labels kn (List.range labels.length) d lc bc := by
  have hl := List.length_pos_iff.mpr hne
  refine ⟨_, rfl, ?_, ?_, ?_, ?_, ?_⟩
  · intro h
    have := congrArg List.length h
    rw [List.length_map, List.length_range, List.length_nil] at this
    omega
  · intro e he
    simp only [List.mem_map, List.mem_range] at he
    obtain ⟨i, hi, rfl⟩ := he
    exact goodSel_full hi kn
  · rw [List.range_eq_range', fullRun 0 lens.length (by omega), off_zero, Nat.zero_add,
      off_length, hlab, List.range_eq_range']
    rfl
  · rcases hlc with h | h
    · exact Or.inl h
    · right
      rw [h]
      congr 1
      rw [List.map_map, List.map_map]
      apply List.ext_getElem
      · simp
      · intro i h1 h2
        have hi : i < lens.length := h1
        simp only [List.getElem_map, List.getElem_range, Function.comp, selGlobal_full hi,
          List.length_range', off_succ hi]
        omega
  · rcases hbc with h | h
    · exact Or.inl h
    · right; rw [h, takeList_range]

/-- positions meant by an optional request along an axis of length `n` (after sorting) -/
def sortedReq (n : Nat) : Option Positions → List Nat
  | none => List.range n
  | some p => sortedList p

theorem maskAxisPlan_spec {τ : Type} {lens : List Nat} (hne : lens ≠ []) {labels : List τ}
    (hlab : lens.sum = labels.length) {p : Option Positions}
    (hv : ∀ q, p = some q → q.Valid labels.length)
    (hempty : ∀ a b, p = some (.range a b) → a < b) (kn : Bool)
    (hk : kn = true → ∀ q, p = some q → q.toList.Nodup)
    {lc : Option (List Nat)} {bc : Option (List τ)}
    (hlc : lc = none ∨ lc = some lens) (hbc : bc = none ∨ bc = some labels) :
    ∃ d nl lab, maskAxisPlan lens lc labels bc lens.length p = some (d, nl, lab) ∧
      GoodPlan lens labels kn (sortedReq labels.length p) d nl lab := by
  cases p with
  | none =>
    obtain ⟨d, h1, h2⟩ := maskAxisPlan_none hne hlab kn hlc hbc
    exact ⟨d, lc, bc, h1, h2⟩
  | some q =>
    obtain ⟨d, nl, lab, h1, h2⟩ := maskAxisPlan_some hne hlab (hv q rfl)
      (fun a b h => hempty a b (by rw [h])) kn (fun h => hk h q rfl) lc bc
    exact ⟨d, some nl, some lab, h1, h2⟩

theorem selGlobal_lt {lens : List Nat} {kn : Bool} {e : Nat × BlockSel} (h : GoodSel lens kn e) :
    ∀ x ∈ selGlobal lens e, x < lens.sum := by
  intro x hx
  simp only [selGlobal, List.getD_eq_getElem?_getD, List.getElem?_eq_getElem h.lt,
    Option.getD_some, List.mem_map] at hx
  obtain ⟨y, hy, rfl⟩ := hx
  have h1 := h.inside y hy
  have h2 := off_succ h.lt
  have h3 := off_le_sum lens (e.1 + 1)
  omega

theorem takeByMask_spec {m : MFrame ι κ α} {df : Frame ι κ α} (h : m.Represents df)
    {known : Nat → Nat → Bool × Bool} {kn : Bool}
    (hkn : ∀ i j, (known i j).1 = true ∨ (known i j).2 = true → kn = true)
    {rp cp : Option Positions}
    (hrv : ∀ q, rp = some q → q.Valid df.nrows) (hcv : ∀ q, cp = some q → q.Valid df.ncols)
    (hre : ∀ a b, rp = some (.range a b) → a < b) (hce : ∀ a b, cp = some (.range a b) → a < b)
    (hrk : kn = true → ∀ q, rp = some q → q.toList.Nodup)
    (hck : kn = true → ∀ q, cp = some q → q.toList.Nodup) :
    ∃ m', takeByMask known m rp cp = some m' ∧
      m'.Represents ((df.takeRows (sortedReq df.nrows rp)).takeCols (sortedReq df.ncols cp)) := by
  obtain ⟨rl, cw, hcut, hp, hrl, hcw⟩ := h.blocks
  have e1 := getRowLens_cut hcut hp hrl
  have e2 := getColWidths_cut hcut hp hcw
  have e3 : m.parts.length = rl.length := by rw [hp]; simp [Frame.cut, sliceBounds_length]
  have e4 : gridWidth m.parts = cw.length := by rw [hp, gridWidth_cut hcut.rl_ne]
  obtain ⟨rd, rnl, rlab, hr, gr⟩ := maskAxisPlan_spec (labels := df.index) hcut.rl_ne hcut.rl_sum
    hrv hre kn hrk hrl h.index
  obtain ⟨cd, cnl, clab, hc, gc⟩ := maskAxisPlan_spec (labels := df.columns) hcut.cw_ne hcut.cw_sum
    hcv hce kn hck hcw h.columns
  unfold takeByMask
  rw [e1, e2, e3, e4, h.getIndex, h.getColumns, hr, hc]
  simp only [Option.bind_eq_bind, Option.bind_some]
  rw [hp, maskGrid_eq h.wf hcut hkn gr.good gc.good]
  have hok : widthsOk cp cnl clab = true := by
    have hgl := gc.lens_eq
    have hgb := gc.lab_eq
    unfold widthsOk
    split
    · rename_i q w c
      rcases hgl with h1 | h1
      · cases h1
      · rcases hgb with h2 | h2
        · cases h2
        · cases h1; cases h2
          rw [beq_iff_eq, ← List.length_flatten, gc.flat, takeList_length]
          intro x hx
          rw [← gc.flat, List.mem_flatten] at hx
          obtain ⟨l, hl, hx⟩ := hx
          simp only [List.mem_map] at hl
          obtain ⟨e, he, rfl⟩ := hl
          have := selGlobal_lt (gc.good e he) x hx
          rw [hcut.cw_sum] at this
          exact this
    · rfl
  rw [hok]
  simp only [Bool.not_true, Bool.false_eq_true, ↓reduceIte, Option.bind_some]
  have hR : ∀ p ∈ rd.map (selGlobal rl), ∀ x ∈ p, x < df.nrows := by
    intro p hpm x hx
    simp only [List.mem_map] at hpm
    obtain ⟨e, he, rfl⟩ := hpm
    rw [← hcut.rl_sum]; exact selGlobal_lt (gr.good e he) x hx
  have hC : ∀ p ∈ cd.map (selGlobal cw), ∀ x ∈ p, x < df.ncols := by
    intro p hpm x hx
    simp only [List.mem_map] at hpm
    obtain ⟨e, he, rfl⟩ := hpm
    rw [← hcut.cw_sum]; exact selGlobal_lt (gc.good e he) x hx
  apply represents_mk'
  have hlenR : (sortedReq df.nrows rp).length = ((rd.map (selGlobal rl)).map List.length).sum := by
    rw [← List.length_flatten, gr.flat]; rfl
  have hlenC : (sortedReq df.ncols cp).length = ((cd.map (selGlobal cw)).map List.length).sum := by
    rw [← List.length_flatten, gc.flat]; rfl
  have hinR : ∀ x ∈ sortedReq df.nrows rp, x < df.nrows := by
    intro x hx
    have : x ∈ (rd.map (selGlobal rl)).flatten := by rw [gr.flat]; exact hx
    rw [List.mem_flatten] at this
    obtain ⟨l, hl, hx⟩ := this
    exact hR l hl x hx
  have hinC : ∀ x ∈ sortedReq df.ncols cp, x < df.ncols := by
    intro x hx
    have : x ∈ (cd.map (selGlobal cw)).flatten := by rw [gc.flat]; exact hx
    rw [List.mem_flatten] at this
    obtain ⟨l, hl, hx⟩ := this
    exact hC l hl x hx
  refine ⟨(h.wf.takeRows _).takeCols _,
    ⟨(rd.map (selGlobal rl)).map List.length, (cd.map (selGlobal cw)).map List.length,
      ⟨by simpa using gr.ne, by simpa using gc.ne, ?_, ?_⟩, ?_, gr.lens_eq, gc.lens_eq⟩, ?_, ?_⟩
  · rw [← hlenR]
    simp only [Frame.nrows, Frame.takeCols, Frame.takeRows]
    exact (takeList_length hinR).symm
  · rw [← hlenC]
    simp only [Frame.ncols, Frame.takeCols, Frame.takeRows]
    exact (takeList_length hinC).symm
  · have := cut_of_globals h.wf _ _ hR hC
    rw [gr.flat, gc.flat] at this
    exact this.symm
  · rcases gr.lab_eq with h1 | h1
    · exact Or.inl h1
    · exact Or.inr h1
  · rcases gc.lab_eq with h1 | h1
    · exact Or.inl h1
    · exact Or.inr h1

/-! ### reordering -/

/-- optional take -/
def Frame.takeRows? (p : Option (List Nat)) (f : Frame ι κ α) : Frame ι κ α :=
  match p with | some ps => f.takeRows ps | none => f
/-- optional take -/
def Frame.takeCols? (p : Option (List Nat)) (f : Frame ι κ α) : Frame ι κ α :=
  match p with | some ps => f.takeCols ps | none => f

theorem deployLens_keep {rl : List Nat} {n mb : Nat} {lens : List Nat}
    (h : deployLens rl.length true rl n mb none false = some lens) (hmb : 1 ≤ mb) :
    (n = rl.sum → lens = rl) ∧ (n ≠ rl.sum → getLengthList n rl.length mb = some lens) := by
  unfold deployLens at h
  by_cases h1 : rl.length = 1
  · rw [if_pos h1] at h
    cases h
    obtain ⟨x, hx⟩ := List.length_eq_one_iff.mp h1
    subst hx
    refine ⟨by intro h; simpa using h, fun _ => ?_⟩
    have hc : computeChunksize n 1 mb = some (max n mb) := by
      rw [computeChunksize_eq (by omega) (by omega)]; simp
    simp only [getLengthList, List.length_cons, List.length_nil, Nat.zero_add, hc, Option.map_some]
    have e : (List.range 1) = [0] := rfl
    rw [e]
    simp only [List.map_cons, List.map_nil, Nat.zero_add, Nat.one_mul, Nat.zero_mul, Nat.sub_zero]
    split
    · congr 2; omega
    · rfl
  · simp only [h1, ↓reduceIte, Bool.false_eq_true, ne_eq, not_true_eq_false, decide_false, Bool.not_true,
      Bool.or_self] at h
    by_cases h2 : rl.sum = n
    · simp only [h2, not_true_eq_false, ↓reduceIte] at h
      cases h
      exact ⟨fun _ => rfl, fun h => absurd h2.symm h⟩
    · simp only [h2, not_false_eq_true, ↓reduceIte] at h
      exact ⟨fun h => absurd h.symm h2, fun _ => h⟩

theorem checkedTake_eq {τ : Type} {l : List τ} {ps : List Nat} (h : ∀ x ∈ ps, x < l.length) :
    checkedTake l ps = some (takeList l ps) := by
  unfold checkedTake
  rw [if_pos (by rw [List.all_eq_true]; intro x hx; simpa using h x hx)]

theorem takeRows_ilocCols_grid {df : Frame ι κ α} {ps : List Nat} (lens cw : List Nat) :
    ((sliceBounds lens).map fun p => (sliceBounds cw).map fun q =>
      ((df.ilocCols q.1 q.2).takeRows ps).ilocRows p.1 p.2) = (df.takeRows ps).cut lens cw := by
  unfold Frame.cut
  congr 1; funext p; congr 1; funext q
  rw [Frame.takeRows_ilocCols, Frame.ilocCols_ilocRows]

theorem takeCols_ilocRows_grid {df : Frame ι κ α} {ps : List Nat} (rl lens : List Nat) :
    ((sliceBounds rl).map fun p => (sliceBounds lens).map fun q =>
      ((df.ilocRows p.1 p.2).takeCols ps).ilocCols q.1 q.2) = (df.takeCols ps).cut rl lens := by
  unfold Frame.cut
  congr 1; funext p; congr 1; funext q
  rw [Frame.takeCols_ilocRows]

/-- the row half of `_reorder_labels` -/
theorem reorder_rows [DecidableEq ι] [DecidableEq κ] (cfg : Cfg) (hp : 1 ≤ cfg.nPartitions)
    (hm : 1 ≤ cfg.minRow) {df : Frame ι κ α} (hwf : df.WF) {rl cw : List Nat}
    (hcut : df.IsCut rl cw) {ps : List Nat} (hin : ∀ x ∈ ps, x < df.nrows)
    {c : Option (List Nat)} (hc : c = none ∨ c = some rl) :
    ∃ lens c', (df.takeRows ps).IsCut lens cw ∧
      mapAxisPartitions cfg true (fun b => some (b.takeRows ps)) (df.cut rl cw) true none none
        = some ((df.takeRows ps).cut lens cw) ∧
      reorderedLens (takeList df.index ps).length df.index.length
        ((df.takeRows ps).cut lens cw).length cfg.minRow c = some c' ∧ (c' = none ∨ c' = some lens) := by
  obtain ⟨lens, ⟨h1, h2, h3, _⟩, h4⟩ := mapAxis_rows_cut' cfg hp hm (columnLocal_takeRows ps) hwf hcut
    true none (by simp) none (by simp) (by simp)
  have h3 := deployLens_keep (h3 rfl rfl) hm
  rw [takeRows_ilocCols_grid] at h4
  have hn : (df.takeRows ps).nrows = ps.length := takeList_length hin
  have hlt : (takeList df.index ps).length = ps.length := takeList_length hin
  have hcut' : (df.takeRows ps).IsCut lens cw := ⟨h1, hcut.cw_ne, h2, hcut.cw_sum⟩
  have hlen : lens.length = ((df.takeRows ps).cut lens cw).length := by
    simp [Frame.cut, sliceBounds_length]
  by_cases he : ps.length = df.nrows
  · have hs : (df.takeRows ps).nrows = rl.sum := by rw [hn, hcut.rl_sum, he]
    have hl := h3.1 hs
    refine ⟨lens, c, hcut', h4, ?_, ?_⟩
    · unfold reorderedLens; rw [hlt, if_neg]; simp only [ne_eq, Decidable.not_not]; exact he
    · rw [hl]; exact hc
  · have hs : (df.takeRows ps).nrows ≠ rl.sum := by rw [hn, hcut.rl_sum]; exact he
    have hl := h3.2 hs
    have hll : lens.length = rl.length := (getLengthList_sum hl).2
    refine ⟨lens, some lens, hcut', h4, ?_, Or.inr rfl⟩
    unfold reorderedLens
    rw [if_pos (by rw [hlt]; exact he), hlt, ← hlen, hll]
    rw [hn] at hl
    rw [hl]; rfl

/-- the column half of `_reorder_labels` -/
theorem reorder_cols [DecidableEq ι] [DecidableEq κ] (cfg : Cfg) (hp : 1 ≤ cfg.nPartitions)
    (hm : 1 ≤ cfg.minCol) {df : Frame ι κ α} (hwf : df.WF) {rl cw : List Nat}
    (hcut : df.IsCut rl cw) {ps : List Nat} (hin : ∀ x ∈ ps, x < df.ncols)
    {c : Option (List Nat)} (hc : c = none ∨ c = some cw) :
    ∃ lens c', (df.takeCols ps).IsCut rl lens ∧
      mapAxisPartitions cfg false (fun b => some (b.takeCols ps)) (df.cut rl cw) true none none
        = some ((df.takeCols ps).cut rl lens) ∧
      reorderedLens (takeList df.columns ps).length df.columns.length
        (gridWidth ((df.takeCols ps).cut rl lens)) cfg.minCol c = some c' ∧ (c' = none ∨ c' = some lens) := by
  obtain ⟨lens, ⟨h1, h2, h3, _⟩, h4⟩ := mapAxis_cols_cut' cfg hp hm (rowLocal_takeCols ps) hwf hcut
    true none (by simp) none (by simp) (by simp)
  have h3 := deployLens_keep (h3 rfl rfl) hm
  rw [takeCols_ilocRows_grid] at h4
  have hn : (df.takeCols ps).ncols = ps.length := takeList_length hin
  have hlt : (takeList df.columns ps).length = ps.length := takeList_length hin
  have hcut' : (df.takeCols ps).IsCut rl lens := ⟨hcut.rl_ne, h1, hcut.rl_sum, h2⟩
  have hlen : lens.length = gridWidth ((df.takeCols ps).cut rl lens) := by
    rw [gridWidth_cut hcut.rl_ne]
  by_cases he : ps.length = df.ncols
  · have hs : (df.takeCols ps).ncols = cw.sum := by rw [hn, hcut.cw_sum, he]
    have hl := h3.1 hs
    refine ⟨lens, c, hcut', h4, ?_, ?_⟩
    · unfold reorderedLens; rw [hlt, if_neg]; simp only [ne_eq, Decidable.not_not]; exact he
    · rw [hl]; exact hc
  · have hs : (df.takeCols ps).ncols ≠ cw.sum := by rw [hn, hcut.cw_sum]; exact he
    have hl := h3.2 hs
    have hll : lens.length = cw.length := (getLengthList_sum hl).2
    refine ⟨lens, some lens, hcut', h4, ?_, Or.inr rfl⟩
    unfold reorderedLens
    rw [if_pos (by rw [hlt]; exact he), hlt, ← hlen, hll]
    rw [hn] at hl
    rw [hl]; rfl

theorem reorderLabels_spec [DecidableEq ι] [DecidableEq κ] (cfg : Cfg) (hp : 1 ≤ cfg.nPartitions)
    (hmr : 1 ≤ cfg.minRow) (hmc : 1 ≤ cfg.minCol) {m : MFrame ι κ α} {df : Frame ι κ α}
    (h : m.Represents df) {rp cp : Option (List Nat)}
    (hr : ∀ ps, rp = some ps → ∀ x ∈ ps, x < df.nrows)
    (hc : ∀ ps, cp = some ps → ∀ x ∈ ps, x < df.ncols) :
    ∃ m', reorderLabels cfg m rp cp = some m' ∧ m'.Represents ((df.takeRows? rp).takeCols? cp) := by
  obtain ⟨rl, cw, hcut, hpt, hrl, hcw⟩ := h.blocks
  have gi := h.getIndex
  have gcol := h.getColumns
  have rowsStep : ∃ rl' idx' c',
      reorderRowsStep cfg m rp = some ((df.takeRows? rp).cut rl' cw, idx', c') ∧
      (df.takeRows? rp).IsCut rl' cw ∧ (c' = none ∨ c' = some rl') ∧
      (idx' = none ∨ idx' = some (df.takeRows? rp).index) ∧ (df.takeRows? rp).WF := by
    cases rp with
    | none =>
      exact ⟨rl, m.index, m.rowLens, by rw [reorderRowsStep, hpt]; rfl, hcut, hrl, h.index, h.wf⟩
    | some ps =>
      obtain ⟨lens, c', g1, g2, g3, g4⟩ := reorder_rows cfg hp hmr h.wf hcut (hr ps rfl) hrl
      refine ⟨lens, some (takeList df.index ps), c', ?_, g1, g4, Or.inr rfl, h.wf.takeRows ps⟩
      simp only [reorderRowsStep]
      rw [gi, checkedTake_eq (hr ps rfl), hpt, g2, Option.bind_some, Option.bind_some, g3]
      rfl
  obtain ⟨rl', idx', c', hs, hcut', hc', hidx', hwf'⟩ := rowsStep
  have hcols0 : (df.takeRows? rp).columns = df.columns := by cases rp <;> rfl
  have hnc0 : (df.takeRows? rp).ncols = df.ncols := by simp only [Frame.ncols, hcols0]
  unfold reorderLabels
  rw [hs, Option.bind_some]
  have colsStep : ∃ cw' cols' c'',
      reorderColsStep cfg m ((df.takeRows? rp).cut rl' cw) cp =
        some (((df.takeRows? rp).takeCols? cp).cut rl' cw', cols', c'') ∧
      ((df.takeRows? rp).takeCols? cp).IsCut rl' cw' ∧ (c'' = none ∨ c'' = some cw') ∧
      (cols' = none ∨ cols' = some ((df.takeRows? rp).takeCols? cp).columns) ∧
      ((df.takeRows? rp).takeCols? cp).WF ∧
      ((df.takeRows? rp).takeCols? cp).index = (df.takeRows? rp).index := by
    cases cp with
    | none =>
      exact ⟨cw, m.columns, m.colWidths, rfl, hcut', hcw, by
        simp only [Frame.takeCols?, hcols0]; exact h.columns, hwf', rfl⟩
    | some ps =>
      obtain ⟨lens, c'', g1, g2, g3, g4⟩ := reorder_cols cfg hp hmc hwf' hcut'
        (by rw [hnc0]; exact hc ps rfl) hcw
      refine ⟨lens, some (takeList df.columns ps), c'', ?_, g1, g4, Or.inr ?_, hwf'.takeCols ps, rfl⟩
      · simp only [reorderColsStep]
        rw [hcols0] at g3
        rw [gcol, checkedTake_eq (hc ps rfl), g2, Option.bind_some, Option.bind_some, g3]
        rfl
      · simp only [Frame.takeCols?, Frame.takeCols, hcols0]
  obtain ⟨cw', cols', c'', hs2, hcut2, hc2, hcols2, hwf2, hidx2⟩ := colsStep
  rw [hs2, Option.bind_some]
  apply represents_mk'
  exact ⟨hwf2, ⟨rl', cw', hcut2, rfl, hc', hc2⟩, by rw [hidx2]; exact hidx', hcols2⟩

/-! ### take2d -/

/-- positions meant by an optional request along an axis of length `n` -/
def reqList (n : Nat) : Option Positions → List Nat
  | none => List.range n
  | some p => p.toList

theorem Positions.Valid.mem {n : Nat} {p : Positions} (h : p.Valid n) : ∀ x ∈ p.toList, x < n := by
  cases p with
  | range a b =>
    intro x hx
    simp only [Positions.toList, List.mem_range'_1] at hx
    have := h.2
    omega
  | array ps => exact h

theorem normPositions_req {n : Nat} {p : Option Positions} (hv : ∀ q, p = some q → q.Valid n) :
    reqList n (normPositions n p) = reqList n p := by
  cases p with
  | none => rfl
  | some q =>
    cases q with
    | array ps => rfl
    | range a b =>
      simp only [normPositions]
      split
      · rename_i h
        have hv := hv _ rfl
        simp only [Positions.Valid] at hv
        simp only [reqList, Positions.toList]
        by_cases hn : n = 0
        · subst hn; rw [h]; rfl
        · have : a = 0 := by omega
          subst this
          rw [h, List.range_eq_range']
      · rfl

theorem normPositions_some {n : Nat} {p : Option Positions} {q : Positions}
    (h : normPositions n p = some q) : p = some q := by
  unfold normPositions at h
  split at h
  · split at h
    · cases h
    · exact h
  · exact h

theorem sortedReq_lt {n : Nat} {p : Option Positions} (hv : ∀ q, p = some q → q.Valid n) :
    ∀ x ∈ sortedReq n p, x < n := by
  intro x hx
  cases p with
  | none => simpa [sortedReq] using hx
  | some q =>
    cases q with
    | range a b => exact (hv _ rfl).mem x hx
    | array ps =>
      obtain ⟨q, hq, _, hperm, _⟩ := sortedPositions_pairwise ps
      simp only [sortedReq, sortedList, hq, Positions.toList] at hx
      exact hv _ rfl x (hperm.mem_iff.mp hx)

theorem sortedReq_inOrder {n : Nat} {p : Option Positions} (h : inOrder p = true) :
    sortedReq n p = reqList n p := by
  cases p with
  | none => rfl
  | some q =>
    cases q with
    | range a b => rfl
    | array ps =>
      simp only [inOrder, Bool.or_eq_true, beq_iff_eq] at h
      have hp : ps.Pairwise (· ≤ ·) := by
        rcases h with h | h
        · obtain ⟨x, hx⟩ := List.length_eq_one_iff.mp h
          subst hx; simp
        · exact (nondecreasing_iff ps).mp h
      simp only [sortedReq, sortedList, sortedPositions, (nondecreasing_iff ps).mpr hp, ↓reduceIte,
        reqList]

theorem unsort_req {n : Nat} {p : Option Positions} :
    (∀ o, unsortOrder p = some o → takeList (sortedReq n p) o = reqList n p ∧
      ∀ x ∈ o, x < (sortedReq n p).length) ∧
    (unsortOrder p = none → sortedReq n p = reqList n p) := by
  cases p with
  | none => exact ⟨(by intro o h; cases h), fun _ => rfl⟩
  | some q =>
    cases q with
    | range a b => exact ⟨(by intro o h; cases h), fun _ => rfl⟩
    | array ps =>
      refine ⟨?_, by intro h; cases h⟩
      intro o ho
      simp only [unsortOrder, Option.some.injEq] at ho
      subst ho
      obtain ⟨q, hq, _, hperm, hs⟩ := sortedPositions_pairwise ps
      simp only [sortedReq, sortedList, hq, Positions.toList, reqList]
      rw [hs]
      refine ⟨takeList_argsort_argsort ps, ?_⟩
      intro x hx
      have h1 := (npArgsort_perm (npArgsort ps)).mem_iff.mp hx
      rw [npArgsort_length] at h1
      rw [npSort, sortBy_length]
      simpa using h1

theorem maskThenReorder_spec [DecidableEq ι] [DecidableEq κ] (cfg : Cfg) (hp : 1 ≤ cfg.nPartitions)
    (hmr : 1 ≤ cfg.minRow) (hmc : 1 ≤ cfg.minCol) {m : MFrame ι κ α} {df : Frame ι κ α}
    (h : m.Represents df) {known : Nat → Nat → Bool × Bool} {kn : Bool}
    (hkn : ∀ i j, (known i j).1 = true ∨ (known i j).2 = true → kn = true)
    {rp cp : Option Positions}
    (hrv : ∀ q, rp = some q → q.Valid df.nrows) (hcv : ∀ q, cp = some q → q.Valid df.ncols)
    (hre : ∀ a b, rp = some (.range a b) → a < b)
    (hce : ∀ a b, cp = some (.range a b) → a < b)
    (hrk : kn = true → ∀ q, rp = some q → q.toList.Nodup)
    (hck : kn = true → ∀ q, cp = some q → q.toList.Nodup) :
    ∃ m', maskThenReorder cfg known m rp cp = some m' ∧
      m'.Represents ((df.takeRows (reqList df.nrows rp)).takeCols (reqList df.ncols cp)) := by
  obtain ⟨im, h1, h2⟩ := takeByMask_spec h hkn hrv hcv
    hre hce hrk hck
  unfold maskThenReorder
  rw [h1]
  simp only [Option.bind_some]
  by_cases ho : (inOrder rp && inOrder cp) = true
  · rw [if_pos ho]
    simp only [Bool.and_eq_true] at ho
    rw [sortedReq_inOrder ho.1, sortedReq_inOrder ho.2] at h2
    exact ⟨im, rfl, h2⟩
  · rw [if_neg ho]
    have hsr := sortedReq_lt hrv
    have hsc := sortedReq_lt hcv
    have ur := unsort_req (n := df.nrows) (p := rp)
    have uc := unsort_req (n := df.ncols) (p := cp)
    have nr : ((df.takeRows (sortedReq df.nrows rp)).takeCols (sortedReq df.ncols cp)).nrows
        = (sortedReq df.nrows rp).length := takeList_length hsr
    have nc : ((df.takeRows (sortedReq df.nrows rp)).takeCols (sortedReq df.ncols cp)).ncols
        = (sortedReq df.ncols cp).length := takeList_length hsc
    obtain ⟨m', g1, g2⟩ := reorderLabels_spec cfg hp hmr hmc h2 (rp := unsortOrder rp)
      (cp := unsortOrder cp)
      (by intro o ho x hx; rw [nr]; exact (ur.1 o ho).2 x hx)
      (by intro o ho x hx; rw [nc]; exact (uc.1 o ho).2 x hx)
    refine ⟨m', g1, ?_⟩
    have s1 : ((df.takeRows (sortedReq df.nrows rp)).takeCols (sortedReq df.ncols cp)).takeRows?
        (unsortOrder rp)
        = (df.takeRows (reqList df.nrows rp)).takeCols (sortedReq df.ncols cp) := by
      cases ho : unsortOrder rp with
      | none => simp only [Frame.takeRows?]; rw [ur.2 ho]
      | some o =>
        simp only [Frame.takeRows?]
        rw [Frame.takeRows_takeCols, Frame.takeRows_takeRows h.wf _ hsr, (ur.1 o ho).1]
    rw [s1] at g2
    have s2 : ((df.takeRows (reqList df.nrows rp)).takeCols (sortedReq df.ncols cp)).takeCols?
        (unsortOrder cp)
        = (df.takeRows (reqList df.nrows rp)).takeCols (reqList df.ncols cp) := by
      cases ho : unsortOrder cp with
      | none => simp only [Frame.takeCols?]; rw [uc.2 ho]
      | some o =>
        simp only [Frame.takeCols?]
        rw [Frame.takeCols_takeCols (h.wf.takeRows _) _ hsc, (uc.1 o ho).1]
    rw [s2] at g2
    exact g2

theorem take2d_spec [DecidableEq ι] [DecidableEq κ] (cfg : Cfg) (hp : 1 ≤ cfg.nPartitions)
    (hmr : 1 ≤ cfg.minRow) (hmc : 1 ≤ cfg.minCol) {m : MFrame ι κ α} {df : Frame ι κ α}
    (h : m.Represents df) {known : Nat → Nat → Bool × Bool} {kn : Bool}
    (hkn : ∀ i j, (known i j).1 = true ∨ (known i j).2 = true → kn = true)
    {rows cols : Option Positions}
    (hrv : ∀ q, rows = some q → q.Valid df.nrows) (hcv : ∀ q, cols = some q → q.Valid df.ncols)
    (hre : ∀ a b, rows = some (.range a b) → a < b)
    (hce : ∀ a b, cols = some (.range a b) → a < b)
    (hrk : kn = true → ∀ q, rows = some q → q.toList.Nodup)
    (hck : kn = true → ∀ q, cols = some q → q.toList.Nodup) :
    ∃ m', take2d cfg known m rows cols = some m' ∧
      m'.Represents ((df.takeRows (reqList df.nrows rows)).takeCols (reqList df.ncols cols)) := by
  have er := normPositions_req hrv
  have ec := normPositions_req hcv
  have hi : m.getIndex.length = df.nrows := by rw [h.getIndex]; rfl
  have hcn : m.getColumns.length = df.ncols := by rw [h.getColumns]; rfl
  rw [← er, ← ec]
  unfold take2d
  rw [hi, hcn]
  generalize hrp : normPositions df.nrows rows = rp
  generalize hcp : normPositions df.ncols cols = cp
  have hrs : ∀ q, rp = some q → rows = some q := fun q hq => normPositions_some (hrp.trans hq)
  have hcs : ∀ q, cp = some q → cols = some q := fun q hq => normPositions_some (hcp.trans hq)
  have hrv' : ∀ q, rp = some q → q.Valid df.nrows := fun q hq => hrv q (hrs q hq)
  have hcv' : ∀ q, cp = some q → q.Valid df.ncols := fun q hq => hcv q (hcs q hq)
  have wr : (df.takeRows (List.range df.nrows)) = df := Frame.takeRows_all h.wf
  have wc : (df.takeCols (List.range df.ncols)) = df := Frame.takeCols_all h.wf
  have masked : ∃ m', maskThenReorder cfg known m rp cp = some m' ∧
      m'.Represents ((df.takeRows (reqList df.nrows rp)).takeCols (reqList df.ncols cp)) :=
    maskThenReorder_spec cfg hp hmr hmc h hkn hrv' hcv' (fun a b hq => hre a b (hrs _ hq))
      (fun a b hq => hce a b (hcs _ hq)) (fun hk q hq => hrk hk q (hrs q hq)) (fun hk q hq => hck hk q (hcs q hq))
  by_cases h0 : rp = none ∧ cp = none
  · obtain ⟨rfl, rfl⟩ := h0
    refine ⟨m, by simp, ?_⟩
    simp only [reqList]
    rw [wr, wc]
    exact h
  · simp only
    rw [if_neg h0]
    by_cases hj : jumps df.nrows df.ncols rp cp = true
    · rw [if_pos hj]
      cases rp with
      | none => simp [jumps] at hj
      | some r =>
        cases cp with
        | some c => simp [jumps] at hj
        | none =>
          obtain ⟨m', g1, g2⟩ := reorderLabels_spec cfg hp hmr hmc h (rp := some r.toList) (cp := none)
            (by intro ps hps; cases hps; exact (hrv' r rfl).mem) (by intro ps hps; cases hps)
          refine ⟨m', g1, ?_⟩
          simp only [Frame.takeRows?, Frame.takeCols?] at g2
          simp only [reqList]
          have : (df.takeRows r.toList).ncols = df.ncols := rfl
          rw [← this, Frame.takeCols_all (h.wf.takeRows _)]
          exact g2
    · rw [if_neg hj]
      exact masked

/-! ### the iloc layer -/

theorem filter_interval (n lo hi : Nat) (h : hi ≤ n) :
    (List.range n).filter (fun i => decide (lo ≤ i) && decide (i < hi)) = List.range' lo (hi - lo) := by
  apply sorted_perm_eq
  · exact List.Pairwise.filter _ List.pairwise_le_range
  · exact (List.pairwise_lt_range' (s := lo)).imp (by intro a b h; omega)
  · apply (List.perm_ext_iff_of_nodup (List.Pairwise.filter _ List.nodup_range) List.nodup_range').mpr
    intro x
    simp only [List.mem_filter, List.mem_range, Bool.and_eq_true, decide_eq_true_eq,
      List.mem_range'_1]
    omega

theorem slicePicks_eq (n : Nat) (a b : Option Int) :
    slicePicks n a b
      = List.range' (sliceIndices n a b).1 ((sliceIndices n a b).2 - (sliceIndices n a b).1) := by
  have hb : (sliceIndices n a b).2 ≤ n := by
    unfold sliceIndices
    simp only
    split
    · omega
    · split <;> omega
  rw [← filter_interval n _ _ hb]
  unfold slicePicks
  apply List.filter_congr
  intro i hi
  simp only [List.mem_range] at hi
  rw [Bool.eq_iff_iff]
  simp only [Bool.and_eq_true, decide_eq_true_eq]
  unfold sliceIndices
  cases a with
  | none =>
    cases b with
    | none => simp only; omega
    | some t => simp only; split <;> omega
  | some s =>
    cases b with
    | none => simp only; split <;> omega
    | some t => simp only; split <;> split <;> omega
