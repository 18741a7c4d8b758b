import Verif.Model.Resample
import Verif.Lemmas.Unstack
import Verif.Lemmas.RangePart
import Verif.Lemmas.Describe
/-
Lemmas for C83: resample.
-/

variable {ι κ α β : Type}

/-! ### every column partition for itself -/

theorem resampleBins_local (R : ResampleRule) (agg : List α → β) (B : List Int → Int × List Int) :
    ColumnLocal (fun f : Frame Int κ α => f.resampleBins R agg (B f.index).1 (B f.index).2) := by
  refine ⟨fun f _ => ofCols_wf ?_, fun fs f hwf h => ?_⟩
  · intro c hc
    obtain ⟨e, _, rfl⟩ := List.mem_map.1 hc
    simp
  · obtain ⟨hne, hidx⟩ := Frame.hcat_index h
    have hn := named_hcat hwf h
    let col : κ × List α → κ × List β := fun e => (e.1, (B f.index).2.map fun b => agg (R.cells (B f.index).1 b (f.index.zip e.2)))
    have hmap : fs.map (fun f : Frame Int κ α => f.resampleBins R agg (B f.index).1 (B f.index).2) =
        fs.map fun b => Frame.ofCols ((B f.index).2.map (R.label (B f.index).1)) (b.named.map col) := by
      apply List.map_congr_left
      intro b hb
      unfold Frame.resampleBins
      rw [hidx b hb]
    rw [hmap, Frame.hcat_eq (r := (B f.index).2.map (R.label (B f.index).1)) (by simpa using hne) (by
      intro x hx
      obtain ⟨b, _, rfl⟩ := List.mem_map.1 hx
      rfl)]
    have := stackCols_ofCols ((B f.index).2.map (R.label (B f.index).1)) (fun b : Frame Int κ α => b.named.map col) fs
    unfold Frame.stackCols at this
    rw [this]
    show _ = some (Frame.ofCols _ (f.named.map col))
    rw [hn, ← List.flatMap_def, List.map_flatMap]

theorem resample_local (R : ResampleRule) (agg : List α → β) : ColumnLocal (Frame.resample (κ := κ) R agg) :=
  resampleBins_local R agg R.bins

/-! ### sorting and selecting -/

theorem insertBy_filter_comm {le : α → α → Bool} (htr : ∀ a b c, le a b → le b c → le a c) (p : α → Bool) (x : α) (l : List α)
    (h : l.Pairwise (le · ·)) : (insertBy le x l).filter p = if p x then insertBy le x (l.filter p) else l.filter p := by
  induction l with
  | nil => cases hx : p x <;> simp [insertBy, hx]
  | cons y ys ih =>
    rw [List.pairwise_cons] at h
    show (if le x y = true then x :: y :: ys else y :: insertBy le x ys).filter p = _
    by_cases hxy : le x y = true
    · rw [if_pos hxy, List.filter_cons]
      by_cases hx : p x = true
      · rw [if_pos hx, if_pos hx]
        cases hl : (y :: ys).filter p with
        | nil => simp [insertBy]
        | cons z zs =>
          have hz : z ∈ y :: ys := (List.mem_filter.1 (by rw [hl]; simp : z ∈ (y :: ys).filter p)).1
          show _ = if le x z = true then x :: z :: zs else z :: insertBy le x zs
          rw [if_pos]
          rcases List.mem_cons.1 hz with rfl | hz
          · exact hxy
          · exact htr _ _ _ hxy (h.1 z hz)
      · rw [if_neg hx, if_neg hx]
    · rw [if_neg hxy, List.filter_cons, List.filter_cons, ih h.2]
      by_cases hy : p y = true
      · rw [if_pos hy, if_pos hy]
        by_cases hx : p x = true
        · rw [if_pos hx, if_pos hx]
          show _ = if le x y = true then x :: y :: ys.filter p else y :: insertBy le x (ys.filter p)
          rw [if_neg hxy]
        · rw [if_neg hx, if_neg hx]
      · rw [if_neg hy, if_neg hy]

theorem sortBy_filter_comm {le : α → α → Bool} (htr : ∀ a b c, le a b → le b c → le a c) (htot : ∀ a b, le a b ∨ le b a)
    (p : α → Bool) (l : List α) : (sortBy le l).filter p = sortBy le (l.filter p) := by
  induction l with
  | nil => rfl
  | cons x xs ih =>
    rw [sortBy, insertBy_filter_comm htr p x _ (sortBy_pairwise htr htot xs), ih, List.filter_cons]
    split
    · rfl
    · rfl

theorem cells_sorted (R : ResampleRule) (o b : Int) (cs : List (Int × α)) (q : α → Bool) :
    (R.cells o b cs).filter q =
      (sortBy (fun x y => decide (x.1 ≤ y.1)) (cs.filter fun c => decide (R.bin o c.1 = b) && q c.2)).map (·.2) := by
  unfold ResampleRule.cells
  rw [List.filter_map, List.filter_filter]
  rw [sortBy_filter_comm]
  · congr 2
    apply List.filter_congr
    intro c _
    simp only [Function.comp]
    rw [Bool.and_comm]
  · intro a b c h1 h2
    simp only [decide_eq_true_eq] at *
    omega
  · intro a b
    simp only [decide_eq_true_eq]
    omega

/-! ### whole numbers from one to another -/

theorem intsFrom_append {lo mid hi : Int} (h1 : lo ≤ mid + 1) (h2 : mid ≤ hi) :
    intsFrom lo hi = intsFrom lo mid ++ intsFrom (mid + 1) hi := by
  unfold intsFrom
  have : (hi + 1 - lo).toNat = (mid + 1 - lo).toNat + (hi + 1 - (mid + 1)).toNat := by omega
  rw [this, List.range_add, List.map_append, List.map_map]
  congr 1
  apply List.map_congr_left
  intro i _
  simp only [Function.comp]
  omega

theorem mem_intsFrom {lo hi b : Int} : b ∈ intsFrom lo hi ↔ lo ≤ b ∧ b ≤ hi := by
  unfold intsFrom
  simp only [List.mem_map, List.mem_range]
  constructor
  · rintro ⟨i, hi, rfl⟩
    omega
  · intro h
    exact ⟨(b - lo).toNat, by omega, by omega⟩

theorem intsFrom_filter {lo hi x y : Int} (p : Int → Bool) (hx : lo ≤ x) (hy : y ≤ hi) (hxy : x ≤ y + 1)
    (h : ∀ b, lo ≤ b → b ≤ hi → (p b = true ↔ x ≤ b ∧ b ≤ y)) : intsFrom x y = (intsFrom lo hi).filter p := by
  rw [intsFrom_append (lo := lo) (hi := hi) (mid := x - 1) (by omega) (by omega), intsFrom_append (lo := x - 1 + 1) (hi := hi) (mid := y) (by omega) (by omega),
    List.filter_append, List.filter_append]
  have e1 : (intsFrom lo (x - 1)).filter p = [] := by
    rw [List.filter_eq_nil_iff]
    intro b hb
    have := mem_intsFrom.1 hb
    rw [h b (by omega) (by omega)]
    omega
  have e2 : (intsFrom (y + 1) hi).filter p = [] := by
    rw [List.filter_eq_nil_iff]
    intro b hb
    have := mem_intsFrom.1 hb
    rw [h b (by omega) (by omega)]
    omega
  have e3 : (intsFrom (x - 1 + 1) y).filter p = intsFrom (x - 1 + 1) y := by
    rw [List.filter_eq_self]
    intro b hb
    have := mem_intsFrom.1 hb
    rw [h b (by omega) (by omega)]
    omega
  rw [e1, e2, e3, List.append_nil, List.nil_append, show x - 1 + 1 = x by omega]

theorem intsFrom_shift (lo hi c : Int) : (intsFrom lo hi).map (· + c) = intsFrom (lo + c) (hi + c) := by
  unfold intsFrom
  rw [List.map_map, show hi + c + 1 - (lo + c) = hi + 1 - lo by omega]
  apply List.map_congr_left
  intro i _
  simp only [Function.comp]
  omega

/-! ### bins and edges -/

/-- the time is not on an edge, or the bins are closed on the left -/
def ResampleRule.Clear (R : ResampleRule) (o t : Int) : Prop := R.closedRight = false ∨ ∀ b, t ≠ R.edge o b

theorem edge_le {R : ResampleRule} (hs : 0 < R.step) {o a b : Int} : R.edge o a ≤ R.edge o b ↔ a ≤ b := by
  unfold ResampleRule.edge
  constructor
  · intro h
    exact Int.le_of_mul_le_mul_left (by omega) hs
  · intro h
    have := Int.mul_le_mul_of_nonneg_left h (Int.le_of_lt hs)
    omega

theorem edge_succ (R : ResampleRule) (o b : Int) : R.edge o (b + 1) = R.edge o b + R.step := by
  unfold ResampleRule.edge
  rw [Int.mul_add, Int.mul_one]
  omega

theorem le_bin {R : ResampleRule} (hs : 0 < R.step) {o t : Int} (hc : R.Clear o t) (b : Int) : b ≤ R.bin o t ↔ R.edge o b ≤ t := by
  unfold ResampleRule.bin
  split
  · rename_i h
    have hne : t ≠ R.edge o b := by
      rcases hc with h' | h'
      · rw [h] at h'; cases h'
      · exact h' b
    rw [Int.le_ediv_iff_mul_le hs]
    unfold ResampleRule.edge at *
    rw [Int.mul_comm]
    omega
  · rw [Int.le_ediv_iff_mul_le hs]
    unfold ResampleRule.edge
    rw [Int.mul_comm]
    omega

theorem bin_mono {R : ResampleRule} (hs : 0 < R.step) (o : Int) {t u : Int} (h : t ≤ u) : R.bin o t ≤ R.bin o u := by
  unfold ResampleRule.bin
  split
  · exact Int.ediv_le_ediv hs (by omega)
  · exact Int.ediv_le_ediv hs (by omega)

/-- a time that is neither on an edge nor far from edge number `p` -/
theorem clear_near {R : ResampleRule} (hs : 2 ≤ R.step) (o p : Int) :
    R.Clear o (R.edge o p + 1) ∧ R.Clear o (R.edge o p - 1) := by
  constructor
  · right
    intro b hb
    by_cases h : b ≤ p
    · have := (edge_le (R := R) (o := o) (by omega)).2 h
      omega
    · have := (edge_le (R := R) (o := o) (a := p + 1) (b := b) (by omega)).2 (by omega)
      rw [edge_succ] at this
      omega
  · right
    intro b hb
    by_cases h : p ≤ b
    · have := (edge_le (R := R) (o := o) (by omega)).2 h
      omega
    · have := (edge_le (R := R) (o := o) (a := b + 1) (b := p) (by omega)).2 (by omega)
      rw [edge_succ] at this
      omega

theorem bin_near {R : ResampleRule} (hs : 2 ≤ R.step) (o p : Int) :
    R.bin o (R.edge o p + 1) = p ∧ R.bin o (R.edge o p - 1) = p - 1 := by
  have hs0 : 0 < R.step := by omega
  obtain ⟨c1, c2⟩ := clear_near hs o p
  constructor
  · have h1 := (le_bin hs0 c1 p).2 (by omega)
    have h2 := le_bin hs0 c1 (p + 1)
    rw [edge_succ] at h2
    omega
  · have h2 := le_bin hs0 c2 p
    have h3 := le_bin hs0 c2 (p - 1)
    have := edge_succ R o (p - 1)
    rw [show p - 1 + 1 = p by omega] at this
    omega

/-! ### moving the origin by whole steps -/

theorem bin_shift {R : ResampleRule} (hs : 0 < R.step) (o c t : Int) : R.bin (o + R.step * c) t = R.bin o t - c := by
  unfold ResampleRule.bin
  have e : ∀ x : Int, (x - R.step * c) / R.step = x / R.step - c := by
    intro x
    rw [show x - R.step * c = x + R.step * (-c) by rw [Int.mul_neg]; omega, Int.add_mul_ediv_left _ _ (by omega)]
    omega
  split
  · rw [← e]; congr 1; omega
  · rw [← e]; congr 1; omega

theorem edge_shift (R : ResampleRule) (o c b : Int) : R.edge (o + R.step * c) b = R.edge o (b + c) := by
  unfold ResampleRule.edge
  rw [Int.mul_add]
  omega

theorem resampleBins_shift {R : ResampleRule} (hs : 0 < R.step) (agg : List α → β) (o c : Int) (bs : List Int) (df : Frame Int κ α) :
    df.resampleBins R agg (o + R.step * c) bs = df.resampleBins R agg o (bs.map (· + c)) := by
  unfold Frame.resampleBins
  congr 1
  · rw [List.map_map]
    apply List.map_congr_left
    intro b _
    simp only [Function.comp, ResampleRule.label]
    rw [edge_shift]
    congr 1
    split <;> omega
  · apply List.map_congr_left
    intro e _
    rw [List.map_map]
    congr 1
    apply List.map_congr_left
    intro b _
    simp only [Function.comp]
    congr 1
    unfold ResampleRule.cells
    congr 1
    apply List.filter_congr
    intro x _
    rw [bin_shift hs]
    congr 1
    apply propext
    omega

/-! ### ranges of bins -/

/-- the number of the range a bin is in -/
def binCode (qs : List Int) (b : Int) : Nat := (qs.filter fun q => decide (q ≤ b)).length

theorem binCode_lt {qs : List Int} (h : qs.Pairwise (· ≤ ·)) (b : Int) : ∀ j (hj : j < qs.length), qs[j] ≤ b ↔ j < binCode qs b := by
  unfold binCode
  induction qs with
  | nil => intro j hj; simp at hj
  | cons q qs ih =>
    rw [List.pairwise_cons] at h
    intro j hj
    rw [List.filter_cons]
    by_cases hq : q ≤ b
    · rw [if_pos (by simpa using hq)]
      cases j with
      | zero => simp [hq]
      | succ j =>
        simp only [List.getElem_cons_succ, List.length_cons]
        rw [ih h.2 j (by simpa using hj)]
        omega
    · rw [if_neg (by simpa using hq)]
      have hnil : qs.filter (fun q => decide (q ≤ b)) = [] := by
        rw [List.filter_eq_nil_iff]
        intro x hx
        have := h.1 x hx
        simp only [decide_eq_true_eq]
        omega
      rw [hnil]
      cases j with
      | zero => simpa using hq
      | succ j =>
        have := h.1 _ (List.getElem_mem (by simpa using hj : j < qs.length))
        simp only [List.getElem_cons_succ, List.length_nil, Nat.not_lt_zero, iff_false]
        omega

theorem binCode_le (qs : List Int) (b : Int) : binCode qs b ≤ qs.length := List.length_filter_le _ _

theorem binCode_mono {qs : List Int} (hq : qs.Pairwise (· ≤ ·)) (a c : Int) (hac : a ≤ c) : binCode qs a ≤ binCode qs c := by
  by_cases hlt : binCode qs c < binCode qs a
  · have hl := binCode_le qs a
    have e1 := (binCode_lt hq a (binCode qs c) (by omega)).2 hlt
    have e2 := binCode_lt hq c (binCode qs c) (by omega)
    omega
  · omega

theorem code_bin {R : ResampleRule} (hs : 0 < R.step) {o t : Int} (hc : R.Clear o t) (qs : List Int) :
    resampleCode (qs.map (R.edge o)) t = binCode qs (R.bin o t) := by
  unfold resampleCode binCode
  rw [List.filter_map, List.length_map]
  congr 1
  apply List.filter_congr
  intro q _
  simp only [Function.comp]
  congr 1
  exact propext (le_bin hs hc q).symm

/-- the bins of a range are those from the first to the last of its times, if its times reach to both ends -/
theorem range_bins {lo hi : Int} {k : Nat} {qs : List Int} (bs : List Int) (x y : Int) (hx : x ∈ bs) (hy : y ∈ bs)
    (hmin : ∀ b ∈ bs, x ≤ b) (hmax : ∀ b ∈ bs, b ≤ y) (hq : qs.Pairwise (· ≤ ·))
    (h1 : ∀ b ∈ bs, lo ≤ b ∧ b ≤ hi ∧ binCode qs b = k)
    (h2 : ∀ b, lo ≤ b → b ≤ hi → binCode qs b = k → (∃ u ∈ bs, u ≤ b) ∧ ∃ v ∈ bs, b ≤ v) :
    intsFrom x y = (intsFrom lo hi).filter fun b => decide (binCode qs b = k) := by
  obtain ⟨x1, x2, x3⟩ := h1 x hx
  obtain ⟨y1, y2, y3⟩ := h1 y hy
  have := hmin y hy
  refine intsFrom_filter _ x1 y2 (by omega) fun b b1 b2 => ?_
  simp only [decide_eq_true_eq]
  constructor
  · intro hb
    obtain ⟨⟨u, u1, u2⟩, v, v1, v2⟩ := h2 b b1 b2 hb
    have := hmin u u1
    have := hmax v v1
    omega
  · rintro ⟨b3, b4⟩
    have mono := binCode_mono hq
    have m1 := mono x b b3
    have m2 := mono b y b4
    omega

/-! ### columns of records -/

theorem records_column (j : Nat) (rs : List (Int × List α)) (h : ∀ r ∈ rs, j < r.2.length) :
    (rs.map (·.1)).zip ((rs.map (·.2)).filterMap (·[j]?)) = rs.filterMap fun r => r.2[j]?.map fun x => (r.1, x) := by
  induction rs with
  | nil => rfl
  | cons r rs ih =>
    have hr := h r (by simp)
    have ih := ih fun r hr => h r (by simp [hr])
    simp only [List.map_cons, List.filterMap_cons, List.getElem?_eq_getElem hr, Option.map_some, List.zip_cons_cons]
    rw [ih]

theorem resampleBins_columns (R : ResampleRule) (agg : List α → β) (o : Int) (bins : List Int) (df : Frame Int κ α) :
    df.resampleBins R agg o bins = Frame.ofCols (bins.map (R.label o)) (df.columns.zip ((List.range df.ncols).map fun j =>
      bins.map fun b => agg (R.cells o b (df.index.zip (df.column j))))) := by
  unfold Frame.resampleBins Frame.named Frame.cols
  rw [List.zip_map_right, List.zip_map_right, List.map_map]
  rfl

/-- the frame of the bins, row by row -/
theorem resampleBins_records (R : ResampleRule) (agg : List α → β) (o : Int) (bins : List Int) (df : Frame Int κ α) :
    df.resampleBins R agg o bins = Frame.ofRecords df.columns
      (bins.map fun b => (R.label o b, df.named.map fun e => agg (R.cells o b (df.index.zip e.2)))) := by
  have e := ofCols_table bins df.named (fun e => e.1) fun e b => agg (R.cells o b (df.index.zip e.2))
  have er := congrArg Frame.rows e
  have ec := congrArg Frame.columns e
  unfold Frame.resampleBins Frame.ofRecords
  unfold Frame.ofCols at er ec ⊢
  simp only at er ec ⊢
  rw [List.length_map, er, ec]
  congr 1
  · rw [List.map_map]; rfl
  · exact named_labels df
  · rw [List.map_map]; rfl

/-- rows outside the bins, and rows of missing cells, do not matter -/
theorem resampleBins_part (R : ResampleRule) (agg : List α → β) (isna : α → Bool) (nan : α) (hnan : isna nan = true)
    (hagg : ∀ l, agg (l.filter fun x => !isna x) = agg l) (o : Int) (bins : List Int) (df : Frame Int κ α) (h : df.WF)
    (p : Int × List α → Bool) (ts : List Int) (hp : ∀ r ∈ df.records, R.bin o r.1 ∈ bins → p r = true) :
    (Frame.ofRecords df.columns (df.records.filter p ++ ts.map fun t => (t, List.replicate df.columns.length nan))).resampleBins
      R agg o bins = df.resampleBins R agg o bins := by
  rw [resampleBins_columns, resampleBins_columns]
  congr 2
  apply List.map_congr_left
  intro j hj
  have hj' : j < df.columns.length := List.mem_range.1 hj
  apply List.map_congr_left
  intro b hb
  have hw : ∀ r ∈ df.records, j < r.2.length := by
    intro r hr
    rw [h.records_width hr]
    exact hj'
  have e1 : df.index.zip (df.column j) = df.records.filterMap fun r => r.2[j]?.map fun x => (r.1, x) := by
    rw [← records_column j _ hw]
    unfold Frame.records Frame.column
    rw [List.map_fst_zip (Nat.le_of_eq h.rows_len.symm), List.map_snd_zip (Nat.le_of_eq h.rows_len)]
  rw [e1]
  unfold Frame.ofRecords Frame.column
  simp only
  rw [records_column]
  · rw [← hagg, ← hagg (R.cells o b _), cells_sorted, cells_sorted]
    congr 3
    rw [List.filterMap_append, List.filter_append]
    have e2 : List.filter (fun c => decide (R.bin o c.1 = b) && !isna c.2)
        ((ts.map fun t => (t, List.replicate df.columns.length nan)).filterMap fun r => r.2[j]?.map fun x => (r.1, x)) = [] := by
      rw [List.filter_eq_nil_iff]
      intro c hc
      obtain ⟨r, hr, hc⟩ := List.mem_filterMap.1 hc
      obtain ⟨t, _, rfl⟩ := List.mem_map.1 hr
      simp only [List.getElem?_replicate, hj', ↓reduceIte, Option.map_some, Option.some.injEq] at hc
      subst hc
      simp [hnan]
    rw [e2, List.append_nil]
    generalize hrs : df.records = rs at hp
    clear hrs e1 e2 hw
    induction rs with
    | nil => rfl
    | cons r rs ih =>
      have ih := ih fun r hr => hp r (by simp [hr])
      rw [List.filter_cons]
      split
      · rw [List.filterMap_cons, List.filterMap_cons]
        cases r.2[j]?.map fun x => (r.1, x) with
        | none => exact ih
        | some v =>
          simp only
          rw [List.filter_cons, List.filter_cons, ih]
      · rename_i hpr
        rw [ih, List.filterMap_cons]
        cases hv : r.2[j]? with
        | none => rfl
        | some v =>
          simp only [Option.map_some]
          rw [List.filter_cons, if_neg]
          intro hc
          simp only [Bool.and_eq_true, decide_eq_true_eq] at hc
          exact hpr (hp r (by simp) (hc.1 ▸ hb))
  · intro r hr
    rcases List.mem_append.1 hr with hr | hr
    · exact hw r (List.mem_filter.1 hr).1
    · obtain ⟨t, _, rfl⟩ := List.mem_map.1 hr
      simpa using hj'

/-! ### one range -/

theorem resample_of_bounds {R : ResampleRule} (hs : 0 < R.step) (agg : List α → β) (o : Int) (f : Frame Int κ α) {a z : Int}
    (ha : f.index.min? = some a) (hz : f.index.max? = some z) (hor : ∃ c, R.origin a z = o + R.step * c) :
    f.resample R agg = f.resampleBins R agg o (intsFrom (R.bin o a) (R.bin o z)) := by
  obtain ⟨c, hc⟩ := hor
  unfold Frame.resample ResampleRule.bins
  rw [ha, hz]
  simp only
  rw [hc, resampleBins_shift hs, intsFrom_shift, bin_shift hs, bin_shift hs, Int.sub_add_cancel, Int.sub_add_cancel]

/-- the whole number of the range, the bins of it and the times of it -/
theorem range_kernel {R : ResampleRule} (hs : 2 ≤ R.step) (agg : List α → β) (isna : α → Bool) (nan : α) (hnan : isna nan = true)
    (hagg : ∀ l, agg (l.filter fun x => !isna x) = agg l) (o : Int) (hor : ∀ a z, ∃ c, R.origin a z = o + R.step * c)
    (df : Frame Int κ α) (h : df.WF) (hclear : ∀ t ∈ df.index, R.Clear o t) {a z : Int} (ha : df.index.min? = some a)
    (hz : df.index.max? = some z) (qs : List Int) (hq : qs.Pairwise (· ≤ ·)) (hqhi : ∀ q ∈ qs, R.bin o a ≤ q ∧ q ≤ R.bin o z + 1) (k : Nat)
    (hk : k ≤ qs.length) :
    resampleRangeKernel R agg nan (resampleBounds (qs.map (R.edge o)) k)
      (Frame.ofRecords df.columns (df.records.filter fun r => decide (resampleCode (qs.map (R.edge o)) r.1 = k))) =
    df.resampleBins R agg o ((intsFrom (R.bin o a) (R.bin o z)).filter fun b =>
      decide (binCode qs b = k) && df.index.any fun t => decide (binCode qs (R.bin o t) = k)) := by
  have hs0 : 0 < R.step := by omega
  have hrec : ∀ r ∈ df.records, r.1 ∈ df.index := fun r hr => (List.of_mem_zip (a := r.1) (b := r.2) hr).1
  have hcode : ∀ t ∈ df.index, resampleCode (qs.map (R.edge o)) t = binCode qs (R.bin o t) :=
    fun t ht => code_bin hs0 (hclear t ht) qs
  have ha' := List.min?_eq_some_iff.1 ha
  have hz' := List.max?_eq_some_iff.1 hz
  generalize hP : (fun r : Int × List α => decide (resampleCode (qs.map (R.edge o)) r.1 = k)) = P
  by_cases hany : df.index.any (fun t => decide (binCode qs (R.bin o t) = k)) = true
  · -- the range has a row
    obtain ⟨t0, ht0, hk0⟩ := List.any_eq_true.1 hany
    have hk0 : binCode qs (R.bin o t0) = k := of_decide_eq_true hk0
    have hr0 : ∃ r0 ∈ df.records, r0.1 = t0 := by
      have : t0 ∈ df.records.map (·.1) := by
        unfold Frame.records
        rw [List.map_fst_zip (Nat.le_of_eq h.rows_len.symm)]
        exact ht0
      obtain ⟨r, hr, e⟩ := List.mem_map.1 this
      exact ⟨r, hr, e⟩
    obtain ⟨r0, hr0, hrt⟩ := hr0
    have hP0 : P r0 = true := by
      rw [← hP]
      simp only [decide_eq_true_eq]
      rw [hrt, hcode t0 ht0, hk0]
    have hne : ¬ (Frame.ofRecords df.columns (df.records.filter P)).index = [] := by
      intro e
      have : r0.1 ∈ (Frame.ofRecords df.columns (df.records.filter P)).index :=
        List.mem_map.2 ⟨r0, List.mem_filter.2 ⟨hr0, hP0⟩, rfl⟩
      rw [e] at this
      simp at this
    unfold resampleRangeKernel
    rw [if_neg hne, Frame.records_ofRecords]
    generalize hbd : resampleBounds (qs.map (R.edge o)) k = bd
    show (Frame.ofRecords df.columns (df.records.filter P ++
      bd.map fun t => (t, List.replicate df.columns.length nan))).resample R agg = _
    let L : List Int := (Frame.ofRecords df.columns (df.records.filter P ++
      bd.map fun t => (t, List.replicate df.columns.length nan))).index
    have hL : L = (df.records.filter P).map (·.1) ++ bd := by
      show List.map _ _ = _
      rw [List.map_append, List.map_map]
      congr 1
      exact List.map_id _
    have hbounds : ∀ t ∈ bd, R.bin o a ≤ R.bin o t ∧ R.bin o t ≤ R.bin o z ∧
        binCode qs (R.bin o t) = k := by
      have hlo : R.bin o a ≤ R.bin o t0 := bin_mono hs0 o (ha'.2 t0 ht0)
      have hhi : R.bin o t0 ≤ R.bin o z := bin_mono hs0 o (hz'.2 t0 ht0)
      intro t ht
      rw [← hbd] at ht
      unfold resampleBounds at ht
      rcases List.mem_append.1 ht with ht | ht
      · split at ht
        · simp at ht
        · rename_i hk1
          have hk2 : k - 1 < qs.length := by omega
          simp only [List.getElem?_map, List.getElem?_eq_getElem hk2, Option.map_some, Option.toList_some, List.mem_singleton] at ht
          subst ht
          rw [(bin_near hs o qs[k-1]).1]
          have c1 := (binCode_lt hq (R.bin o t0) (k - 1) hk2).2 (by omega)
          have c2 := (binCode_lt hq qs[k-1] (k - 1) hk2).1 (Int.le_refl _)
          have c3 : binCode qs qs[k-1] ≤ k := by
            by_cases hk3 : k < qs.length
            · have d1 := binCode_lt hq (R.bin o t0) k hk3
              have d2 := binCode_lt hq qs[k-1] k hk3
              omega
            · have := binCode_le qs qs[k-1]
              omega
          exact ⟨(hqhi _ (List.getElem_mem hk2)).1, by omega, by omega⟩
      · by_cases hk2 : k < qs.length
        · simp only [List.getElem?_map, List.getElem?_eq_getElem hk2, Option.map_some, Option.toList_some, List.mem_singleton] at ht
          subst ht
          rw [(bin_near hs o qs[k]).2]
          have c1 := binCode_lt hq (R.bin o t0) k hk2
          have c2 := binCode_lt hq (qs[k] - 1) k hk2
          have c4 := hqhi qs[k] (List.getElem_mem hk2)
          have c3 : k ≤ binCode qs (qs[k] - 1) := by
            by_cases hk3 : k = 0
            · omega
            · have d1 := binCode_lt hq (R.bin o t0) (k - 1) (by omega)
              have d2 := binCode_lt hq (qs[k] - 1) (k - 1) (by omega)
              omega
          refine ⟨by omega, by omega, by omega⟩
        · rw [List.getElem?_eq_none (by simpa using Nat.le_of_not_lt hk2)] at ht
          simp at ht
    have hLk : ∀ t ∈ L, R.bin o a ≤ R.bin o t ∧ R.bin o t ≤ R.bin o z ∧ binCode qs (R.bin o t) = k := by
      intro t ht
      rw [hL] at ht
      rcases List.mem_append.1 ht with ht | ht
      · obtain ⟨r, hr, rfl⟩ := List.mem_map.1 ht
        obtain ⟨hr1, hr2⟩ := List.mem_filter.1 hr
        have hi := hrec r hr1
        refine ⟨bin_mono hs0 o (ha'.2 _ hi), bin_mono hs0 o (hz'.2 _ hi), ?_⟩
        rw [← hcode _ hi]
        rw [← hP] at hr2
        exact of_decide_eq_true hr2
      · exact hbounds t ht
    have hin : ∀ t ∈ df.index, binCode qs (R.bin o t) = k → t ∈ L := by
      intro t ht hk
      have : t ∈ df.records.map (·.1) := by
        unfold Frame.records
        rw [List.map_fst_zip (Nat.le_of_eq h.rows_len.symm)]
        exact ht
      obtain ⟨r, hr, rfl⟩ := List.mem_map.1 this
      rw [hL]
      refine List.mem_append_left _ (List.mem_map.2 ⟨r, List.mem_filter.2 ⟨hr, ?_⟩, rfl⟩)
      rw [← hP]
      simp only [decide_eq_true_eq]
      rw [hcode _ ht, hk]
    have hmono : ∀ x y : Int, x ≤ y → binCode qs x ≤ binCode qs y := binCode_mono hq
    have hL0 : t0 ∈ L := hin t0 ht0 hk0
    obtain ⟨a1, ea⟩ : ∃ a1, L.min? = some a1 := by
      cases e : L.min? with
      | some a1 => exact ⟨a1, rfl⟩
      | none => rw [List.min?_eq_none_iff] at e; rw [e] at hL0; simp at hL0
    obtain ⟨z1, ez⟩ : ∃ z1, L.max? = some z1 := by
      cases e : L.max? with
      | some z1 => exact ⟨z1, rfl⟩
      | none => rw [List.max?_eq_none_iff] at e; rw [e] at hL0; simp at hL0
    obtain ⟨c, hc⟩ := hor a1 z1
    rw [resample_of_bounds hs0 agg o _ ea ez ⟨c, hc⟩]
    obtain ⟨a2, a3⟩ := List.min?_eq_some_iff.1 ea
    obtain ⟨z2, z3⟩ := List.max?_eq_some_iff.1 ez
    have hrange := range_bins (lo := R.bin o a) (hi := R.bin o z) (k := k) (qs := qs) (L.map (R.bin o)) (R.bin o a1) (R.bin o z1)
      (List.mem_map.2 ⟨a1, a2, rfl⟩) (List.mem_map.2 ⟨z1, z2, rfl⟩)
      (by intro b hb; obtain ⟨t, ht, rfl⟩ := List.mem_map.1 hb; exact bin_mono hs0 o (a3 t ht))
      (by intro b hb; obtain ⟨t, ht, rfl⟩ := List.mem_map.1 hb; exact bin_mono hs0 o (z3 t ht)) hq
      (by intro b hb; obtain ⟨t, ht, rfl⟩ := List.mem_map.1 hb; exact hLk t ht)
      (by
        intro b hb1 hb2 hbk
        constructor
        · by_cases hk3 : k = 0
          · refine ⟨_, List.mem_map.2 ⟨a, hin a ha'.1 ?_, rfl⟩, hb1⟩
            have := hmono _ _ hb1
            omega
          · have hk2 : k - 1 < qs.length := by omega
            refine ⟨_, List.mem_map.2 ⟨R.edge o qs[k-1] + 1, ?_, rfl⟩, ?_⟩
            · rw [hL, ← hbd]
              apply List.mem_append_right
              unfold resampleBounds
              rw [if_neg hk3]
              apply List.mem_append_left
              simp [List.getElem?_map, List.getElem?_eq_getElem hk2]
            · rw [(bin_near hs o qs[k-1]).1]
              exact (binCode_lt hq b (k - 1) hk2).2 (by omega)
        · by_cases hk2 : k < qs.length
          · refine ⟨_, List.mem_map.2 ⟨R.edge o qs[k] - 1, ?_, rfl⟩, ?_⟩
            · rw [hL, ← hbd]
              apply List.mem_append_right
              unfold resampleBounds
              apply List.mem_append_right
              simp [List.getElem?_map, List.getElem?_eq_getElem hk2]
            · rw [(bin_near hs o qs[k]).2]
              have := binCode_lt hq b k hk2
              omega
          · refine ⟨_, List.mem_map.2 ⟨z, hin z hz'.1 ?_, rfl⟩, hb2⟩
            have := hmono _ _ hb2
            have := binCode_le qs (R.bin o z)
            omega)
    rw [hrange]
    simp only [hany, Bool.and_true]
    apply resampleBins_part R agg isna nan hnan hagg o _ df h
    intro r hr hb
    have := of_decide_eq_true (List.mem_filter.1 hb).2
    rw [← hP]
    simp only [decide_eq_true_eq]
    rw [hcode _ (hrec r hr), this]
  · -- no row
    have hnil : df.records.filter P = [] := by
      rw [List.filter_eq_nil_iff]
      intro r hr hp
      apply hany
      rw [List.any_eq_true]
      refine ⟨r.1, hrec r hr, ?_⟩
      rw [← hP] at hp
      rw [← hcode _ (hrec r hr)]
      exact hp
    unfold resampleRangeKernel
    rw [hnil, if_pos (show (Frame.ofRecords df.columns ([] : List (Int × List α))).index = [] from rfl)]
    have hf : (intsFrom (R.bin o a) (R.bin o z)).filter (fun b =>
        decide (binCode qs b = k) && df.index.any fun t => decide (binCode qs (R.bin o t) = k)) = [] := by
      rw [List.filter_eq_nil_iff]
      intro b _ hb
      rw [Bool.and_eq_true] at hb
      exact hany hb.2
    rw [hf, resampleBins_records]
    show Frame.resampleBins R agg 0 [] _ = _
    rw [resampleBins_records]
    rfl

/-! ### all ranges -/

theorem filter_codes (code : Int → Nat) (n : Nat) (l : List Int) (h : l.Pairwise fun x y => code x ≤ code y) :
    l.filter (fun x => decide (code x < n + 1)) = l.filter (fun x => decide (code x < n)) ++ l.filter fun x => decide (code x = n) := by
  induction l with
  | nil => rfl
  | cons x l ih =>
    rw [List.pairwise_cons] at h
    rw [List.filter_cons, List.filter_cons, List.filter_cons, ih h.2]
    by_cases h1 : code x < n
    · rw [if_pos (by simp; omega), if_pos (by simpa using h1), if_neg (by simp; omega)]
      rfl
    · have hn : l.filter (fun x => decide (code x < n)) = [] := by
        rw [List.filter_eq_nil_iff]
        intro y hy
        have := h.1 y hy
        simp only [decide_eq_true_eq]
        omega
      rw [hn]
      by_cases h2 : code x = n
      · rw [if_pos (by simp; omega), if_neg (by simpa using h1), if_pos (by simpa using h2)]
        rfl
      · rw [if_neg (by simp; omega), if_neg (by simpa using h1), if_neg (by simpa using h2)]

theorem flatMap_codes (code : Int → Nat) (l : List Int) (h : l.Pairwise fun x y => code x ≤ code y) (n : Nat) :
    ((List.range n).flatMap fun k => l.filter fun x => decide (code x = k)) = l.filter fun x => decide (code x < n) := by
  induction n with
  | zero => simp
  | succ n ih =>
    rw [List.range_succ, List.flatMap_append, ih, filter_codes code n l h]
    simp

theorem intsFrom_pairwise (lo hi : Int) : (intsFrom lo hi).Pairwise (· ≤ ·) := by
  unfold intsFrom
  rw [List.pairwise_map]
  exact List.Pairwise.imp (fun h => by omega) List.pairwise_lt_range

theorem vcat_split [DecidableEq κ] {df : Frame Int κ α} (h : df.WF) {rl cw : List Nat} (hc : df.IsCut rl cw) (p : Int × List α → Bool) :
    Frame.vcat ((bandsOf rl df).map fun f => Frame.ofRecords f.columns (f.records.filter p)) =
      some (Frame.ofRecords df.columns (df.records.filter p)) := by
  have hb := bandsOf_wf h rl
  rw [Frame.vcat_eq (c := df.columns) (by simpa using bandsOf_ne hc.rl_ne df)]
  · have hz : ((bandsOf rl df).flatMap fun b => b.records) = df.records := bandsOf_zip h hc.rl_sum
    rw [← hz, List.filter_flatMap]
    unfold Frame.ofRecords
    congr 2
    · simp [List.map_flatMap, List.flatMap_def, List.map_map, Function.comp_def]
    · simp [List.map_flatMap, List.flatMap_def, List.map_map, Function.comp_def]
  · intro x hx
    obtain ⟨f, hf, rfl⟩ := List.mem_map.1 hx
    exact (hb f hf).2

theorem pivots_edges (R : ResampleRule) (ideal : Nat) (a z : Int) (h : R.bin (R.origin a z) a ≤ R.bin (R.origin a z) z) :
    ∃ qs : List Int, resamplePivots R ideal a z = qs.map (R.edge (R.origin a z)) ∧ qs.Pairwise (· ≤ ·) ∧ qs.length = ideal - 1 ∧
      ∀ q ∈ qs, R.bin (R.origin a z) a ≤ q ∧ q ≤ R.bin (R.origin a z) z + 1 := by
  generalize hN : (R.bin (R.origin a z) z + 2 - R.bin (R.origin a z) a).toNat = N
  refine ⟨(List.range (ideal - 1)).map fun (i : Nat) => R.bin (R.origin a z) a + ((N * (i + 1) / ideal : Nat) : Int), ?_, ?_, by simp, ?_⟩
  · unfold resamplePivots
    rw [hN, List.map_map]
    rfl
  · rw [List.pairwise_map]
    refine List.Pairwise.imp (fun {i j} hij => ?_) List.pairwise_lt_range
    have : N * (i + 1) / ideal ≤ N * (j + 1) / ideal := Nat.div_le_div_right (Nat.mul_le_mul_left _ (by omega))
    omega
  · intro q hq
    obtain ⟨i, hi, rfl⟩ := List.mem_map.1 hq
    have hi := List.mem_range.1 hi
    have h0 : (0 : Int) ≤ ((N * (i + 1) / ideal : Nat) : Int) := Int.natCast_nonneg _
    refine ⟨by omega, ?_⟩
    have : N * (i + 1) / ideal < N := by
      rw [Nat.div_lt_iff_lt_mul (by omega)]
      exact Nat.mul_lt_mul_of_pos_left (by omega) (by omega)
    omega

/-- the range partitions: a frame of the bins of the ranges that hold a row -/
theorem resampleShuffle_spec [DecidableEq κ] {R : ResampleRule} (hs : 2 ≤ R.step) (agg : List α → β) (isna : α → Bool) (nan : α)
    (hnan : isna nan = true) (hagg : ∀ l, agg (l.filter fun x => !isna x) = agg l)
    (hor : ∀ a b c d, R.step ∣ R.origin a b - R.origin c d) {df : Frame Int κ α} (h : df.WF) (hne : df.index ≠ [])
    (hclear : ∀ t ∈ df.index, R.Clear (R.bins df.index).1 t) {rl cw : List Nat} (hc : df.IsCut rl cw) (ideal : Nat) :
    ∃ keep : Int → Bool, (∀ t ∈ df.index, keep (R.bin (R.bins df.index).1 t) = true) ∧
    ∃ parts, resampleShuffle R agg nan ideal (df.cut rl cw) = some parts ∧
      MFrame.Represents { parts := parts, index := none, columns := none, rowLens := none, colWidths := none }
        (df.resampleBins R agg (R.bins df.index).1 ((R.bins df.index).2.filter keep)) := by
  have hs0 : 0 < R.step := by omega
  obtain ⟨a, ea⟩ : ∃ a, df.index.min? = some a := by
    cases e : df.index.min? with
    | some a => exact ⟨a, rfl⟩
    | none => exact absurd (List.min?_eq_none_iff.1 e) hne
  obtain ⟨z, ez⟩ : ∃ z, df.index.max? = some z := by
    cases e : df.index.max? with
    | some z => exact ⟨z, rfl⟩
    | none => exact absurd (List.max?_eq_none_iff.1 e) hne
  have ha := List.min?_eq_some_iff.1 ea
  have hz := List.max?_eq_some_iff.1 ez
  have hbins : R.bins df.index = (R.origin a z, intsFrom (R.bin (R.origin a z) a) (R.bin (R.origin a z) z)) := by
    unfold ResampleRule.bins
    rw [ea, ez]
  rw [hbins] at hclear ⊢
  simp only at hclear ⊢
  obtain ⟨qs, hqs, hq, hlen, hqr⟩ := pivots_edges R ideal a z (bin_mono hs0 _ (ha.2 z hz.1))
  generalize ho : R.origin a z = o at *
  have hor' : ∀ a' z', ∃ c, R.origin a' z' = o + R.step * c := by
    intro a' z'
    obtain ⟨c, hc⟩ := hor a' z' a z
    exact ⟨c, by rw [ho] at hc; omega⟩
  refine ⟨fun b => df.index.any fun t => decide (binCode qs (R.bin o t) = binCode qs b), ?_, ?_⟩
  · intro t ht
    rw [List.any_eq_true]
    exact ⟨t, ht, by simp⟩
  · unfold resampleShuffle
    rw [mapM_hcat_cut h hc, Option.bind_some, bandsOf_index hc, ea, Option.bind_some, ez, Option.bind_some, hqs]
    have hcb : colBlocks ((bandsOf rl df).map (resampleSplit (qs.map (R.edge o)))) =
        (List.range (qs.length + 1)).map fun k => (bandsOf rl df).map fun f =>
          Frame.ofRecords f.columns (f.records.filter fun r => decide (resampleCode (qs.map (R.edge o)) r.1 = k)) := by
      rw [← colBlocks_matrix (bandsOf rl df) (List.range (qs.length + 1)) _ (bandsOf_ne hc.rl_ne df)]
      unfold resampleSplit
      rw [List.length_map]
    rw [hcb]
    have hzi : ((List.range (qs.length + 1)).map fun k => (bandsOf rl df).map fun f : Frame Int κ α =>
          Frame.ofRecords f.columns (f.records.filter fun r => decide (resampleCode (qs.map (R.edge o)) r.1 = k))).zipIdx =
        (List.range (qs.length + 1)).map fun k => ((bandsOf rl df).map fun f =>
          Frame.ofRecords f.columns (f.records.filter fun r => decide (resampleCode (qs.map (R.edge o)) r.1 = k)), k) := by
      apply List.ext_getElem
      · simp
      · intro i h1 h2
        simp
    rw [hzi]
    let B := intsFrom (R.bin o a) (R.bin o z)
    let sel : Nat → List Int := fun k => B.filter fun b =>
      decide (binCode qs b = k) && df.index.any fun t => decide (binCode qs (R.bin o t) = k)
    let row : Int → Int × List β := fun b => (R.label o b, df.named.map fun e => agg (R.cells o b (df.index.zip e.2)))
    have hm : ((List.range (qs.length + 1)).map fun k => ((bandsOf rl df).map fun f : Frame Int κ α =>
          Frame.ofRecords f.columns (f.records.filter fun r => decide (resampleCode (qs.map (R.edge o)) r.1 = k)), k)).mapM
        (fun pk => (Frame.vcat pk.1).map fun b => [resampleRangeKernel R agg nan (resampleBounds (qs.map (R.edge o)) pk.2) b]) =
        some ((List.range (qs.length + 1)).map fun k => [df.resampleBins R agg o (sel k)]) := by
      apply mapM_map_some
      intro k hk
      have hk' : k ≤ qs.length := by
        have := List.mem_range.1 hk
        omega
      simp only
      rw [vcat_split h hc, Option.map_some,
        range_kernel hs agg isna nan hnan hagg o hor' df h hclear ea ez qs hq hqr k hk']
    rw [hm]
    refine ⟨_, rfl, ?_⟩
    have hrep := represents_column (c := df.columns) (ls := (List.range (qs.length + 1)).map fun k => (sel k).map row)
      (by simp) (by
        intro l hl r hr
        obtain ⟨k, _, rfl⟩ := List.mem_map.1 hl
        obtain ⟨b, _, rfl⟩ := List.mem_map.1 hr
        show (df.named.map _).length = _
        rw [List.length_map, ← named_labels df, List.length_map])
      (parts := (List.range (qs.length + 1)).map fun k => [df.resampleBins R agg o (sel k)])
      (by
        rw [List.map_map]
        apply List.map_congr_left
        intro k _
        simp only [Function.comp]
        rw [resampleBins_records]) none none (Or.inl rfl) (Or.inl rfl)
    have hfl : ((List.range (qs.length + 1)).map fun k => (sel k).map row).flatten =
        (B.filter fun b => df.index.any fun t => decide (binCode qs (R.bin o t) = binCode qs b)).map row := by
      rw [← List.flatMap_def, ← List.map_flatMap]
      congr 1
      have hsel : ∀ k, sel k = (B.filter fun b => df.index.any fun t => decide (binCode qs (R.bin o t) = binCode qs b)).filter
          fun b => decide (binCode qs b = k) := by
        intro k
        rw [List.filter_filter]
        apply List.filter_congr
        intro b _
        by_cases hb : binCode qs b = k
        · simp [hb]
        · simp [hb]
      rw [show sel = _ from funext hsel]
      rw [flatMap_codes (binCode qs) _ _ (qs.length + 1)]
      · rw [List.filter_eq_self]
        intro b _
        have := binCode_le qs b
        simp only [decide_eq_true_eq]
        omega
      · apply List.Pairwise.filter
        exact List.Pairwise.imp (fun h => binCode_mono hq _ _ h) (intsFrom_pairwise _ _)
    rw [hfl] at hrep
    rw [resampleBins_records]
    exact hrep

theorem resampleRange_shows [DecidableEq κ] (cfg : Cfg) (hr : 1 ≤ cfg.minRow) (hmc : 1 ≤ cfg.minCol)
    (over : Bool) {R : ResampleRule} (hs : 2 ≤ R.step) (agg : List α → β) (isna : α → Bool) (nan : α)
    (hnan : isna nan = true) (hagg : ∀ l, agg (l.filter fun x => !isna x) = agg l)
    (hor : ∀ a b c d, R.step ∣ R.origin a b - R.origin c d) {m : LFrame Int κ α} {df : Frame Int κ α} (h : m.Shows df)
    (hne : df.index ≠ []) (hclear : ∀ t ∈ df.index, R.Clear (R.bins df.index).1 t) :
    ∃ keep : Int → Bool, (∀ t ∈ df.index, keep (R.bin (R.bins df.index).1 t) = true) ∧
    ∃ m', m.resampleRange cfg over R agg nan = some m' ∧
      m'.Shows (df.resampleBins R agg (R.bins df.index).1 ((R.bins df.index).2.filter keep)) := by
  obtain ⟨m1, e1, hrep⟩ := synced_spec h
  have hwf := hrep.wf
  obtain ⟨rl, cw, hcut, hparts, _, _⟩ := hrep.blocks
  have hF : ∀ f : Frame Int κ α, (f.resample R agg).WF := by
    intro f
    apply ofCols_wf
    intro c hc
    obtain ⟨e, _, rfl⟩ := List.mem_map.1 hc
    simp
  have hall : df.resampleBins R agg (R.bins df.index).1 ((R.bins df.index).2.filter fun _ => true) = df.resample R agg := by
    rw [List.filter_eq_self.2 (fun _ _ => rfl)]; rfl
  have whole : ∀ {x : Option (LFrame Int κ β)}, (∃ m', x = some m' ∧ m'.Shows (df.resample R agg)) →
      ∃ keep : Int → Bool, (∀ t ∈ df.index, keep (R.bin (R.bins df.index).1 t) = true) ∧
      ∃ m', x = some m' ∧
        m'.Shows (df.resampleBins R agg (R.bins df.index).1 ((R.bins df.index).2.filter keep)) := by
    rintro x ⟨m', e, e'⟩
    exact ⟨fun _ => true, fun _ _ => rfl, m', e, by rw [hall]; exact e'⟩
  have lift : ∀ {m2 : MFrame Int κ β} {d : Frame Int κ β}, m2.Represents d →
      (LFrame.mk m2 false false).Shows d := fun hr => represents_shows hr
  have hlen : m1.toMFrame.parts.length = rl.length := by rw [hparts]; simp [Frame.cut, sliceBounds_length]
  have hidx : m1.toMFrame.getIndex = df.index := hrep.getIndex
  unfold LFrame.resampleRange LFrame.operation
  rw [e1, Option.bind_some]
  by_cases h1 : m1.toMFrame.parts.length = 1
  · apply whole
    simp only [h1, ↓reduceIte]
    obtain ⟨n, rfl⟩ : ∃ n, rl = [n] := List.length_eq_one_iff.1 (by rw [← hlen, h1])
    obtain ⟨lens, g1, g2, g3⟩ := mapAxis_single_row cfg hmc (Frame.resample R agg) hwf (hF df) hcut
    rw [hparts, g3, Option.bind_some]
    have hrep2 : MFrame.Represents (MFrame.mk ((df.resample R agg).cut [(df.resample R agg).nrows] lens) none none none none)
        (df.resample R agg) := ⟨hF df, ⟨_, _, g1, rfl, Or.inl rfl, Or.inl rfl⟩, Or.inl rfl, Or.inl rfl⟩
    obtain ⟨m', hm', hr'⟩ := represents_mk' hrep2
    rw [hm', Option.map_some]
    exact ⟨_, rfl, lift hr'⟩
  · simp only [h1, ↓reduceIte]
    by_cases h2 : (over && (decide (m1.toMFrame.getIndex.length < cfg.minRow) ||
        decide (idealPartitions cfg over m1.toMFrame.parts.length m1.toMFrame.getIndex.length < 2))) = true
    · apply whole
      rw [if_pos h2]
      obtain ⟨m', hm', hr'⟩ := combineAndApply_spec cfg hr (Frame.resample R agg) hrep (hF df)
      rw [hm', Option.map_some]
      exact ⟨_, rfl, lift hr'⟩
    · rw [if_neg h2]
      generalize hi : idealPartitions cfg over m1.toMFrame.parts.length m1.toMFrame.getIndex.length = ideal at *
      have hg : ∃ rl', df.IsCut rl' cw ∧
          (if over = true then joinRows m1.toMFrame.parts ideal else some m1.toMFrame.parts) = some (df.cut rl' cw) := by
        rw [hparts]
        by_cases ho : over = true
        · rw [if_pos ho]
          subst ho
          simp only [Bool.true_and, Bool.or_eq_true, decide_eq_true_eq, not_or] at h2
          exact joinRows_cut hcut ideal (by omega)
        · rw [if_neg ho]
          exact ⟨rl, hcut, rfl⟩
      obtain ⟨rl', hcut', hg'⟩ := hg
      obtain ⟨keep, hk, parts, hsh, hrep2⟩ := resampleShuffle_spec hs agg isna nan hnan hagg hor hwf hne hclear hcut' ideal
      refine ⟨keep, hk, ?_⟩
      obtain ⟨m', hm', hr'⟩ := represents_mk' hrep2
      rw [hg', Option.bind_some, hsh, Option.bind_some, hm', Option.map_some]
      exact ⟨_, rfl, lift hr'⟩

/-! ### origins -/

/-- a fixed origin -/
theorem origin_fixed (R : ResampleRule) (t : Int) (h : R.origin = fun _ _ => t) (a b c d : Int) : R.step ∣ R.origin a b - R.origin c d := by
  rw [h]
  simp

/-- the start of the day of the first time, if the step divides the day -/
theorem origin_day (R : ResampleRule) (day : Int) (hd : R.step ∣ day) (h : R.origin = fun a _ => a / day * day) (a b c d : Int) :
    R.step ∣ R.origin a b - R.origin c d := by
  rw [h]
  exact Int.dvd_sub (Int.dvd_trans hd (Int.dvd_mul_left _ _)) (Int.dvd_trans hd (Int.dvd_mul_left _ _))

/-- if every bin holds a row nothing is missing -/
theorem resampleBins_full (R : ResampleRule) (agg : List α → β) (df : Frame Int κ α) (keep : Int → Bool)
    (hk : ∀ t ∈ df.index, keep (R.bin (R.bins df.index).1 t) = true)
    (hfull : ∀ b ∈ (R.bins df.index).2, ∃ t ∈ df.index, R.bin (R.bins df.index).1 t = b) :
    df.resampleBins R agg (R.bins df.index).1 ((R.bins df.index).2.filter keep) = df.resample R agg := by
  rw [List.filter_eq_self.2]
  · rfl
  · intro b hb
    obtain ⟨t, ht, rfl⟩ := hfull b hb
    exact hk t ht

/-! ### one column partition -/

theorem applyFullColumns_single [DecidableEq ι] [DecidableEq κ] {ι' κ' : Type} [DecidableEq ι'] [DecidableEq κ'] (cfg : Cfg)
    (hr : 1 ≤ cfg.minRow) {m : LFrame ι κ α} {df : Frame ι κ α} (h : m.Shows df) (hw : gridWidth m.parts ≤ 1)
    {func : Frame ι κ α → Option (Frame ι' κ' β)} {r : Frame ι' κ' β} (hf : func df = some r) (hF : r.WF)
    (newColumns : Option (List κ')) (hnc : ∀ c, newColumns = some c → c.length = r.columns.length) :
    ∃ m', m.applyFullColumns cfg func none newColumns = some m' ∧
      m'.Shows { r with columns := newColumns.getD r.columns } := by
  obtain ⟨m1, rl, w, e1, hc, hp, hrl⟩ := synced_single h hw
  have hwn : w = df.ncols := by simpa using hc.cw_sum
  subst hwn
  obtain ⟨lens, c2, e2⟩ := mapAxis_single_col cfg hr (fun _ => r) h.wf hF hc
  rw [mapAxis_rows_congr' cfg (func' := func) h.wf hc true none none (by
    intro q hq
    rw [sliceBounds_single, List.mem_singleton] at hq
    subst hq
    rw [h.wf.ilocCols_all, hf])] at e2
  have hg : gridWidth (r.cut lens [r.ncols]) = 1 := by rw [gridWidth_cut c2.rl_ne]; rfl
  unfold LFrame.applyFullColumns
  rw [e1, Option.bind_some, hp, e2, Option.bind_some]
  have hlen : (newColumns.getD r.columns).length = r.columns.length := by
    cases newColumns with
    | none => rfl
    | some c => exact hnc c rfl
  have hs : LFrame.Shows ⟨⟨r.cut lens [r.ncols], none, newColumns, none,
      newColumns.bind fun c => if gridWidth (r.cut lens [r.ncols]) = 1 then some [c.length] else none⟩, false, newColumns.isSome⟩
      { r with columns := newColumns.getD r.columns } := by
    refine ⟨⟨hF.rows_len, fun x hx => by rw [hF.row_width x hx, hlen]⟩,
      ⟨r, lens, _, hF, rfl, hlen.symm, c2, rfl, Or.inl rfl, ?_, fun _ => rfl, ?_⟩, Or.inl ⟨rfl, rfl⟩, ?_⟩
    · rw [hg]
      cases newColumns with
      | none => exact Or.inl rfl
      | some c => right; simp only [Option.bind_some, ↓reduceIte]; rw [hnc c rfl]; rfl
    · intro hd
      cases newColumns with
      | none => rfl
      | some c => cases hd
    · cases newColumns with
      | none => exact Or.inl ⟨rfl, rfl⟩
      | some c => exact Or.inr rfl
  obtain ⟨x, e3, e4⟩ := mk'_shows hs
  refine ⟨_, ?_, e4⟩
  simp only [Option.bind_none, Option.isSome_none]
  rw [e3]
  rfl

theorem applyFullColumns_single_none [DecidableEq ι] [DecidableEq κ] {ι' κ' : Type} (cfg : Cfg)
    {m : LFrame ι κ α} {df : Frame ι κ α} (h : m.Shows df) (hw : gridWidth m.parts ≤ 1)
    {func : Frame ι κ α → Option (Frame ι' κ' β)} (hf : func df = none) (newIndex : Option (List ι')) (newColumns : Option (List κ')) :
    m.applyFullColumns cfg func newIndex newColumns = none := by
  rw [← applyFullColumns_none cfg h (func := fun _ => none) (fun _ => rfl) newIndex newColumns]
  obtain ⟨m1, rl, w, e1, hc, hp, hrl⟩ := synced_single h hw
  have hwn : w = df.ncols := by simpa using hc.cw_sum
  subst hwn
  unfold LFrame.applyFullColumns
  rw [e1, Option.bind_some, Option.bind_some, hp, mapAxis_rows_congr' cfg h.wf hc true none none (func' := fun _ => none) (by
    intro q hq
    rw [sliceBounds_single, List.mem_singleton] at hq
    subst hq
    rw [h.wf.ilocCols_all, hf])]

/-- a function that raises on one column partition raises -/
theorem applyFullColumns_raises [DecidableEq ι] [DecidableEq κ] {ι' κ' : Type} (cfg : Cfg) {m : MFrame ι κ α} {df : Frame ι κ α}
    (h : m.Represents df) {rl cw : List Nat} (hc : df.IsCut rl cw) (hp : m.parts = df.cut rl cw)
    {func : Frame ι κ α → Option (Frame ι' κ' β)} {q : Nat × Nat} (hq : q ∈ sliceBounds cw)
    (hf : func (df.ilocCols q.1 q.2) = none) (newIndex : Option (List ι')) (newColumns : Option (List κ')) :
    (LFrame.mk m false false).applyFullColumns cfg func newIndex newColumns = none := by
  unfold LFrame.applyFullColumns
  rw [show (LFrame.mk m false false).synced = some (LFrame.mk m false false) from rfl, Option.bind_some]
  have : mapAxisPartitions cfg true func m.parts true none none = none := by
    rw [hp]
    unfold mapAxisPartitions
    rw [if_neg (by simp)]
    simp only [↓reduceIte]
    rw [colBlocks_cut hc.rl_ne]
    have hv : Frame.vcat ((sliceBounds rl).map fun p => (df.ilocRows p.1 p.2).ilocCols q.1 q.2)
        = some (df.ilocCols q.1 q.2) := by
      have := Frame.vcat_ilocCols (vcat_rows_cut h.wf hc) q.1 q.2
      rwa [List.map_map] at this
    rw [mapM_none _ _ (x := (sliceBounds rl).map fun p => (df.ilocRows p.1 p.2).ilocCols q.1 q.2)
      (List.mem_map.2 ⟨q, hq, rfl⟩)]
    · rfl
    · unfold deployAxisFunc
      simp only [axisConcat, ↓reduceIte, hv, Option.bind_eq_bind, Option.bind_some, hf, Option.bind_none]
  show (mapAxisPartitions cfg true func m.parts true none none).bind _ = none
  rw [this]
  rfl

theorem keyColumn_absent [DecidableEq κ] {k : κ} {f : Frame ι κ α} (h : k ∉ f.columns) : keyColumn k f.named = none := by
  have : ∀ e ∈ f.named, ¬ e.1 = k := by
    intro e he hk
    exact h (hk ▸ (List.of_mem_zip (a := e.1) (b := e.2) he).1)
  unfold keyColumn
  rw [List.filter_eq_nil_iff.2 (fun e he => by simpa using this e he)]

/-- of two partitions one does not have a label that does not repeat -/
theorem label_absent [DecidableEq κ] {df : Frame ι κ α} {rl cw : List Nat} (hc : df.IsCut rl cw) (h2 : 2 ≤ cw.length) {k : κ}
    (hk : df.columns.count k ≤ 1) : ∃ q ∈ sliceBounds cw, k ∉ (df.ilocCols q.1 q.2).columns := by
  have hcov : ((sliceBounds cw).map fun q => pySlice df.columns q.1 q.2).flatten = df.columns :=
    covers_lens cw df.columns (by rw [hc.cw_sum]; rfl)
  have hl : 2 ≤ (sliceBounds cw).length := by rw [sliceBounds_length]; exact h2
  generalize sliceBounds cw = l at hcov hl
  obtain ⟨q1, q2, t, rfl⟩ : ∃ q1 q2 t, l = q1 :: q2 :: t := by
    match l, hl with
    | q1 :: q2 :: t, _ => exact ⟨q1, q2, t, rfl⟩
  rw [← hcov] at hk
  simp only [List.map_cons, List.flatten_cons, List.count_append] at hk
  by_cases e1 : k ∈ pySlice df.columns q1.1 q1.2
  · refine ⟨q2, by simp, ?_⟩
    show k ∉ pySlice df.columns q2.1 q2.2
    intro e2
    have := List.count_pos_iff.2 e1
    have := List.count_pos_iff.2 e2
    omega
  · exact ⟨q1, by simp, e1⟩
