import Verif.Lemmas.Shuffle
import Verif.Lemmas.GroupBy
/-
What `_apply_func_to_range_partitioning` hands to the function it applies.
-/

variable {ι κ α Q ι' κ' β : Type}

/-- the results of a function on several frames, one under another -/
def stackOf (c : List κ') (F : Frame ι κ α → Frame ι' κ' β) (bins : List (Frame ι κ α)) : Frame ι' κ' β :=
  ⟨(bins.map fun b => (F b).index).flatten, c, (bins.map fun b => (F b).rows).flatten⟩

/-- The frames the function is applied to: the whole, or the ranges of some division into row bands. -/
def IsBins (rq : RangeReq α Q) (df : Frame ι κ α) (bins : List (Frame ι κ α)) : Prop :=
  bins = [df] ∨ ∃ ideal rl cw, 2 ≤ ideal ∧ df.IsCut rl cw ∧
    bins = (List.range (numBins (pivotFn ideal rq.cols 1 true))).map fun i =>
      Frame.ofRecords df.columns (binRows rq.le rq.asc rq.naLast rq.closedRight (pivotFn ideal rq.cols 1 true) rl df i)

/-- the outcomes the sampling can have: at least one pivot when two ranges are wanted, and strictly increasing ones
    (`np.unique`) -/
def GoodDraws (rq : RangeReq α Q) : Prop :=
  rq.cols ≠ [] ∧ ∀ x ∈ rq.cols, ∀ n, 2 ≤ n → x.2 n ≠ [] ∧ Increasing rq.le (x.2 n)

theorem pickPivots_increasing {le : Q → Q → Bool} (d : Nat → List (Option Q)) (hd : ∀ n, 2 ≤ n → Increasing le (d n)) (n : Nat) :
    Increasing le (pickPivots d n) := by
  unfold pickPivots
  split
  · exact List.Pairwise.nil
  · exact hd n (by omega)

theorem pivotFn_increasing {le : Q → Q → Bool} (ideal : Nat) (cols : List (KeyCol α Q × (Nat → List (Option Q))))
    (hd : ∀ x ∈ cols, ∀ n, 2 ≤ n → Increasing le (x.2 n)) (g : Nat) (first : Bool) :
    ∀ c ∈ pivotFn ideal cols g first, Increasing le c.pivots := by
  induction cols generalizing g first with
  | nil => intro c hc; simp [pivotFn] at hc
  | cons x xs ih =>
    obtain ⟨c0, d⟩ := x
    intro c hc
    unfold pivotFn at hc
    split at hc
    · simp at hc
    · simp only [List.mem_cons] at hc
      rcases hc with rfl | hc
      · exact pickPivots_increasing d (hd (c0, d) (by simp)) _
      · exact ih (fun y hy => hd y (by simp [hy])) _ _ c hc

/-- The key columns come from the request. -/
theorem pivotFn_mem (ideal : Nat) (cols : List (KeyCol α Q × (Nat → List (Option Q)))) (g : Nat) (first : Bool) :
    ∀ c ∈ pivotFn ideal cols g first, ∃ x ∈ cols, c.pos = x.1.pos ∧ c.isna = x.1.isna ∧ c.conv = x.1.conv := by
  induction cols generalizing g first with
  | nil => intro c hc; simp [pivotFn] at hc
  | cons x xs ih =>
    obtain ⟨c0, d⟩ := x
    intro c hc
    unfold pivotFn at hc
    split at hc
    · simp at hc
    · simp only [List.mem_cons] at hc
      rcases hc with rfl | hc
      · exact ⟨(c0, d), by simp, rfl, rfl, rfl⟩
      · obtain ⟨y, hy, h⟩ := ih _ _ c hc
        exact ⟨y, by simp [hy], h⟩

theorem pivotFn_length (ideal : Nat) (cols : List (KeyCol α Q × (Nat → List (Option Q)))) (g : Nat) (first : Bool) :
    (pivotFn ideal cols g first).length ≤ cols.length := by
  induction cols generalizing g first with
  | nil => simp [pivotFn]
  | cons x xs ih =>
    obtain ⟨c0, d⟩ := x
    unfold pivotFn
    split
    · simp
    · simpa using ih _ _

theorem numBins_pos (cols : List (KeyCol α Q)) : 0 < numBins cols := by
  rw [numBins_eq]
  exact List.length_pos_iff.2 (binKeys_ne cols)

theorem pivotFn_bins {rq : RangeReq α Q} (hd : GoodDraws rq) {ideal : Nat} (hi : 2 ≤ ideal) :
    numBins (pivotFn ideal rq.cols 1 true) > 1 := by
  obtain ⟨hne, hd⟩ := hd
  cases hc : rq.cols with
  | nil => exact absurd hc hne
  | cons x xs =>
    obtain ⟨c0, d⟩ := x
    have h1 := (hd (c0, d) (by simp [hc]) ideal hi).1
    have h2 := numBins_pos (pivotFn ideal xs (1 * ((pickPivots d (ideal / 1)).length + 1)) false)
    unfold pivotFn
    simp only [Bool.not_true, Bool.and_false, Bool.false_eq_true, ↓reduceIte]
    unfold numBins at h2 ⊢
    rw [List.map_cons, List.foldl_cons, foldl_mul]
    simp only [pickPivots, Nat.div_one, show ¬ ideal ≤ 1 by omega, ↓reduceIte, Nat.one_mul] at h2 ⊢
    have h3 : 0 < (d ideal).length := List.length_pos_iff.2 h1
    generalize List.foldl _ _ _ = z at h2 ⊢
    rcases Nat.lt_or_ge 1 ((d ideal).length + 1) with h4 | h4
    · calc 1 < (d ideal).length + 1 := h4
        _ = ((d ideal).length + 1) * 1 := by omega
        _ ≤ _ := Nat.mul_le_mul_left _ h2
    · omega

theorem mapM_none {τ σ : Type} (f : τ → Option σ) (l : List τ) {x : τ} (hx : x ∈ l) (h : f x = none) : l.mapM f = none := by
  induction l with
  | nil => simp at hx
  | cons y ys ih =>
    rw [List.mapM_cons]
    simp only [List.mem_cons] at hx
    rcases hx with rfl | hx
    · simp [h]
    · rw [ih hx]
      cases f y <;> simp

theorem mapM_some' {τ σ : Type} (f : τ → σ) (l : List τ) : l.mapM (fun x => (some (f x) : Option σ)) = some (l.map f) := by
  induction l with
  | nil => rfl
  | cons y ys ih => rw [List.mapM_cons, ih]; rfl

theorem splitRecords_none {le : Q → Q → Bool} (asc naLast closedRight : Bool) (cols : List (KeyCol α Q))
    (rows : List (ι × List α)) (h1 : 1 < (activeCols cols).length) (h2 : (rows.filter fun r => !naRow cols r).length = 1) :
    splitRecords le asc naLast closedRight cols rows = none := by
  unfold splitRecords
  change (if (activeCols cols).isEmpty = true then _ else _) = _
  have : (activeCols cols).isEmpty = false := by
    rw [Bool.eq_false_iff]
    intro h
    rw [List.isEmpty_iff.1 h] at h1
    simp at h1
  rw [this]
  simp only [Bool.false_eq_true, ↓reduceIte]
  rw [if_pos]
  exact ⟨h2, h1⟩

theorem shuffle_unsafe [DecidableEq ι] [DecidableEq κ] {le : Q → Q → Bool}
    (asc naLast closedRight : Bool) (cols : List (KeyCol α Q)) (hb : numBins cols > 1) {df : Frame ι κ α} (hwf : df.WF)
    {rl cw : List Nat} (hc : df.IsCut rl cw) (hs : ¬ SplitSafe cols rl df) (func : Frame ι κ α → Option (Frame ι' κ' β)) :
    shufflePartitions le asc naLast closedRight cols func (df.cut rl cw) = none := by
  unfold SplitSafe at hs
  rw [not_or] at hs
  obtain ⟨h1, h2⟩ := hs
  rw [Nat.not_le] at h1
  simp only [Classical.not_forall] at h2
  obtain ⟨b, hbm, hb1⟩ := h2
  have hb1 : (b.filter fun r => !naRow cols r).length = 1 := by
    exact Decidable.not_not.1 hb1
  unfold bandRecords at hbm
  simp only [List.mem_map] at hbm
  obtain ⟨p, hp, rfl⟩ := hbm
  unfold shufflePartitions
  rw [hcat_rows_cut hwf hc, Option.bind_some, if_pos hb]
  rw [mapM_none (x := df.ilocRows p.1 p.2)]
  · rfl
  · exact List.mem_map.2 ⟨p, hp, rfl⟩
  · unfold splitFrame
    rw [Frame.records_ilocRows, splitRecords_none _ _ _ _ _ h1 hb1]
    rfl

theorem stackOf_ofRecords (c : List κ') (F : Frame ι κ α → Frame ι' κ' β) (bins : List (Frame ι κ α))
    (hF : ∀ b ∈ bins, (F b).WF ∧ (F b).columns = c) :
    stackOf c F bins = Frame.ofRecords c ((bins.map fun b => (F b).records).flatten) := by
  have h : ∀ b ∈ bins, (F b).index = (F b).records.map (·.1) ∧ (F b).rows = (F b).records.map (·.2) := by
    intro b hb
    have := (hF b hb).1.ofRecords_records
    constructor
    · conv => lhs; rw [← this]
      rfl
    · conv => lhs; rw [← this]
      rfl
  unfold stackOf Frame.ofRecords
  simp only [Frame.mk.injEq, true_and, List.map_flatten, List.map_map]
  constructor
  · congr 1
    exact List.map_congr_left fun b hb => (h b hb).1
  · congr 1
    exact List.map_congr_left fun b hb => (h b hb).2

theorem stackOf_single (c : List κ') (F : Frame ι κ α → Frame ι' κ' β) (df : Frame ι κ α) (h : (F df).columns = c) :
    stackOf c F [df] = F df := by
  subst h
  simp [stackOf]

theorem binRows_width {le : Q → Q → Bool} (asc naLast closedRight : Bool) (cols : List (KeyCol α Q)) {df : Frame ι κ α}
    (hwf : df.WF) {rl cw : List Nat} (hc : df.IsCut rl cw) (i : Nat) :
    ∀ r ∈ binRows le asc naLast closedRight cols rl df i, r.2.length = df.columns.length := by
  intro r hr
  have := (binRows_perm asc naLast closedRight cols hwf hc i).mem_iff.1 hr
  exact hwf.records_width (List.mem_filter.1 this).1

theorem isBins_wf {rq : RangeReq α Q} {df : Frame ι κ α} (hwf : df.WF) {bins : List (Frame ι κ α)} (h : IsBins rq df bins) :
    ∀ b ∈ bins, b.WF ∧ b.columns = df.columns := by
  rcases h with rfl | ⟨ideal, rl, cw, _, hc, rfl⟩
  · intro b hb
    simp only [List.mem_singleton] at hb
    subst hb
    exact ⟨hwf, rfl⟩
  · intro b hb
    simp only [List.mem_map] at hb
    obtain ⟨i, _, rfl⟩ := hb
    exact ⟨Frame.WF.ofRecords (binRows_width _ _ _ _ hwf hc i), rfl⟩

theorem pyRoundDiv_le_one_of_lt {a b : Nat} (h : a < b) : pyRoundDiv a b ≤ 1 := by
  unfold pyRoundDiv
  rw [Nat.div_eq_of_lt h]
  split
  · omega
  · split
    · omega
    · simp

/-- **Range partitioning.** The function is applied to the ranges of the frame one by one and the results are put one
    under another; only with several key columns can the call fail. -/
theorem applyRange_spec [DecidableEq ι] [DecidableEq κ] [DecidableEq ι'] [DecidableEq κ'] (cfg : Cfg) (hp : 2 ≤ cfg.nPartitions)
    (hmr : 1 ≤ cfg.minRow) (hmc : 1 ≤ cfg.minCol) (over : Bool) (rq : RangeReq α Q) (hle : TotalLe rq.le) (hd : GoodDraws rq)
    {m : MFrame ι κ α} {df : Frame ι κ α} (hm : m.Represents df) (preserve : Option (κ → κ')) (c : List κ')
    (hpre : ∀ f, preserve = some f → c = df.columns.map f) :
    ∃ bins, IsBins rq df bins ∧ ∀ F : Frame ι κ α → Frame ι' κ' β,
      (∀ b, b.WF → b.columns = df.columns → (F b).WF ∧ (F b).columns = c) →
      (1 < rq.cols.length ∧ applyRangePartitioning cfg over rq (fun b => some (F b)) preserve m = none) ∨
      ∃ m', applyRangePartitioning cfg over rq (fun b => some (F b)) preserve m = some m' ∧
        m'.Represents (stackOf c F bins) := by
  have hwf := hm.wf
  have hidx : m.getIndex = df.index := hm.getIndex
  obtain ⟨rl, cw, hcut, hparts, hrl, hcw⟩ := hm.blocks
  have hlen : m.parts.length = rl.length := by rw [hparts]; simp [Frame.cut, sliceBounds_length]
  have hkept : (preserve.bind fun f => m.columns.map (·.map f)) = none ∨
      (preserve.bind fun f => m.columns.map (·.map f)) = some c := by
    cases hpv : preserve with
    | none => left; rfl
    | some f =>
      rcases hm.columns with h | h
      · left; simp [h]
      · right; simp [h, hpre f hpv]
  unfold applyRangePartitioning
  by_cases h1 : m.parts.length = 1
  · refine ⟨[df], Or.inl rfl, ?_⟩
    intro F hF
    right
    obtain ⟨hF1, hF2⟩ := hF df hwf rfl
    rw [stackOf_single c F df hF2]
    simp only [h1, ↓reduceIte]
    obtain ⟨n, rfl⟩ : ∃ n, rl = [n] := List.length_eq_one_iff.1 (by rw [← hlen, h1])
    obtain ⟨lens, g1, g2, g3⟩ := mapAxis_single_row cfg hmc F hwf hF1 hcut
    rw [hparts, g3, Option.bind_some]
    have hw : preserve.isSome = true → lens = cw := by
      intro hs
      obtain ⟨f, hf⟩ := Option.isSome_iff_exists.1 hs
      apply g2
      have : (F df).columns.length = df.columns.length := by rw [hF2, hpre f hf]; simp
      exact this
    generalize hwid : (if (m.colWidths.any fun w => !w.contains 0 && m.columns.any fun x => x.length == w.sum) = true
      then preserve.bind fun _ => m.colWidths else none) = widths
    have hwids : widths = none ∨ widths = some lens := by
      rw [← hwid]
      split
      · cases hpv : preserve with
        | none => left; rfl
        | some f =>
          rw [hw (by simp [hpv])]
          exact hcw
      · left; rfl
    have hrep : MFrame.Represents (MFrame.mk ((F df).cut [(F df).nrows] lens) none
        (preserve.bind fun f => m.columns.map (·.map f)) none widths) (F df) := by
      refine ⟨hF1, ⟨_, _, g1, rfl, Or.inl rfl, hwids⟩, Or.inl rfl, ?_⟩
      rw [hF2]; exact hkept
    obtain ⟨m', hm', hr'⟩ := represents_mk' hrep
    have hfe : m' = MFrame.mk ((F df).cut [(F df).nrows] lens) none
        (preserve.bind fun f => m.columns.map (·.map f)) none widths := by
      unfold MFrame.mk' at hm'
      split at hm'
      · exact (Option.some.inj hm').symm
      · cases hm'
    rw [hm', Option.map_some]
    refine ⟨_, rfl, ?_⟩
    split
    · rename_i hs
      subst hfe
      refine ⟨hF1, ⟨_, _, g1, rfl, Or.inl rfl, ?_⟩, Or.inl rfl, ?_⟩
      · rw [hw hs]; exact hcw
      · rw [hF2]; exact hkept
    · exact hr'
  · simp only [h1, ↓reduceIte]
    have hlen2 : 2 ≤ m.parts.length := by
      have := List.length_pos_iff.2 hcut.rl_ne
      omega
    generalize hideal : idealPartitions cfg over m.parts.length m.getIndex.length = ideal
    by_cases h2 : (over && (decide (m.getIndex.length < cfg.minRow) || decide (ideal < 2))) = true
    · simp only [h2, ↓reduceIte]
      refine ⟨[df], Or.inl rfl, ?_⟩
      intro F hF
      right
      obtain ⟨hF1, hF2⟩ := hF df hwf rfl
      rw [stackOf_single c F df hF2]
      exact combineAndApply_spec cfg hmr F hm hF1
    · simp only [h2, Bool.false_eq_true, ↓reduceIte]
      have hi2 : 2 ≤ ideal := by
        cases over with
        | true =>
          simp only [Bool.true_and, Bool.or_eq_true, decide_eq_true_eq, not_or] at h2
          omega
        | false =>
          simp only [idealPartitions, Bool.false_eq_true, ↓reduceIte] at hideal
          omega
      obtain ⟨rl', hcut', hjoin⟩ : ∃ rl', df.IsCut rl' cw ∧
          (if over = true then joinRows m.parts ideal else some m.parts) = some (df.cut rl' cw) := by
        cases over with
        | true =>
          simp only [↓reduceIte]
          rw [hparts]
          exact joinRows_cut hcut ideal (by omega)
        | false => exact ⟨rl, hcut, by simp [hparts]⟩
      simp only [hjoin, Option.bind_some]
      generalize hcols : pivotFn ideal rq.cols 1 true = cols
      have hbins : numBins cols > 1 := by rw [← hcols]; exact pivotFn_bins hd hi2
      have hinc : ∀ x ∈ cols, Increasing rq.le x.pivots := by
        rw [← hcols]
        exact pivotFn_increasing ideal rq.cols (fun x hx n hn => (hd.2 x hx n hn).2) 1 true
      refine ⟨_, Or.inr ⟨ideal, rl', cw, hi2, hcut', rfl⟩, ?_⟩
      intro F hF
      by_cases hs : SplitSafe cols rl' df
      · right
        rw [shuffle_cut hle _ _ _ cols hinc hbins hwf hcut' hs, hcols]
        have hFb : ∀ b ∈ ((List.range (numBins cols)).map fun i =>
            Frame.ofRecords df.columns (binRows rq.le rq.asc rq.naLast rq.closedRight cols rl' df i)), (F b).WF ∧ (F b).columns = c := by
          intro b hb
          simp only [List.mem_map] at hb
          obtain ⟨i, _, rfl⟩ := hb
          exact hF _ (Frame.WF.ofRecords (binRows_width _ _ _ _ hwf hcut' i)) rfl
        have hbne : ((List.range (numBins cols)).map fun i =>
            Frame.ofRecords df.columns (binRows rq.le rq.asc rq.naLast rq.closedRight cols rl' df i)) ≠ [] := by
          simp; omega
        generalize ((List.range (numBins cols)).map fun i =>
            Frame.ofRecords df.columns (binRows rq.le rq.asc rq.naLast rq.closedRight cols rl' df i)) = bins at hFb hbne ⊢
        have hmap : bins.mapM (fun b => (some (F b)).map fun r => [r]) = some (bins.map fun b => [F b]) := by
          apply mapM_some'
        rw [hmap, Option.bind_some]
        have hst := stackOf_ofRecords c F bins hFb
        have hne' : (bins.map fun b => (F b).records) ≠ [] := by simpa using hbne
        have hpp : (bins.map fun b => [F b]) = (bins.map fun b => (F b).records).map fun l => [Frame.ofRecords c l] := by
          rw [List.map_map]
          apply List.map_congr_left
          intro b hb
          obtain ⟨w1, w2⟩ := hFb b hb
          simp only [Function.comp]
          rw [← w2, w1.ofRecords_records]
        have hw : ∀ l ∈ (bins.map fun b => (F b).records), ∀ r ∈ l, r.2.length = c.length := by
          intro l hl r hr
          simp only [List.mem_map] at hl
          obtain ⟨b, hb, rfl⟩ := hl
          rw [← (hFb b hb).2]
          exact (hFb b hb).1.records_width hr
        refine ⟨_, rfl, ?_⟩
        rw [hst]
        split
        · apply represents_column hne' hw hpp _ _ hkept
          rename_i hs'
          obtain ⟨f, hf⟩ := Option.isSome_iff_exists.1 hs'
          split
          · rename_i hcs
            right
            rcases hm.columns with h | h
            · rw [h] at hcs; simp at hcs
            · rw [h, hpre f hf]; simp
          · left; rfl
        · exact represents_column hne' hw hpp _ _ (Or.inl rfl) (Or.inl rfl)
      · left
        rw [shuffle_unsafe _ _ _ cols hbins hwf hcut' hs]
        refine ⟨?_, rfl⟩
        unfold SplitSafe at hs
        rw [not_or] at hs
        have h3 : (activeCols cols).length ≤ cols.length := List.length_filter_le _ _
        have h4 : cols.length ≤ rq.cols.length := by rw [← hcols]; exact pivotFn_length _ _ _ _
        omega
