import Verif.Lemmas.NumpyReduce

/-!
# C76: a reduction of a `modin.numpy` array is NumPy's

`npReduceSpec` (Pandas/NumpyReduce) says what NumPy does with `axis` and `keepdims`; `npFold`, `extSpec`, `truthSpec` what
it computes of one line of elements, `NpWhere.counts` which of them count.
-/

open NGrid

variable {α β : Type}

/-- NumPy's answer: `none` if it refuses the axis or the mask -/
def npExpected {γ : Type} (f : List (α × Bool) → γ) (x : NpVal α) (axis : Option Int) (keepdims : Bool) (w : NpWhere) :
    Option (NpOut γ) :=
  (w.counts x).bind fun k => npReduceSpec f (x.zipMask k) axis keepdims

/-- an array with one dimension and an axis such as `2` (see `C76_axis_one_dim`) -/
def OddAxis (x : NpVal α) (axis : Option Int) : Prop := x.isMat = false ∧ ∃ a, axis = some a ∧ 2 ≤ a

theorem axis_one {x : NGrid α} {P : List (List (α × Bool))} {axis ax : Option Int} {keepdims : Bool} {γ : Type}
    {line : List (α × Bool) → γ} {whole : List (List (α × Bool)) → γ} {r : NpOutG γ}
    (hax : npValidateAxis x.two axis = some ax) (ho : ¬ OddAxis x.val axis)
    (h : genRed x P ax keepdims line whole = some r) :
    x.two = false → axis = none ∨ axis = some 0 ∨ axis = some (-1) := by
  intro hx2
  cases axis with
  | none => exact Or.inl rfl
  | some a =>
    have h2 : ¬ 2 ≤ a := fun h2 => ho ⟨by rw [val_isMat, hx2], a, rfl, h2⟩
    unfold npValidateAxis at hax
    rw [hx2] at hax
    dsimp only at hax
    simp only [Bool.false_eq_true, if_false] at hax
    split at hax
    · split at hax
      · rename_i hb
        exact Or.inr (Or.inr (by rw [show a = -1 by omega]))
      · cases hax
    · cases hax
      have h1 : a ≠ 1 := by
        intro e
        subst e
        unfold genRed at h
        rw [hx2] at h
        simp at h
      exact Or.inr (Or.inl (by rw [show a = 0 by omega]))

/-- the general case: what is computed of a line is what NumPy computes of it -/
theorem reduce_expected {x : NGrid α} (hx : x.WF) {w : NpWhereG} (hw : w.WF) {axis : Option Int} {keepdims : Bool} {γ : Type}
    {line f : List (α × Bool) → γ} {whole : List (List (α × Bool)) → γ} {c : γ} {r : NpOutG γ}
    (ho : ¬ OddAxis x.val axis)
    (hnothing : w.spec = .nothing → line = (fun _ => c) ∧ whole = (fun _ => c) ∧ ∀ l, npCounted l = [] → f l = c)
    (hline : w.spec ≠ .nothing → ∀ k mk, npMaskFn w x = some k → w.spec.counts x.val = some mk →
      (x.val.zipMask mk).elems = (npPairs k x).flatten → ∀ l, LineOf (npPairs k x) l → line l = f l)
    (hwhole : w.spec ≠ .nothing → ∀ k mk, npMaskFn w x = some k → w.spec.counts x.val = some mk →
      (x.val.zipMask mk).elems = (npPairs k x).flatten → x.two = true → whole (npPairs k x) = f (npPairs k x).flatten)
    (h : ((npValidateAxis x.two axis).bind fun ax => (npMaskFn w x).bind fun k =>
        genRed x (npPairs k x) ax keepdims line whole) = some r) :
    npExpected f x.val axis keepdims w.spec = some r.val := by
  obtain ⟨ax, hax, h⟩ := Option.bind_eq_some_iff.1 h
  obtain ⟨k, hk, h⟩ := Option.bind_eq_some_iff.1 h
  unfold npExpected
  by_cases hn : w.spec = .nothing
  · obtain ⟨h1, h2, h3⟩ := hnothing hn
    rw [hn]
    subst h1; subst h2
    rw [genRed_const x hx k (fun _ _ => false)] at h
    have hp := npPairs_false x
    exact genRed_spec (mk := fun _ _ => false) hx hax (axis_one hax ho h) (fun _ _ _ _ _ => rfl) (fun _ _ _ => rfl)
      (fun l hl => (h3 l (npCounted_none (fun p hpm => hp p (hl.1 p hpm)))).symm)
      (fun _ _ => (h3 _ (npCounted_none hp)).symm) h
  · obtain ⟨mk, hmk, h2, h1⟩ := npMaskFn_spec hx hw hk hn
    rw [hmk]
    have he := zipMask_elems hx h2 h1
    exact genRed_spec hx hax (axis_one hax ho h) h2 h1 (hline hn k mk hk hmk he) (fun ht _ => hwhole hn k mk hk hmk he ht) h

/-- **C76** (`sum` and `prod`; `op` is the sum or product of two elements, `e` is `0` or `1`.) If a sum is returned, it is
NumPy's: of all elements or along the axis, only of those that the mask selects, from `initial` on, and with the
dimensions that `keepdims` asks for.
Partial: not for an axis such as `2` of an array with one dimension (`C76_axis_one_dim`). -/
theorem C76_sum_partial {op : α → α → α} {e : α} (hc : ∀ a b, op a b = op b a)
    (ha : ∀ a b c, op (op a b) c = op a (op b c)) (he : ∀ a, op a e = a)
    (x : NGrid α) (hx : x.WF) (axis : Option Int) (keepdims : Bool) (initial : Option α) (w : NpWhereG) (hw : w.WF)
    (ho : ¬ OddAxis x.val axis) (r : NpOutG α) (h : npSumLike op e x axis keepdims initial w = some r) :
    npExpected (npFold op (initial.getD e)) x.val axis keepdims w.spec = some r.val := by
  rw [npSumLike_gen] at h
  refine reduce_expected (c := initial.getD e) hx hw ho ?_ ?_ ?_ h
  · intro hn
    cases w with
    | all => cases hn
    | mask m => cases hn
    | nothing =>
      refine ⟨rfl, rfl, fun l hl => ?_⟩
      unfold npFold; rw [hl]; rfl
  · intro hn k mk hk _ _ l hl
    exact sumLine_spec hc ha he _ _ l (fun ht => hl.nil (truthy_empty hx hk ht hn))
  · intro hn k mk hk _ _ _
    exact sumWhole_spec hc ha he _ _ _ (fun ht => truthy_empty hx hk ht hn)

/-- **C76** (`max` and `min`.) If a maximum is returned, it is NumPy's.
Partial: the array must have elements (`C76_max_empty`) and none of the selected elements may be NaN
(`C76_max_nan`); not with both `keepdims` and `initial` for an array with one dimension (`C76_max_keepdims_initial`). -/
theorem C76_max_partial {mx : β → β → β} {gt : β → β → Bool} (L : ExtLaws mx gt)
    (x : NGrid (Option β)) (hx : x.WF) (axis : Option Int) (keepdims : Bool) (initial : Option β) (w : NpWhereG) (hw : w.WF)
    (ho : ¬ OddAxis x.val axis) (hne : x.val.elems ≠ [])
    (hnan : ∀ k, w.spec.counts x.val = some k → none ∉ npCounted (x.val.zipMask k).elems)
    (hkd : ¬ (x.two = false ∧ keepdims = true ∧ initial ≠ none))
    (r : NpOutG (Option β)) (h : npMaxLike mx gt x axis keepdims initial w = some r) :
    npExpected (extSpec mx initial) x.val axis keepdims w.spec = some r.val := by
  have hi : initial.isNone = true → w.isTrue = true := by
    intro h1
    unfold npMaxLike at h
    cases hv : npValidateAxis x.two axis with
    | none => rw [hv] at h; cases h
    | some ax =>
      rw [hv] at h
      dsimp only at h
      cases hb : w.isTrue
      · rw [h1, hb] at h
        simp at h
      · rfl
  rw [npMaxLike_gen mx gt x axis keepdims initial w hi
    (fun h1 h2 => Classical.byContradiction fun h3 => hkd ⟨h1, h2, h3⟩)] at h
  have hne' : ∀ k, (npPairs k x).flatten ≠ [] := by
    intro k e
    apply hne
    have hlen : ∀ r ∈ npPairs k x, r = [] := List.flatten_eq_nil_iff.1 e
    have : x.rows.flatten = [] := by
      rw [List.flatten_eq_nil_iff]
      intro r hr
      obtain ⟨i, hi, rfl⟩ := List.getElem_of_mem hr
      have := hlen ((x.rows[i]).mapIdx fun j v => (v, k i j)) (by
        unfold npPairs
        exact List.mem_mapIdx.2 ⟨i, hi, rfl⟩)
      exact List.mapIdx_eq_nil_iff.1 this
    unfold NGrid.val
    cases x.two
    · exact this
    · exact this
  have hty : w.spec ≠ .nothing → ∀ k, npMaskFn w x = some k → w.truthy = true := by
    intro hn k hk
    cases ht : w.truthy
    · exact absurd (truthy_empty hx hk ht hn) (hne' k)
    · rfl
  have hsome : ∀ k, w.spec ≠ .nothing → npMaskFn w x = some k → ∀ l, LineOf (npPairs k x) l →
      initial = none → ∀ p ∈ l, p.2 = true := by
    intro k hn hk l hl h0 p hp
    have hall := hi (by rw [h0]; rfl)
    cases w with
    | all =>
      cases hk
      have := hl.1 p hp
      obtain ⟨q, hq, hpq⟩ := List.mem_flatten.1 this
      obtain ⟨i, hi, rfl⟩ := List.mem_mapIdx.1 hq
      obtain ⟨j, hj, rfl⟩ := List.mem_mapIdx.1 hpq
      rfl
    | nothing => cases hall
    | mask m => cases hall
  have hcnt : ∀ (P : List (List (Option β × Bool))) l, LineOf P l → none ∉ npCounted P.flatten → none ∉ npCounted l := by
    intro P l hl hn hm
    obtain ⟨p, hp, e⟩ := List.mem_map.1 hm
    obtain ⟨hp, hb⟩ := List.mem_filter.1 hp
    exact hn (List.mem_map.2 ⟨p, List.mem_filter.2 ⟨hl.1 p hp, hb⟩, e⟩)
  have hP := fun k => npPairs_rect hx k
  refine reduce_expected (c := initial) hx hw ho ?_ ?_ ?_ h
  · intro hn
    cases w with
    | all => cases hn
    | mask m => cases hn
    | nothing =>
      refine ⟨rfl, rfl, fun l hl => ?_⟩
      cases initial with
      | none => exact absurd (hi rfl) (by simp [NpWhereG.isTrue])
      | some i => unfold extSpec npFold; rw [hl]; rfl
  · intro hn k mk hk hmk he l hl
    rw [hty hn k hk]
    exact extLine_spec L initial _ l (hl.2 (hne' k)) (hcnt _ l hl (by rw [← he]; exact hnan mk hmk)) (hsome k hn hk l hl)
  · intro hn k mk hk hmk he _
    rw [hty hn k hk, extWhole_line L initial true x.nc _ (hP k).2]
    have hl : LineOf (npPairs k x) (npPairs k x).flatten := ⟨fun p hp => hp, fun h => h⟩
    exact extLine_spec L initial _ _ (hne' k) (by rw [← he]; exact hnan mk hmk) (hsome k hn hk _ hl)

/-- **C76** (`all` and `any`, of the truth values of the elements; NaN is `none`.) If a truth value is returned, it is
NumPy's.
Partial: not with `axis=None` and `keepdims=True` for an array with two dimensions (`C76_all_keepdims`); for `any` none of the selected
elements may be NaN (`C76_any_nan`). -/
theorem C76_truth_partial (isAll : Bool) (x : NGrid (Option Bool)) (hx : x.WF) (axis : Option Int) (keepdims : Bool)
    (w : NpWhereG) (hw : w.WF) (ho : ¬ OddAxis x.val axis)
    (hkd : ¬ (x.two = true ∧ axis = none ∧ keepdims = true))
    (hnan : isAll = false → ∀ k, w.spec.counts x.val = some k → none ∉ npCounted (x.val.zipMask k).elems)
    (r : NpOutG Bool) (h : npTruthLike isAll x axis keepdims w = some r) :
    npExpected (truthSpec isAll) x.val axis keepdims w.spec = some r.val := by
  rw [npTruthLike_gen isAll x axis keepdims w hkd] at h
  have hcnt : ∀ (P : List (List (Option Bool × Bool))) l, LineOf P l → none ∉ npCounted P.flatten → none ∉ npCounted l := by
    intro P l hl hn hm
    obtain ⟨p, hp, e⟩ := List.mem_map.1 hm
    obtain ⟨hp, hb⟩ := List.mem_filter.1 hp
    exact hn (List.mem_map.2 ⟨p, List.mem_filter.2 ⟨hl.1 p hp, hb⟩, e⟩)
  refine reduce_expected (c := isAll) hx hw ho ?_ ?_ ?_ h
  · intro hn
    cases w with
    | all => cases hn
    | mask m => cases hn
    | nothing =>
      refine ⟨rfl, rfl, fun l hl => ?_⟩
      unfold truthSpec; rw [hl]; cases isAll <;> rfl
  · intro hn k mk hk hmk he l hl
    exact truthLine_spec isAll _ l (fun ht => hl.nil (truthy_empty hx hk ht hn))
      (fun h0 => hcnt _ l hl (by rw [← he]; exact hnan h0 mk hmk))
  · intro hn k mk hk hmk he _
    rw [truthWhole_line]
    exact truthLine_spec isAll _ _ (fun ht => truthy_empty hx hk ht hn)
      (fun h0 => by rw [← he]; exact hnan h0 mk hmk)

/-! ## when a reduction is refused -/

/-- the masks that are accepted: of the shape of the array, or a row of as many elements as the array has columns -/
def MaskAccepted (w : NpWhere) (x : NpVal α) : Prop :=
  match w with
  | .mask m => (m.isMat = x.isMat ∧ m.nrows = x.nrows ∧ m.ncols = x.ncols) ∨ (m.isMat = false ∧ x.isMat = true ∧ m.ncols = x.ncols)
  | _ => True

theorem npMaskFn_isSome {x : NGrid α} (hx : x.WF) {w : NpWhereG} (hw : w.WF) :
    (npMaskFn w x).isSome = true ↔ MaskAccepted w.spec x.val := by
  cases w with
  | all => exact ⟨fun _ => trivial, fun _ => rfl⟩
  | nothing => exact ⟨fun _ => trivial, fun _ => rfl⟩
  | mask m =>
    have hm : m.WF := hw
    show _ ↔ (m.val.isMat = x.val.isMat ∧ m.val.nrows = x.val.nrows ∧ m.val.ncols = x.val.ncols)
      ∨ (m.val.isMat = false ∧ x.val.isMat = true ∧ m.val.ncols = x.val.ncols)
    rw [val_isMat, val_isMat]
    simp only [npMaskFn]
    cases hm2 : m.two <;> cases hx2 : x.two
    · rw [nrows_one hm2, nrows_one hx2, ncols_one hm hm2, ncols_one hx hx2]
      simp [shape, hm2, hx2]
    · rw [ncols_one hm hm2, ncols_two hx2]
      simp
    · simp
    · rw [nrows_two hm2, nrows_two hx2, ncols_two hm2, ncols_two hx2]
      simp [shape, hm2, hx2]

theorem genRed_isSome {x : NGrid α} {P : List (List (α × Bool))} {axis : Option Int} {keepdims : Bool} {γ : Type}
    {line : List (α × Bool) → γ} {whole : List (List (α × Bool)) → γ} (ho : ¬ OddAxis x.val axis) :
    ((npValidateAxis x.two axis).bind fun ax => genRed x P ax keepdims line whole).isSome = true
      ↔ ∀ a, axis = some a → (npAxis x.val.isMat a).isSome = true := by
  rw [val_isMat]
  cases axis with
  | none =>
    refine ⟨fun _ a h => (by cases h), fun _ => ?_⟩
    simp only [npValidateAxis, Option.bind_some, genRed]
    cases x.two <;> rfl
  | some a =>
    have e : (∀ b, some a = some b → (npAxis x.two b).isSome = true) ↔ (npAxis x.two a).isSome = true :=
      ⟨fun h => h a rfl, fun h b hb => by cases hb; exact h⟩
    rw [e]
    cases hx2 : x.two
    · have h2 : ¬ 2 ≤ a := fun h2 => ho ⟨by rw [val_isMat, hx2], a, rfl, h2⟩
      by_cases h0 : a = 0
      · subst h0; simp [npValidateAxis, genRed, npAxis, hx2]
      · by_cases h1 : a = 1
        · subst h1; simp [npValidateAxis, genRed, npAxis, hx2]
        · by_cases hm : a = -1
          · subst hm; simp [npValidateAxis, genRed, npAxis, hx2]
          · have hneg : a < 0 := by omega
            have hv : npValidateAxis false (some a) = none := by
              simp only [npValidateAxis, if_pos hneg, Bool.false_eq_true, if_false]
              rw [if_neg (by omega)]
            rw [hv]
            have : npAxis false a = none := by
              unfold npAxis
              split <;> simp_all
            rw [this]; simp
    · by_cases h0 : a = 0
      · subst h0; simp [npValidateAxis, genRed, npAxis, hx2]
      · by_cases h1 : a = 1
        · subst h1; simp [npValidateAxis, genRed, npAxis, hx2]
        · by_cases hm : a = -1
          · subst hm; simp [npValidateAxis, genRed, npAxis, hx2]
          · by_cases hm2 : a = -2
            · subst hm2; simp [npValidateAxis, genRed, npAxis, hx2]
            · have hn : npAxis true a = none := by
                unfold npAxis
                split <;> simp_all
              rw [hn]
              by_cases hneg : a < 0
              · have hv : npValidateAxis true (some a) = none := by
                  simp only [npValidateAxis, if_pos hneg, if_true]
                  rw [if_neg (by omega)]
                rw [hv]; simp
              · have hv : npValidateAxis true (some a) = some (some a) := by
                  simp only [npValidateAxis, if_neg hneg]
                rw [hv]
                simp only [Option.bind_some, genRed, hx2]
                rw [if_neg (by simp)]
                have : a > 1 := by omega
                simp [this]

theorem bind_swap_isSome {γ δ ε : Type} (a : Option γ) (b : Option δ) (f : γ → δ → Option ε) (p : Prop)
    (h : ∀ d, b = some d → ((a.bind fun c => f c d).isSome = true ↔ p)) :
    (a.bind fun c => b.bind fun d => f c d).isSome = true ↔ (b.isSome = true ∧ p) := by
  cases b with
  | none => cases a <;> simp
  | some d =>
    have := h d rfl
    simpa using this

/-- **C76** A reduction is refused if and only if the axis is not one of the array or the mask does not fit;
`max` and `min` also want `initial` if there is a mask, as in NumPy.
Partial: NumPy accepts more masks (it stretches a length of `1`); arrays with one dimension and an axis such as `2` are left
out (`C76_axis_one_dim`). -/
theorem C76_refused_partial (x : NGrid α) (hx : x.WF) (axis : Option Int) (w : NpWhereG) (hw : w.WF)
    (ho : ¬ OddAxis x.val axis) :
    (∀ (op : α → α → α) e keepdims initial, (npSumLike op e x axis keepdims initial w).isSome = true
      ↔ (MaskAccepted w.spec x.val ∧ ∀ a, axis = some a → (npAxis x.val.isMat a).isSome = true)) := by
  intro op e keepdims initial
  rw [npSumLike_gen, ← npMaskFn_isSome hx hw]
  exact bind_swap_isSome _ _ _ _ (fun k _ => genRed_isSome ho)

/-- **C76** the same for `max` and `min` -/
theorem C76_max_refused_partial (x : NGrid (Option β)) (hx : x.WF) (axis : Option Int) (w : NpWhereG) (hw : w.WF)
    (ho : ¬ OddAxis x.val axis) (mx : β → β → β) (gt : β → β → Bool) (keepdims : Bool) (initial : Option β)
    (hkd : ¬ (x.two = false ∧ keepdims = true ∧ initial ≠ none)) :
    (npMaxLike mx gt x axis keepdims initial w).isSome = true
      ↔ ((initial = none → w.spec = .all)
          ∧ MaskAccepted w.spec x.val ∧ ∀ a, axis = some a → (npAxis x.val.isMat a).isSome = true) := by
  by_cases hi : initial.isNone = true → w.isTrue = true
  · rw [npMaxLike_gen mx gt x axis keepdims initial w hi
      (fun h1 h2 => Classical.byContradiction fun h3 => hkd ⟨h1, h2, h3⟩), ← npMaskFn_isSome hx hw]
    rw [bind_swap_isSome _ _ _ _ (fun k _ => genRed_isSome ho)]
    constructor
    · intro h
      refine ⟨fun h0 => ?_, h⟩
      have := hi (by rw [h0]; rfl)
      cases w with
      | all => rfl
      | nothing => cases this
      | mask m => cases this
    · exact fun h => h.2
  · have h1 : initial.isNone = true := Classical.byContradiction fun h => hi (fun h' => absurd h' h)
    have h2 : w.isTrue = false := by
      cases hb : w.isTrue
      · rfl
      · exact absurd (fun _ => hb) hi
    constructor
    · intro h
      unfold npMaxLike at h
      rw [h1, h2] at h
      cases hv : npValidateAxis x.two axis with
      | none => rw [hv] at h; cases h
      | some ax => rw [hv] at h; simp at h
    · intro h
      have := h.1 (Option.isNone_iff_eq_none.1 h1)
      cases w with
      | all => cases h2
      | nothing => cases this
      | mask m => cases this

/-- **C76** the same for `all` and `any` -/
theorem C76_truth_refused_partial (isAll : Bool) (x : NGrid (Option Bool)) (hx : x.WF) (axis : Option Int) (keepdims : Bool)
    (w : NpWhereG) (hw : w.WF) (ho : ¬ OddAxis x.val axis) (hkd : ¬ (x.two = true ∧ axis = none ∧ keepdims = true)) :
    (npTruthLike isAll x axis keepdims w).isSome = true
      ↔ (MaskAccepted w.spec x.val ∧ ∀ a, axis = some a → (npAxis x.val.isMat a).isSome = true) := by
  rw [npTruthLike_gen isAll x axis keepdims w hkd, ← npMaskFn_isSome hx hw]
  exact bind_swap_isSome _ _ _ _ (fun k _ => genRed_isSome ho)

/-! ## concrete cases -/

namespace C76

/-- an array with two rows and three columns -/
def m23 : NGrid Int := ⟨true, 2, 3, [[1, 2, 3], [4, 5, 6]]⟩
def v3 : NGrid Int := ⟨false, 3, 1, [[1], [2], [3]]⟩
def mask23 : NGrid Bool := ⟨true, 2, 3, [[true, false, true], [false, false, true]]⟩
def rowMask : NGrid Bool := ⟨false, 3, 1, [[true], [false], [true]]⟩
def o23 : NGrid (Option Int) := ⟨true, 2, 3, [[some 1, some 2, some 3], [some 4, none, some 6]]⟩
def ov3 : NGrid (Option Int) := ⟨false, 3, 1, [[some 1], [some 7], [some 3]]⟩
def b22 : NGrid (Option Bool) := ⟨true, 2, 2, [[some true, some false], [some true, none]]⟩
def imax (a b : Int) : Int := if a ≥ b then a else b
def igt (a b : Int) : Bool := decide (a > b)

end C76

open C76

/-- sums along both axes, of a part of the elements, from an initial value on -/
example : npSumLike (· + ·) 0 m23 (some 0) false none .all = some (.arr ⟨false, 3, 1, [[5], [7], [9]]⟩)
    ∧ npSumLike (· + ·) 0 m23 (some (-1)) true (some 10) (.mask mask23) = some (.arr ⟨true, 2, 1, [[14], [16]]⟩)
    ∧ npSumLike (· + ·) 0 m23 none false (some 10) (.mask rowMask) = some (.scalar 24) := by decide +kernel
example : npExpected (npFold (· + ·) 10) m23.val (some (-1)) true (NpWhereG.mask mask23).spec
    = some (.arr (.mat 2 1 [[14], [16]])) := by decide +kernel

/-- the hypotheses of `C76_sum_partial` are met -/
example : (∀ a b : Int, a + b = b + a) ∧ (∀ a b c : Int, a + b + c = a + (b + c)) ∧ (∀ a : Int, a + 0 = a)
    ∧ m23.WF ∧ (NpWhereG.mask mask23).WF ∧ ¬ OddAxis m23.val (some (-1)) := by
  refine ⟨Int.add_comm, Int.add_assoc, Int.add_zero, by unfold NGrid.WF; decide, by show NGrid.WF _; unfold NGrid.WF; decide, ?_⟩
  intro h; exact absurd h.1 (by decide)

/-- the laws of the greatest element hold of integers -/
example : ExtLaws imax igt := by
  constructor
  · intro a b; unfold imax; split <;> split <;> omega
  · intro a b c; unfold imax; repeat' split
    all_goals omega
  · intro a; unfold imax; simp
  · intro a b; unfold imax igt; simp only [decide_eq_true_eq]; split <;> split <;> omega

/-- the maximum of the elements that are not NaN, selected by a mask -/
example : npMaxLike imax igt o23 none false (some 0) (.mask mask23) = some (.scalar (some 6))
    ∧ (∀ k, (NpWhereG.mask mask23).spec.counts o23.val = some k → none ∉ npCounted (o23.val.zipMask k).elems)
    ∧ o23.WF ∧ o23.val.elems ≠ [] := by
  refine ⟨by decide +kernel, ?_, by unfold NGrid.WF; decide, by decide⟩
  intro k hk
  have : (NpWhereG.mask mask23).spec.counts o23.val
      = some fun i j => ((mask23.val.get? (bpick mask23.val.nrows i) (bpick mask23.val.ncols j)).getD false) := by
    simp only [NpWhereG.spec, NpWhere.counts]
    rw [if_pos (by decide)]
  rw [this] at hk
  cases hk
  decide +kernel

example : npTruthLike true b22 (some 1) false .all = some (.arr ⟨false, 2, 1, [[false], [true]]⟩)
    ∧ npTruthLike false b22 (some 0) true (.mask ⟨true, 2, 2, [[false, true], [true, false]]⟩) = some (.arr ⟨true, 1, 2, [[true, false]]⟩) := by
  decide +kernel

/-- **C76 (negative)** `max` leaves NaN out; NumPy answers NaN -/
theorem C76_max_nan : npMaxLike imax igt o23 (some 0) false none .all = some (.arr ⟨false, 3, 1, [[some 4], [some 2], [some 6]]⟩)
    ∧ npExpected (extSpec imax none) o23.val (some 0) false .all = some (.arr (.vec [some 4, none, some 6])) := by
  decide +kernel

/-- **C76 (negative)** with `keepdims=True` and an initial value the maximum of an array with one dimension is always the
initial value -/
theorem C76_max_keepdims_initial : npMaxLike imax igt ov3 none true (some 0) .all = some (.arr ⟨false, 1, 1, [[some 0]]⟩)
    ∧ npExpected (extSpec imax (some 0)) ov3.val none true .all = some (.arr (.vec [some 7])) := by decide +kernel

/-- **C76 (negative)** the maximum of an empty array with an initial value is NaN; NumPy answers the initial value -/
theorem C76_max_empty : npMaxLike imax igt ⟨false, 0, 1, []⟩ none false (some 5) .all = some (.scalar none)
    ∧ npExpected (extSpec imax (some 5)) (NGrid.val ⟨false, 0, 1, []⟩) none false .all = some (.scalar (some 5)) := by
  decide +kernel

/-- **C76 (negative)** `any` leaves NaN out; for NumPy NaN is true -/
theorem C76_any_nan : npTruthLike false ⟨false, 2, 1, [[some false], [none]]⟩ none false .all = some (.scalar false)
    ∧ npExpected (truthSpec false) (NGrid.val ⟨false, 2, 1, [[some false], [none]]⟩) none false .all = some (.scalar true) := by
  decide +kernel

/-- **C76 (negative)** with `axis=None` and `keepdims=True`, `all` of an array with two dimensions is always true -/
theorem C76_all_keepdims : npTruthLike true b22 none true .all = some (.arr ⟨true, 1, 1, [[true]]⟩)
    ∧ npExpected (truthSpec true) b22.val none true .all = some (.arr (.mat 1 1 [[false]])) := by decide +kernel

/-- **C76 (negative)** the axis `2` of an array with one dimension is accepted -/
theorem C76_axis_one_dim : npSumLike (· + ·) 0 v3 (some 2) false none .all = some (.scalar 6)
    ∧ npExpected (npFold (· + ·) 0) v3.val (some 2) false .all = none := by decide +kernel
