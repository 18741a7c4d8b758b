import Verif.Model.NumpyIndex
import Verif.Lemmas.Take
import Verif.Props.Pieces
/-
C100: `a[key]` of a `modin.numpy` array is NumPy's.
-/

variable {α : Type}

theorem axisPos_inside {n p : Nat} {i : Int} (h : axisPos n i = some p) : p < n := by
  unfold axisPos at h
  split at h
  · split at h
    · cases h; assumption
    · cases h
  · split at h
    · cases h; omega
    · cases h

theorem mapM_axisPos_inside {n : Nat} : ∀ {is : List Int} {ps : List Nat}, is.mapM (axisPos n) = some ps → ∀ p ∈ ps, p < n
  | [], ps, h => by
    cases h; simp
  | i :: is, ps, h => by
    rw [List.mapM_cons] at h
    obtain ⟨p, e1, h⟩ := Option.bind_eq_some_iff.1 h
    obtain ⟨qs, e2, h⟩ := Option.bind_eq_some_iff.1 h
    cases h
    intro q hq
    rcases List.mem_cons.1 hq with rfl | hq
    · exact axisPos_inside e1
    · exact mapM_axisPos_inside e2 q hq

theorem mapM_axisPos_plain {n : Nat} : ∀ {is : List Int}, (∀ i ∈ is, 0 ≤ i) →
    is.mapM (axisPos n) = if (is.map Int.toNat).all (fun p => decide (p < n)) then some (is.map Int.toNat) else none
  | [], _ => rfl
  | i :: is, h => by
    have h0 := h i (by simp)
    rw [List.mapM_cons, mapM_axisPos_plain fun j hj => h j (List.mem_cons_of_mem _ hj)]
    unfold axisPos
    rw [if_pos h0]
    by_cases h1 : i.toNat < n
    · rw [if_pos h1]
      simp only [List.map_cons, List.all_cons, h1, decide_true, Bool.true_and]
      split <;> rfl
    · rw [if_neg h1]
      simp [h1]

theorem sliceBound_inside (n : Nat) (i : Int) : sliceBound n i ≤ n := by
  unfold sliceBound
  split <;> omega

/-- what is taken along an axis are the positions the key stands for -/
theorem npTaken_addressed {n : Nat} {k : IKey} (hm : ∀ bs, k = .mask bs → bs.length = n) : k.npTaken n = k.addressed n := by
  unfold IKey.npTaken
  cases k with
  | int i =>
    simp only [IKey.npLookup, IKey.addressed]
    by_cases h : i < 0
    · rw [if_pos h]
      cases e : axisPos n i with
      | none => rfl
      | some p => simp [axisPos_inside e]
    · rw [if_neg h]
      unfold axisPos
      rw [if_pos (by omega)]
      by_cases h1 : i.toNat < n <;> simp [h1]
  | list is =>
    simp only [IKey.npLookup, IKey.addressed]
    by_cases h : is.any (· < 0) = true
    · rw [if_pos h]
      cases e : is.mapM (axisPos n) with
      | none => rfl
      | some ps =>
        rw [Option.bind_some, if_pos]
        rw [List.all_eq_true]
        intro p hp
        simpa using mapM_axisPos_inside e p hp
    · rw [if_neg h, Option.bind_some, mapM_axisPos_plain]
      intro i hi
      apply Int.not_lt.1
      intro hneg
      exact h (List.any_eq_true.2 ⟨i, hi, by simpa using hneg⟩)
  | mask bs =>
    simp only [IKey.npLookup, IKey.addressed, hm bs rfl, Option.bind_some, ↓reduceIte]
    rw [if_pos]
    rw [List.all_eq_true]
    intro p hp
    simpa using List.mem_range.1 (List.mem_filter.1 hp).1
  | slice a b =>
    simp only [IKey.npLookup, IKey.addressed, Option.bind_some]
    rw [if_pos]
    rw [List.all_eq_true]
    intro p hp
    rw [List.mem_range'_1] at hp
    have : (b.map (sliceBound n)).getD n ≤ n := by
      cases b with
      | none => simp
      | some i => simpa using sliceBound_inside n i
    simp only [decide_eq_true_eq]
    omega

theorem addressed_inside {n : Nat} {k : IKey} {ps : List Nat} (h : k.addressed n = some ps) : ∀ p ∈ ps, p < n := by
  by_cases hm : ∀ bs, k = .mask bs → bs.length = n
  · rw [← npTaken_addressed hm] at h
    unfold IKey.npTaken at h
    obtain ⟨qs, _, h⟩ := Option.bind_eq_some_iff.1 h
    split at h
    · cases h
      rename_i h1
      intro p hp
      simpa using List.all_eq_true.1 h1 p hp
    · cases h
  · exfalso
    apply hm
    rintro bs rfl
    simp only [IKey.addressed] at h
    split at h
    · assumption
    · cases h

theorem addressed_int {n : Nat} {k : IKey} {ps : List Nat} (hk : k.isInt = true) (h : k.addressed n = some ps) : ps.length = 1 := by
  cases k with
  | int i =>
    simp only [IKey.addressed, Option.map_eq_some_iff] at h
    obtain ⟨p, _, rfl⟩ := h
    rfl
  | _ => cases hk

theorem all_addressed (n : Nat) : (IKey.slice none none).addressed n = some (List.range n) := by
  simp [IKey.addressed, List.range_eq_range']

theorem columns_of_one (row : List α) {n : Nat} (h : row.length = n) :
    ((List.range n).map fun j => [row].filterMap (·[j]?)).flatten = row := by
  subst h
  have : (List.range row.length).map (fun j => [row].filterMap (·[j]?)) = row.map ([·]) := by
    apply List.ext_getElem
    · simp
    · intro i h1 h2
      have hi : i < row.length := by simpa using h2
      simp [hi]
  rw [this]
  clear this
  induction row with
  | nil => rfl
  | cons x l ih => simp [ih]

/-- the object made of the view of a two-dimensional array -/
theorem npObject_crossed {rows : List (List α)} {w : Nat} (hw : ∀ r ∈ rows, r.length = w) {ps qs : List Nat} {rs cs : Bool}
    (hps : ∀ p ∈ ps, p < rows.length) (hqs : ∀ q ∈ qs, q < w) (hr : rs = true → ps.length = 1) (hc : cs = true → qs.length = 1)
    (hne : rs = false → qs ≠ []) :
    npObject true rs cs ps.length qs.length ((takeList rows ps).map fun row => takeList row qs) = npCrossed rows rs cs ps qs := by
  have hlen : (takeList rows ps).length = ps.length := takeList_length hps
  have hmem : ∀ r ∈ takeList rows ps, r ∈ rows := by
    intro r hr
    obtain ⟨p, _, e⟩ := List.mem_filterMap.1 hr
    exact List.mem_of_getElem? e
  cases rs with
  | false =>
    have h0 : qs.length ≠ 0 := fun e => hne rfl (List.length_eq_zero_iff.1 e)
    cases cs <;> simp [npObject, npMake, npCrossed, h0, NGrid.val]
  | true =>
    have h1 := hr rfl
    obtain ⟨row, e⟩ := List.length_eq_one_iff.1 (hlen.trans h1)
    have hrow : (takeList row qs).length = qs.length := by
      apply takeList_length
      intro q hq
      rw [hw row (hmem row (by rw [e]; simp))]
      exact hqs q hq
    cases cs with
    | false =>
      simp only [npObject, npMake, npCrossed, e, h1, NGrid.val]
      simp only [List.map_cons, List.map_nil]
      rw [columns_of_one _ hrow]
      simp
    | true =>
      simp [npObject, npCrossed, e]

/-- **C100.** `a[r]` and `a[r, c]` of a `modin.numpy` array are NumPy's: the same cells, the same number of dimensions, a value where
    NumPy gives a value, and an exception where NumPy raises, for every array and all keys that are integers (negative ones and ones
    outside included), lists of integers, lists of booleans and slices.

    Partial.  False and excluded: two lists at once (`C100_two_lists_crossed`), a list of booleans of another length
    (`C100_mask_length`), two keys for an array with one dimension (`C100_too_many_keys`), no columns left (`C100_no_columns`), a NumPy
    array of booleans with two dimensions (`C100_mask_of_cells`). -/
theorem C100_getitem_partial (x : NGrid α) (hx : x.WF) (r : IKey) (c : Option IKey)
    (hr : ∀ bs, r = .mask bs → bs.length = x.nr) (hc : ∀ bs, c = some (.mask bs) → bs.length = x.nc)
    (hpair : ∀ k, c = some k → (r.isListed && k.isListed) = false) (hone : x.two = false → c = none)
    (hcols : x.two = true → r.isInt = false → (c.getD (.slice none none)).addressed x.nc ≠ some []) :
    x.getitem r c = npGetitem x.val r c := by
  obtain ⟨two, nr, nc, rows⟩ := x
  obtain ⟨hx1, hx2, hx3⟩ := hx
  simp only at hx1 hx2 hx3 hr hc hone hcols
  unfold NGrid.getitem
  simp only
  rw [npTaken_addressed hr]
  have hc' : ∀ bs, c.getD (.slice none none) = .mask bs → bs.length = nc := by
    intro bs e
    cases c with
    | none => cases e
    | some k => exact hc bs (by rw [Option.getD_some] at e; rw [e])
  rw [npTaken_addressed hc']
  cases two with
  | false =>
    have h1 := hx3 rfl
    have h2 := hone rfl
    subst h1 h2
    obtain ⟨v, rfl⟩ : ∃ v : List α, rows = v.map ([·]) := by
      refine ⟨rows.flatten, ?_⟩
      clear hx1 hr
      induction rows with
      | nil => rfl
      | cons a l ih =>
        obtain ⟨y, rfl⟩ := List.length_eq_one_iff.1 (hx2 a (by simp))
        have := ih fun b hb => hx2 b (List.mem_cons_of_mem _ hb)
        rw [List.flatten_cons, List.map_append, ← this]
        rfl
    have hv : (v.map ([·])).flatten = v := by
      clear hx1 hr hx2
      induction v with
      | nil => rfl
      | cons y l ih => rw [List.map_cons, List.flatten_cons, ih]; rfl
    have hl : v.length = nr := by simpa using hx1
    simp only [NGrid.val, Bool.false_eq_true, ↓reduceIte, hv, npGetitem, hl, Option.getD_none, all_addressed]
    congr 1
    funext ps
    have hview : (takeList (v.map ([·])) ps).map (fun row : List α => takeList row (List.range 1)) = (takeList v ps).map ([·]) := by
      induction ps with
      | nil => rfl
      | cons p ps ih =>
        unfold takeList at ih ⊢
        rw [List.filterMap_cons, List.filterMap_cons, List.getElem?_map]
        cases v[p]? with
        | none => exact ih
        | some y =>
          simp only [Option.map_some, List.map_cons]
          rw [ih]; rfl
    have hflat : ((takeList v ps).map ([·])).flatten = takeList v ps := by
      induction takeList v ps with
      | nil => rfl
      | cons y l ih => rw [List.map_cons, List.flatten_cons, ih]; rfl
    rw [Option.bind_some, hview]
    cases r.isInt with
    | true =>
      simp only [npObject, IKey.isInt, ↓reduceIte]
      cases takeList v ps <;> simp
    | false =>
      simp [npObject, npMake, IKey.isInt, NGrid.val, hflat]
  | true =>
    cases c with
    | none =>
      simp only [NGrid.val, ↓reduceIte, npGetitem, Option.getD_none, all_addressed, Option.bind_some]
      cases e : r.addressed nr with
      | none => rfl
      | some ps =>
        rw [Option.bind_some, Option.bind_some]
        refine npObject_crossed hx2 (by rw [hx1]; exact addressed_inside e) (by simp) (fun h => addressed_int h e) (by simp [IKey.isInt]) ?_
        intro h0 h1
        exact hcols rfl h0 (by rw [Option.getD_none, all_addressed, h1])
    | some k =>
      simp only [NGrid.val, ↓reduceIte, npGetitem, Option.getD_some, hpair k rfl, Bool.false_eq_true]
      cases e : r.addressed nr with
      | none => rfl
      | some ps =>
        rw [Option.bind_some, Option.bind_some]
        cases e2 : k.addressed nc with
        | none => rfl
        | some qs =>
          rw [Option.bind_some, Option.bind_some]
          refine npObject_crossed hx2 (by rw [hx1]; exact addressed_inside e) (addressed_inside e2) (fun h => addressed_int h e)
            (fun h => addressed_int h e2) ?_
          intro h0 h1
          exact hcols rfl h0 (by rw [Option.getD_some, e2, h1])

/-! ### a case, and where it goes wrong -/

namespace NumpyIndexDemo

def a : NGrid Int := ⟨true, 3, 2, [[1, 2], [3, 4], [5, 6]]⟩
def v : NGrid Int := ⟨false, 3, 1, [[7], [8], [9]]⟩

theorem a_wf : a.WF := ⟨rfl, by decide, by decide⟩
theorem v_wf : v.WF := ⟨rfl, by decide, by decide⟩

/-- `a[-1]`, `a[[2, 0], 1:]`, `a[1, 0]`, `a[:, -1]`, `a[[True, False, True]]` -/
example : a.getitem (.int (-1)) none = some (.arr (.vec [5, 6])) := by
  rw [C100_getitem_partial a a_wf _ _ (by simp) (by simp) (by simp) (by decide) (by decide)]; decide
example : a.getitem (.list [2, 0]) (some (.slice (some 1) none)) = some (.arr (.mat 2 1 [[6], [2]])) := by
  rw [C100_getitem_partial a a_wf _ _ (by simp) (by simp) (by simp [IKey.isListed]) (by decide) (by decide)]; decide
example : a.getitem (.int 1) (some (.int 0)) = some (.scalar 3) := by
  rw [C100_getitem_partial a a_wf _ _ (by simp) (by simp) (by simp [IKey.isListed]) (by decide) (by decide)]; decide
example : a.getitem (.slice none none) (some (.int (-1))) = some (.arr (.vec [2, 4, 6])) := by
  rw [C100_getitem_partial a a_wf _ _ (by simp) (by simp) (by simp [IKey.isListed]) (by decide) (by decide)]; decide
example : a.getitem (.mask [true, false, true]) none = some (.arr (.mat 2 2 [[1, 2], [5, 6]])) := by
  rw [C100_getitem_partial a a_wf _ _ (by intro bs e; cases e; rfl) (by simp) (by simp) (by decide) (by decide)]; decide
/-- outside -/
example : a.getitem (.int 3) none = none := by
  rw [C100_getitem_partial a a_wf _ _ (by simp) (by simp) (by simp) (by decide) (by decide)]; decide
/-- one dimension: `v[-2]`, `v[1:]` -/
example : v.getitem (.int (-2)) none = some (.scalar 8) := by
  rw [C100_getitem_partial v v_wf _ _ (by simp) (by simp) (by simp) (by decide) (by decide)]; decide
example : v.getitem (.slice (some 1) none) none = some (.arr (.vec [8, 9])) := by
  rw [C100_getitem_partial v v_wf _ _ (by simp) (by simp) (by simp) (by decide) (by decide)]; decide

/-- **C100, violated.** `a[[0, 2], [1, 0]]` is `[2, 5]` in NumPy; here it is the array of two rows and two columns. -/
theorem C100_two_lists_crossed :
    npGetitem a.val (.list [0, 2]) (some (.list [1, 0])) = some (.arr (.vec [2, 5])) ∧
    a.getitem (.list [0, 2]) (some (.list [1, 0])) = some (.arr (.mat 2 2 [[2, 1], [6, 5]])) := by decide

/-- **C100, violated.** A list of booleans that is too short raises in NumPy; here it is accepted. -/
theorem C100_mask_length :
    npGetitem a.val (.mask [true, false]) none = none ∧
    a.getitem (.mask [true, false]) none = some (.arr (.mat 1 2 [[1, 2]])) := by decide

/-- **C100, violated.** `v[1, 0]` of an array with one dimension raises in NumPy; here it is `v[1]`. -/
theorem C100_too_many_keys :
    npGetitem v.val (.int 1) (some (.int 0)) = none ∧ v.getitem (.int 1) (some (.int 0)) = some (.scalar 8) := by decide

/-- **C100, violated.** `a[:, 2:]` has shape `(3, 0)` in NumPy; here it raises. -/
theorem C100_no_columns :
    npGetitem a.val (.slice none none) (some (.slice (some 2) none)) = some (.arr (.mat 3 0 [[], [], []])) ∧
    a.getitem (.slice none none) (some (.slice (some 2) none)) = none := by decide

/-- **C100, violated.** `a[mask]` with a NumPy array of booleans for every cell: NumPy gives the cells that are wanted, here it is a row
    for each of them. -/
theorem C100_mask_of_cells :
    npGetMask2 a.rows [[true, true], [false, false], [false, true]] = .arr (.vec [1, 2, 6]) ∧
    a.getMask2 [[true, true], [false, false], [false, true]] = some (.arr (.mat 3 2 [[1, 2], [1, 2], [5, 6]])) := by decide

end NumpyIndexDemo
