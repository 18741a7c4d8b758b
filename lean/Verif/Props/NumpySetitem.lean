import Verif.Model.NumpySetitem
import Verif.Lemmas.LocAssign
import Verif.Props.LocAssign
import Verif.Props.NumpyIndex
import Verif.Lemmas.Share
/-
C101: `a[key] = value` of a `modin.numpy` array is NumPy's.
-/

variable {L α : Type} [DecidableEq L]

theorem npWrite_vec (v : List α) (ps : List Nat) (f : Nat → Nat → Option α) :
    (npWrite (v.map ([·])) ps [0] f).flatten = v.mapIdx fun x y => match lastPos ps x with
      | some i => (f i 0).getD y
      | none => y := by
  have : npWrite (v.map ([·])) ps [0] f = (v.mapIdx fun x y => match lastPos ps x with
      | some i => (f i 0).getD y
      | none => y).map ([·]) := by
    unfold npWrite
    apply List.ext_getElem
    · simp
    · intro i h1 h2
      simp only [List.getElem_mapIdx, List.getElem_map, List.mapIdx_cons, List.mapIdx_nil, lastPos]
      cases lastPos ps i <;> simp
  rw [this]
  generalize (v.mapIdx fun x y => match lastPos ps x with
      | some i => (f i 0).getD y
      | none => y) = w
  induction w with
  | nil => rfl
  | cons y l ih => rw [List.map_cons, List.flatten_cons, ih]; rfl

/-- **C101.** `a[r] = value` and `a[r, c] = value` of a `modin.numpy` array are NumPy's, for every array and every division into blocks:
    afterwards the array has the cells NumPy's has, and its frame the same labels.  The keys are integers, lists of integers (in any order,
    with repeats), lists of booleans and slices; the value is a scalar, an array of two dimensions with the shape of `a[key]`, or an array
    of one dimension for a part of one column (or of an array with one dimension).

    Partial.  False and excluded: an array of one dimension for a row (`C101_row_gets_first_value`), two lists at once
    (`C101_two_lists_crossed`), values that do not broadcast but have the right number of cells (`C101_reshaped`); for values that are
    arrays, slices that do not start with the first position (`C10_range_with_uneven_blocks_wrong`).  Not proved: values that are
    broadcast; slices that run backwards. -/
theorem C101_setitem_partial {m : LFrame L L α} {df : Frame L L α} (h : m.Shows df) (two : Bool) (r : IKey) (c : Option IKey)
    (value : Item α) (hone : two = false → df.ncols = 1 ∧ c = none)
    {ps qs : List Nat} (hp : r.addressed df.nrows = some ps) (hq : (c.getD (.slice none none)).addressed df.ncols = some qs)
    (hfr : r.Forward df.nrows) (hfc : (c.getD (.slice none none)).Forward df.ncols)
    (hpair : ∀ k, c = some k → (r.isListed && k.isListed) = false)
    (hvalue : match value with
      | .scalar _ => True
      | .arr1 xs => r.isInt = false ∧ (two = false ∨ ∃ k, c = some k ∧ k.isInt = true) ∧ xs.length = ps.length
      | .arr2 M => two = true ∧ r.isInt = false ∧ (c.getD (.slice none none)).isInt = false ∧ M.length = ps.length ∧
          ∀ x ∈ M, x.length = qs.length)
    (hsafe : (∃ v, value = .scalar v) ∨ r.FromStart df.nrows ∧ (c.getD (.slice none none)).FromStart df.ncols) :
    ∃ m' df', m.npSetitem r c value = some m' ∧ m'.Shows df' ∧ df'.index = df.index ∧ df'.columns = df.columns ∧
      npSetitem (npShown two df) r c value = some (npShown two df') := by
  obtain ⟨p, e1, e2, e3, e4⟩ := IKey.lookup_spec hp hfr
  obtain ⟨q, d1, d2, d3, d4⟩ := IKey.lookup_spec hq hfc
  have hpc : p.count = ps.length := by rw [count_toList, e2]
  have hqc : q.count = qs.length := by rw [count_toList, d2]
  -- one column where the value has one dimension
  have hcol : ∀ xs, value = .arr1 xs → qs.length = 1 := by
    rintro xs rfl
    rcases hvalue.2.1 with h1 | ⟨k, rfl, hk⟩
    · obtain ⟨h2, rfl⟩ := hone h1
      rw [Option.getD_none, all_addressed, h2] at hq
      cases hq; rfl
    · exact addressed_int hk hq
  have hm : value.Matches p.count q.count := by
    rw [hpc, hqc]
    cases value with
    | scalar v => trivial
    | arr1 xs => exact Or.inl ⟨hcol xs rfl, hvalue.2.2⟩
    | arr2 M => exact hvalue.2.2.2
  obtain ⟨m', w1, w2⟩ := writeItems_shows h e3 d3 hm (fun xs hx => by rw [hqc]; exact hcol xs hx)
    (hsafe.imp id fun s => ⟨e4 s.1, d4 s.2⟩)
  rw [e2, d2, hqc] at w2
  refine ⟨m', _, ?_, w2, rfl, rfl, ?_⟩
  · unfold LFrame.npSetitem
    rw [h.getIndex, h.getColumns]
    show (r.lookup df.nrows).bind _ = _
    rw [e1, Option.bind_some]
    show ((c.getD (.slice none none)).lookup df.ncols).bind _ = _
    rw [d1, Option.bind_some]
    exact w1
  · -- the values are those of the specification
    have hfill : npSpread r.isInt (if two then (c.getD (.slice none none)).isInt else true) ps.length qs.length value = some (value.at qs.length) := by
      cases value with
      | scalar v => rfl
      | arr1 xs =>
        have hq1 := hcol xs rfl
        obtain ⟨h1, h2, h3⟩ := hvalue
        have h4 : (if two then (c.getD (.slice none none)).isInt else true) = true := by
          cases two with
          | false => rfl
          | true =>
            rcases h2 with h2 | ⟨k, rfl, hk⟩
            · cases h2
            · exact hk
        rw [h4, h1]
        simp only [npSpread, npSpread1, h3, ↓reduceIte]
        congr 1
        funext i j
        simp [Item.at, hq1]
      | arr2 M =>
        obtain ⟨h1, h2, h3, h4, h5⟩ := hvalue
        rw [h1, h2]
        simp only [↓reduceIte, h3]
        simp only [npSpread, Bool.or_self, Bool.false_eq_true, ↓reduceIte]
        rw [if_pos ⟨h4, h5⟩]
        rfl
    cases two with
    | true =>
      cases c with
      | none =>
        rw [Option.getD_none, all_addressed] at hq
        cases hq
        simp only [npShown, ↓reduceIte, npSetitem, hp, Option.bind_some]
        have hfill : npSpread r.isInt false ps.length df.ncols value = some (value.at df.ncols) := by
          rw [List.length_range] at hfill
          exact hfill
        rw [hfill, List.length_range]
        rfl
      | some k =>
        rw [Option.getD_some] at hq
        simp only [npShown, ↓reduceIte, npSetitem, hp, hq, Option.bind_some, hpair k rfl, Bool.false_eq_true]
        simp only [↓reduceIte, Option.getD_some] at hfill
        rw [hfill]
        rfl
    | false =>
      obtain ⟨h1, rfl⟩ := hone rfl
      rw [Option.getD_none, all_addressed, h1] at hq
      cases hq
      obtain ⟨v, hv⟩ : ∃ v : List α, df.rows = v.map ([·]) := by
        refine ⟨df.rows.flatten, ?_⟩
        have hw : ∀ row ∈ df.rows, row.length = 1 := fun row hrow => (h.wf.2 row hrow).trans h1
        generalize df.rows = rows at hw
        induction rows with
        | nil => rfl
        | cons a l ih =>
          obtain ⟨y, rfl⟩ := List.length_eq_one_iff.1 (hw a (by simp))
          have := ih fun b hb => hw b (List.mem_cons_of_mem _ hb)
          rw [List.flatten_cons, List.map_append, ← this]
          rfl
      have hflat : (v.map ([·])).flatten = v := by
        clear hv
        induction v with
        | nil => rfl
        | cons y l ih => rw [List.map_cons, List.flatten_cons, ih]; rfl
      have hl : v.length = df.nrows := by
        have := h.wf.1
        rw [hv, List.length_map] at this
        exact this
      simp only [npShown, Bool.false_eq_true, ↓reduceIte, npSetitem, hv, hflat, hl, hp, Option.bind_some]
      simp only [Bool.false_eq_true, ↓reduceIte, List.length_range] at hfill
      rw [hfill, Option.map_some]
      congr 2
      have := npWrite_vec v ps (value.at 1)
      rw [← hv] at this
      exact this.symm

/-! ### a case, and where it goes wrong -/

namespace NumpySetitemDemo

/-- three rows and two columns in four blocks -/
def df : Frame Nat Nat Int := ⟨[0, 1, 2], [0, 1], [[1, 2], [3, 4], [5, 6]]⟩
def m : LFrame Nat Nat Int := ⟨⟨df.cut [2, 1] [1, 1], none, none, none, none⟩, false, false⟩
theorem m_shows : m.Shows df := represents_shows (m := ⟨df.cut [2, 1] [1, 1], none, none, none, none⟩) ⟨by constructor <;> decide, ⟨[2, 1], [1, 1],
    by constructor <;> decide, rfl, Or.inl rfl, Or.inl rfl⟩, Or.inl rfl, Or.inl rfl⟩

/-- one dimension -/
def dv : Frame Nat Nat Int := ⟨[0, 1, 2], [0], [[7], [8], [9]]⟩
def v : LFrame Nat Nat Int := ⟨⟨dv.cut [2, 1] [1], none, none, none, none⟩, false, false⟩
theorem v_shows : v.Shows dv := represents_shows (m := ⟨dv.cut [2, 1] [1], none, none, none, none⟩) ⟨by constructor <;> decide, ⟨[2, 1], [1],
    by constructor <;> decide, rfl, Or.inl rfl, Or.inl rfl⟩, Or.inl rfl, Or.inl rfl⟩

/-- what the frame shows -/
def shown (m : Option (LFrame Nat Nat Int)) : Option (List (List Int)) := (m.bind (·.toPandas 0)).map (·.rows)

/-- `a[[2, 0], -1] = [10, 20]`, `a[1:] = 0`, `a[[2, 0]] = [[1, 2], [3, 4]]`, `v[[2, 0]] = [1, 2]` -/
example : ∃ m' df', m.npSetitem (.list [2, 0]) (some (.int (-1))) (.arr1 [10, 20]) = some m' ∧ m'.Shows df' ∧
    some (npShown true df') = some (.mat 3 2 [[1, 20], [3, 4], [5, 10]]) := by
  obtain ⟨m', df', h1, h2, _, _, h3⟩ := C101_setitem_partial m_shows true (.list [2, 0]) (some (.int (-1))) (.arr1 [10, 20]) (by decide)
    (ps := [2, 0]) (qs := [1]) (by decide) (by decide) (by decide) (by decide) (by simp [IKey.isListed])
    ⟨rfl, Or.inr ⟨_, rfl, rfl⟩, rfl⟩ (Or.inr (by decide))
  exact ⟨m', df', h1, h2, by rw [← h3]; decide⟩
example : ∃ m' df', m.npSetitem (.slice (some 1) none) none (.scalar 0) = some m' ∧ m'.Shows df' ∧
    some (npShown true df') = some (.mat 3 2 [[1, 2], [0, 0], [0, 0]]) := by
  obtain ⟨m', df', h1, h2, _, _, h3⟩ := C101_setitem_partial m_shows true (.slice (some 1) none) none (.scalar 0) (by decide)
    (ps := [1, 2]) (qs := [0, 1]) (by decide) (by decide) (by decide) (by decide) (by simp) trivial (Or.inl ⟨_, rfl⟩)
  exact ⟨m', df', h1, h2, by rw [← h3]; decide⟩
example : ∃ m' df', m.npSetitem (.list [2, 0]) none (.arr2 [[10, 20], [30, 40]]) = some m' ∧ m'.Shows df' ∧
    some (npShown true df') = some (.mat 3 2 [[30, 40], [3, 4], [10, 20]]) := by
  obtain ⟨m', df', h1, h2, _, _, h3⟩ := C101_setitem_partial m_shows true (.list [2, 0]) none (.arr2 [[10, 20], [30, 40]]) (by decide)
    (ps := [2, 0]) (qs := [0, 1]) (by decide) (by decide) (by decide) (by decide) (by simp)
    ⟨rfl, rfl, rfl, rfl, by decide⟩ (Or.inr (by decide))
  exact ⟨m', df', h1, h2, by rw [← h3]; decide⟩
example : ∃ m' df', v.npSetitem (.list [2, 0]) none (.arr1 [10, 20]) = some m' ∧ m'.Shows df' ∧
    some (npShown false df') = some (.vec [20, 8, 10]) := by
  obtain ⟨m', df', h1, h2, _, _, h3⟩ := C101_setitem_partial v_shows false (.list [2, 0]) none (.arr1 [10, 20]) (by decide)
    (ps := [2, 0]) (qs := [0]) (by decide) (by decide) (by decide) (by decide) (by simp)
    ⟨rfl, Or.inl rfl, rfl⟩ (Or.inr (by decide))
  exact ⟨m', df', h1, h2, by rw [← h3]; decide⟩

/-- **C101, violated.** `a[0] = [10, 20]` puts 10 in both cells of the row: the order of the rows is applied to the values of the
    columns. -/
theorem C101_row_gets_first_value :
    npSetitem (npShown true df) (.int 0) none (.arr1 [10, 20]) = some (.mat 3 2 [[10, 20], [3, 4], [5, 6]]) ∧
    shown (m.npSetitem (.int 0) none (.arr1 [10, 20])) = some [[10, 10], [3, 4], [5, 6]] := by decide

/-- **C101, violated.** `a[[0, 2], [1, 0]] = 9` changes two cells in NumPy and four here. -/
theorem C101_two_lists_crossed :
    npSetitem (npShown true df) (.list [0, 2]) (some (.list [1, 0])) (.scalar 9) = some (.mat 3 2 [[1, 9], [3, 4], [9, 6]]) ∧
    shown (m.npSetitem (.list [0, 2]) (some (.list [1, 0])) (.scalar 9)) = some [[9, 9], [3, 4], [9, 9]] := by decide

/-- **C101, violated.** `a[:, :] = [[1, 2, 3], [4, 5, 6]]` raises in NumPy; here the value is given another shape. -/
theorem C101_reshaped :
    npSetitem (npShown true df) (.slice none none) (some (.slice none none)) (.arr2 [[10, 20, 30], [40, 50, 60]]) = none ∧
    shown (m.npSetitem (.slice none none) (some (.slice none none)) (.arr2 [[10, 20, 30], [40, 50, 60]]))
      = some [[10, 20], [30, 40], [50, 60]] := by decide

/-- a frame with the column labels 7 and 8 (the labels and the rows), and the labels an array gives -/
def labelled : List Nat × List (List Int) := ([7, 8], [[1, 2]])
def plain (c : List Nat × List (List Int)) : List Nat × List (List Int) := (List.range c.1.length, c.2)

/-- **C101, violated.** `a = array(df, copy=False); a[0, 0] = 5` takes the labels of the frame away: the frame gets the array's query
    compiler. -/
theorem C101_copy_false_loses_labels :
    ((ShareHeap.run (fun a _ => a) [.new labelled]).map fun h =>
      ((h.shows 0), ((h.npWrap 0 plain).updateInplace 1 ([0, 1], [[5, 2]])).shows 0)) = some (([7, 8], [[1, 2]]), ([0, 1], [[5, 2]])) := by
  decide

end NumpySetitemDemo

/-- whatever the array is given, the frame it was made of with `copy=False` shows it, labels and all -/
theorem C101_copy_false_shares {C : Type} (h : ShareHeap C) (o : Nat) (f : C → C) (c : C) (ho : o < h.n) :
    ((h.npWrap o f).updateInplace h.n c).shows o = c := by
  have hne : o ≠ h.n := by omega
  unfold ShareHeap.shows
  rw [ShareHeap.updateInplace_qc, if_pos (Or.inr ?_)]
  · simp [ShareHeap.updateInplace, ShareHeap.alloc, fset]
  · exact (ShareHeap.addSibling_mem _ hne h.n o).2 (Or.inl ⟨rfl, Or.inr (Or.inl rfl)⟩)
