import Verif.Model.Rename
import Verif.Lemmas.Labels
import Verif.Lemmas.Share
import Verif.Props.Labels
/-
C102: new labels by `rename`, `add_prefix`, `add_suffix` and `set_axis`.
-/

variable {L α : Type} [DecidableEq L]

theorem copy_set_shows {m : LFrame L L α} {df : Frame L L α} (h : m.Shows df) (ni nc : Option (List L))
    (hi : ∀ l, ni = some l → l.length = df.index.length) (hc : ∀ l, nc = some l → l.length = df.columns.length) :
    ∃ m', (m.copy.bind fun obj =>
      (match ni with | some l => obj.setIndex l | none => some obj).bind fun obj =>
      (match nc with | some l => obj.setColumns l | none => some obj)) = some m' ∧
      m'.Shows { df with index := ni.getD df.index, columns := nc.getD df.columns } := by
  obtain ⟨m1, e1, s1⟩ := copy_shows h
  rw [e1, Option.bind_some]
  obtain ⟨m2, e2, s2⟩ : ∃ m2, (match ni with | some l => m1.setIndex l | none => some m1) = some m2 ∧
      m2.Shows { df with index := ni.getD df.index } := by
    cases ni with
    | none => exact ⟨m1, rfl, s1⟩
    | some l => exact setIndex_shows s1 l (if_pos (hi l rfl))
  rw [e2, Option.bind_some]
  cases nc with
  | none => exact ⟨m2, rfl, s2⟩
  | some l => exact setColumns_shows s2 l (if_pos (hc l rfl))

/-- **C102, `rename`.** `df.rename(mapper, index=..., columns=..., axis=..., errors=...)` is pandas': it raises exactly when pandas raises,
    and otherwise every row and column has pandas' label and the cells are unchanged, for every division into blocks, whichever arguments
    are given together.

    Partial.  False and excluded: `errors="raise"` with `index` and `columns` together (`C102_raise_with_both_axes`). -/
theorem C102_rename_partial {m : LFrame L L α} {df : Frame L L α} (h : m.Shows df) (mapper index columns : Option (Renamer L))
    (axis : Option Bool) (raises : Bool) (hboth : raises = false ∨ index = none ∨ columns = none) :
    (df.rename mapper index columns axis raises = none ∧ m.rename mapper index columns axis raises = none) ∨
    ∃ m' df', df.rename mapper index columns axis raises = some df' ∧ m.rename mapper index columns axis raises = some m' ∧
      m'.Shows df' := by
  have key := copy_set_shows h
  unfold LFrame.rename
  rw [h.getIndex, h.getColumns]
  cases mapper with
  | none =>
    cases index with
    | none =>
      cases columns with
      | none => exact Or.inl ⟨rfl, rfl⟩
      | some c =>
        cases axis with
        | some a => exact Or.inl ⟨rfl, by simp [Frame.rename]⟩
        | none =>
          simp only [Frame.rename, Frame.relabelled]
          by_cases hx : (raises && c.lacks df.columns) = true
          · left
            simp [hx]
          · right
            obtain ⟨m', e1, e2⟩ := key none (some (df.columns.map c.new)) (by simp) (by simp)
            refine ⟨m', _, ?_, ?_, e2⟩
            · simp [hx]
            · simpa [hx] using e1
    | some i =>
      cases axis with
      | some a => exact Or.inl ⟨by simp [Frame.rename], by simp [Frame.rename]⟩
      | none =>
        cases columns with
        | none =>
          simp only [Frame.rename, Frame.relabelled]
          by_cases hx : (raises && i.lacks df.index) = true
          · left
            simp [hx]
          · right
            obtain ⟨m', e1, e2⟩ := key (some (df.index.map i.new)) none (by simp) (by simp)
            refine ⟨m', _, ?_, ?_, e2⟩
            · simp [hx]
            · simpa [hx] using e1
        | some c =>
          have hr : raises = false := by simpa using hboth
          subst hr
          right
          obtain ⟨m', e1, e2⟩ := key (some (df.index.map i.new)) (some (df.columns.map c.new)) (by simp) (by simp)
          refine ⟨m', _, ?_, ?_, e2⟩
          · simp [Frame.rename, Frame.relabelled]
          · simpa [Frame.rename, Frame.relabelled] using e1
  | some f =>
    by_cases hic : (index.isSome || columns.isSome) = true
    · left
      refine ⟨by simp [Frame.rename, hic], ?_⟩
      have hn : ∀ g : Frame L L α, g.rename (some f) index columns axis raises = none := fun g => by simp [Frame.rename, hic]
      simp only [hn, Option.map_none, Option.isNone_some, Bool.false_and, Bool.false_eq_true, ↓reduceIte, Option.isSome_some, Bool.true_and]
      by_cases ha : axis = some true
      · subst ha
        by_cases hi : index.isSome = true
        · simp [hi]
        · have hc : columns.isSome = true := by simpa [hi] using hic
          simp [hi]
      · have : (axis != some true) = true := by simp [ha]
        simp [this]
    · have hi : index = none := by cases index <;> simp_all
      have hc : columns = none := by cases columns <;> simp_all
      subst hi hc
      by_cases ha : axis = some true
      · subst ha
        simp only [Frame.rename, Frame.relabelled]
        by_cases hx : (raises && f.lacks df.columns) = true
        · left
          simp [hx]
        · right
          obtain ⟨m', e1, e2⟩ := key none (some (df.columns.map f.new)) (by simp) (by simp)
          refine ⟨m', _, ?_, ?_, e2⟩
          · simp [hx]
          · simpa [hx] using e1
      · have hne : (axis != some true) = true := by simp [ha]
        have heq : (axis == some true) = false := by simp [ha]
        simp only [Frame.rename, Frame.relabelled]
        by_cases hx : (raises && f.lacks df.index) = true
        · left
          simp [hx, ha]
        · right
          obtain ⟨m', e1, e2⟩ := key (some (df.index.map f.new)) none (by simp) (by simp)
          refine ⟨m', _, ?_, ?_, e2⟩
          · simp [hx, ha]
          · simpa [hx, ha] using e1

/-- **C102, `add_prefix` and `add_suffix`.** Every label of the axis (the columns if none is named) gets the tag, everything else stays,
    for every division into blocks. -/
theorem C102_add_prefix {m : LFrame L L α} {df : Frame L L α} (h : m.Shows df) (tag : L → L) (axis : Option Bool) :
    ∃ m', m.addPrefix tag axis = some m' ∧ m'.Shows (if axis = some false then { df with index := df.index.map tag }
      else { df with columns := df.columns.map tag }) := by
  obtain ⟨m1, e1, s1⟩ := copy_shows h
  unfold LFrame.addPrefix LFrame.addTag
  rw [e1, Option.bind_some, s1.getIndex, s1.getColumns]
  have hc : ∃ m', m1.setColumns (df.columns.map tag) = some m' ∧ m'.Shows { df with columns := df.columns.map tag } :=
    setColumns_shows s1 _ (if_pos (by simp))
  cases axis with
  | none => exact hc
  | some a =>
    cases a with
    | true => exact hc
    | false => exact setIndex_shows s1 _ (if_pos (by simp))

/-- **C102, `Series.rename` with a mapping.** Not in place and with `errors="ignore"` it is pandas'.

    Partial.  False and excluded: `inplace=True` (`C102_series_not_in_place`), `errors="raise"` (`C102_series_no_error`). -/
theorem C102_series_rename_partial {m : LFrame L L α} {df : Frame L L α} (h : m.Shows df) (r : Renamer L) :
    ∃ s t t', m.seriesRename r false false = some (s, some t) ∧ df.seriesRename r false false = some (df, some t') ∧
      s.Shows df ∧ t.Shows t' := by
  obtain ⟨m1, e1, s1⟩ := copy_shows h
  rcases C102_rename_partial s1 none (some r) none none false (Or.inl rfl) with ⟨h1, _⟩ | ⟨m', df', h1, h2, h3⟩
  · simp [Frame.rename, Frame.relabelled] at h1
  · refine ⟨m, m', df', ?_, ?_, h, h3⟩
    · simp [LFrame.seriesRename, e1, h2]
    · have : df.relabelled (some r) none false = some df' := by simpa [Frame.rename] using h1
      simp [Frame.seriesRename, this]

/-- **C102, `set_axis`.** With a copy (the default) the frame it is called on shows what it showed, and the frame returned the new
    labels. -/
theorem C102_set_axis_partial {C : Type} (h : ShareHeap C) (o : Nat) (ho : o < h.n) (hq : ∀ x, x < h.n → h.qc x < h.nq) (f : C → C)
    (copy : Option Bool) (hcopy : copy ≠ some false) :
    ∃ h', h.setAxis o f copy = some (h.n, h') ∧ h'.shows h.n = f (h.shows o) ∧ ∀ x, x < h.n → h'.shows x = h.shows x := by
  have hc : copy.getD true = true := by
    cases copy with
    | none => rfl
    | some b => cases b <;> simp_all
  unfold ShareHeap.setAxis
  rw [if_pos hc]
  simp only [ShareHeap.step, ho, ↓reduceIte, Option.bind_some]
  rw [if_pos (by simp [ShareHeap.push, ShareHeap.alloc])]
  refine ⟨_, rfl, ?_, ?_⟩
  · simp [ShareHeap.shows, ShareHeap.push, ShareHeap.alloc, fset]
  · intro x hx
    have h1 := hq x hx
    have h2 : x ≠ h.n := by omega
    have h3 : h.qc x ≠ h.nq := by omega
    simp [ShareHeap.shows, ShareHeap.push, ShareHeap.alloc, fset, h2, h3]

/-! ### a case, and where it goes wrong -/

namespace RenameDemo

def df : Frame Nat Nat Int := ⟨[10, 11, 12], [1, 2], [[1, 2], [3, 4], [5, 6]]⟩
def m : LFrame Nat Nat Int := ⟨⟨df.cut [2, 1] [1, 1], none, none, none, none⟩, false, false⟩
theorem m_shows : m.Shows df := ⟨⟨by decide, by decide⟩, ⟨df, [2, 1], [1, 1], ⟨by decide, by decide⟩, rfl, rfl,
  ⟨by decide, by decide, by decide, by decide⟩, rfl, Or.inl rfl, Or.inl rfl, fun _ => rfl, fun _ => rfl⟩, Or.inl ⟨rfl, rfl⟩, Or.inl ⟨rfl, rfl⟩⟩

/-- `df.rename(index={11: 7}, columns=lambda x: x + 100)` -/
example : ∃ m', m.rename none (some (.dict [(11, 7)])) (some (.fn (· + 100))) none false = some m' ∧
    m'.Shows ⟨[10, 7, 12], [101, 102], [[1, 2], [3, 4], [5, 6]]⟩ := by
  rcases C102_rename_partial m_shows none (some (.dict [(11, 7)])) (some (.fn (· + 100))) none false (Or.inl rfl) with
    ⟨h1, _⟩ | ⟨m', df', h1, h2, h3⟩
  · exact absurd h1 (by decide)
  · rw [show df.rename none (some (.dict [(11, 7)])) (some (.fn (· + 100))) none false
      = some ⟨[10, 7, 12], [101, 102], [[1, 2], [3, 4], [5, 6]]⟩ by decide] at h1
    cases h1
    exact ⟨m', h2, h3⟩
/-- `df.rename({5: 6}, axis=1, errors="raise")` raises -/
example : m.rename (some (.dict [(5, 6)])) none none (some true) true = none := by
  rcases C102_rename_partial m_shows (some (.dict [(5, 6)])) none none (some true) true (Or.inr (Or.inl rfl)) with
    ⟨_, h1⟩ | ⟨m', df', h1, _, _⟩
  · exact h1
  · exact absurd h1 (by rw [show df.rename (some (.dict [(5, 6)])) none none (some true) true = none by decide]; simp)
example : ∃ m', m.addPrefix (· + 50) none = some m' ∧ m'.Shows ⟨[10, 11, 12], [51, 52], [[1, 2], [3, 4], [5, 6]]⟩ :=
  C102_add_prefix m_shows (· + 50) none
example : ∃ m', m.addPrefix (· + 50) (some false) = some m' ∧ m'.Shows ⟨[60, 61, 62], [1, 2], [[1, 2], [3, 4], [5, 6]]⟩ :=
  C102_add_prefix m_shows (· + 50) (some false)

/-- a Series -/
def ds : Frame Nat Nat Int := ⟨[10, 11], [0], [[1], [2]]⟩
def s : LFrame Nat Nat Int := ⟨⟨ds.cut [1, 1] [1], none, none, none, none⟩, false, false⟩
theorem s_shows : s.Shows ds := ⟨⟨by decide, by decide⟩, ⟨ds, [1, 1], [1], ⟨by decide, by decide⟩, rfl, rfl,
  ⟨by decide, by decide, by decide, by decide⟩, rfl, Or.inl rfl, Or.inl rfl, fun _ => rfl, fun _ => rfl⟩, Or.inl ⟨rfl, rfl⟩, Or.inl ⟨rfl, rfl⟩⟩

example : ∃ t, s.seriesRename (.dict [(11, 7)]) false false = some (s, some t) ∧ t.Shows ⟨[10, 7], [0], [[1], [2]]⟩ := by
  obtain ⟨a, t, t', h1, h2, _, h4⟩ := C102_series_rename_partial s_shows (.dict [(11, 7)])
  have e : t' = ⟨[10, 7], [0], [[1], [2]]⟩ := by
    have : some (ds, some t') = some (ds, some ⟨[10, 7], [0], [[1], [2]]⟩) := h2.symm.trans (by decide)
    simpa using this
  subst e
  refine ⟨t, ?_, h4⟩
  have : a = s := by
    unfold LFrame.seriesRename at h1
    obtain ⟨_, _, h1⟩ := Option.map_eq_some_iff.1 h1
    cases h1; rfl
  rw [← this]; exact this ▸ h1

/-- **C102, violated.** `df.rename(index={10: 9}, columns={1: 3}, errors="raise")`: all labels are there, yet a `KeyError` is raised, as the
    columns are looked for in a frame that has none. -/
theorem C102_raise_with_both_axes :
    df.rename none (some (.dict [(10, 9)])) (some (.dict [(1, 3)])) none true
      = some ⟨[9, 11, 12], [3, 2], [[1, 2], [3, 4], [5, 6]]⟩ ∧
    (m.rename none (some (.dict [(10, 9)])) (some (.dict [(1, 3)])) none true).isNone = true := by decide

/-- **C102, violated.** `s.rename({11: 7}, inplace=True)` leaves the Series as it is and returns another one. -/
theorem C102_series_not_in_place :
    ds.seriesRename (.dict [(11, 7)]) true false = some (⟨[10, 7], [0], [[1], [2]]⟩, none) ∧
    ((s.seriesRename (.dict [(11, 7)]) true false).map fun e => (e.1.getIndex, e.2.map (·.getIndex))) = some ([10, 11], some [10, 7]) := by
  decide

/-- **C102, violated.** `s.rename({5: 7}, errors="raise")` does not raise. -/
theorem C102_series_no_error :
    ds.seriesRename (.dict [(5, 7)]) false true = none ∧ (s.seriesRename (.dict [(5, 7)]) false true).isSome = true := by decide

/-- a program that makes one frame; labels and rows -/
def heap : ShareHeap (List Nat × List Nat) := ⟨1, fun _ => 0, fun _ => [], fun _ => none, 1, fun _ => ([10, 11], [1, 2])⟩

example : ∃ h', heap.setAxis 0 (fun c => ([7, 8], c.2)) none = some (1, h') ∧ h'.shows 1 = ([7, 8], [1, 2]) ∧
    ∀ x, x < 1 → h'.shows x = heap.shows x :=
  C102_set_axis_partial heap 0 (by decide) (by decide) _ none (by decide)

/-- **C102, violated.** `df.set_axis(labels, copy=False)` changes the labels of `df` itself. -/
theorem C102_set_axis_changes_original :
    heap.shows 0 = ([10, 11], [1, 2]) ∧
    ((heap.setAxis 0 (fun c => ([7, 8], c.2)) (some false)).map fun e => (e.1, e.2.shows 0)) = some (0, ([7, 8], [1, 2])) := by decide

end RenameDemo
