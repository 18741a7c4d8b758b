import Verif.Model.Squeeze
import Verif.Props.LocGet
/-
C104: `squeeze`.
-/

variable {L α : Type}

theorem takeAll {df : Frame L L α} (h : df.WF) : (df.takeRows (List.range df.nrows)).takeCols (List.range df.ncols) = df := by
  have e1 : df.takeRows (List.range df.nrows) = df := by
    unfold Frame.takeRows
    rw [show takeList df.index (List.range df.nrows) = df.index from takeList_range df.index,
      show df.nrows = df.rows.length from h.rows_len.symm, takeList_range]
  rw [e1]
  have e2 : takeList df.columns (List.range df.ncols) = df.columns := takeList_range df.columns
  have e3 : df.rows.map (takeList · (List.range df.ncols)) = df.rows := by
    conv => rhs; rw [← List.map_id df.rows]
    apply List.map_congr_left
    intro r hr
    rw [show df.ncols = r.length from (h.row_width r hr).symm, takeList_range]
    rfl
  unfold Frame.takeCols
  rw [e2, e3]

/-- the pick of one axis of length `n` -/
theorem squeeze_pick (n : Nat) (flag : Bool) :
    let p := if n = 1 ∧ flag = true then Pick.one 0 else .many (List.range n)
    p.list = List.range n ∧ Fits flag p := by
  by_cases h : n = 1 ∧ flag = true
  · obtain ⟨rfl, rfl⟩ := h
    simp [Pick.list, Fits]
  · simp only [if_neg h]
    refine ⟨rfl, ?_⟩
    intro hf
    rw [List.length_range]
    intro hn
    exact h ⟨hn, hf⟩

theorem squeeze_located [DecidableEq L] (nan : α) (unnamed : L) {m : LFrame L L α} {df : Frame L L α} (h : m.Shows df) (rs cs : Bool) :
    ∃ o s, m.shaped nan unnamed rs cs = some o ∧
      df.located (if df.nrows = 1 ∧ rs = true then .one 0 else .many (List.range df.nrows))
        (if df.ncols = 1 ∧ cs = true then .one 0 else .many (List.range df.ncols)) = some s ∧ o.Is s := by
  obtain ⟨r1, r2⟩ := squeeze_pick df.nrows rs
  obtain ⟨c1, c2⟩ := squeeze_pick df.ncols cs
  apply shaped_spec nan unnamed h.wf _ _ r2 c2
  · rw [r1, c1, takeAll h.wf]
    exact h
  · rw [r1]; intro x hx; exact List.mem_range.1 hx
  · rw [c1]; intro x hx; exact List.mem_range.1 hx

/-- **C104**, frames.  `df.squeeze(axis)` on every partitioning, of every shape (without rows or columns too): the value of a frame with one
    cell, the row or the column of a frame with one, a frame otherwise, only along the axis that is named; an axis that is not there
    raises. -/
theorem C104_squeeze [DecidableEq L] (nan : α) (unnamed : L) (m : LFrame L L α) (df : Frame L L α) (h : m.Shows df) (axis : Option Nat) :
    (m.squeezeAxis nan unnamed axis).bind (Located.observe nan) = df.squeeze axis := by
  unfold LFrame.squeezeAxis Frame.squeeze
  by_cases ha : axis = none ∨ axis = some 0 ∨ axis = some 1
  · rw [if_pos ha, if_pos ha]
    rcases ha with rfl | rfl | rfl
    · obtain ⟨o, s, e1, e2, e3⟩ := squeeze_located nan unnamed h true true
      have e1 : m.squeeze nan unnamed none = some o := e1
      rw [e1, Option.bind_some, e3.observe nan, ← e2]
      simp
    · obtain ⟨o, s, e1, e2, e3⟩ := squeeze_located nan unnamed h true false
      have e1 : m.squeeze nan unnamed (some 0) = some o := e1
      rw [e1, Option.bind_some, e3.observe nan, ← e2]
      simp
    · obtain ⟨o, s, e1, e2, e3⟩ := squeeze_located nan unnamed h false true
      have e1 : m.squeeze nan unnamed (some 1) = some o := e1
      rw [e1, Option.bind_some, e3.observe nan, ← e2]
      simp
  · rw [if_neg ha, if_neg ha]
    rfl

/-- **C104**, Series.  `s.squeeze(axis)` is the value of a Series with one value and the Series otherwise; an axis other than 0 raises. -/
theorem C104_series_squeeze [DecidableEq L] (nan : α) (m : LFrame L L α) (name : L) (index : List L) (values : List α)
    (h : m.Shows (Frame.ofColumn index name values)) (axis : Option Nat) :
    (m.seriesSqueezeAxis nan axis).bind (Located.observe nan) = seriesSqueeze axis name index values := by
  unfold LFrame.seriesSqueezeAxis seriesSqueeze
  by_cases ha : axis = none ∨ axis = some 0
  · rw [if_pos ha, if_pos ha]
    have hl : values.length = index.length := by
      have := h.wf.rows_len
      simpa [Frame.ofColumn, Frame.nrows] using this
    unfold LFrame.seriesSqueeze
    rw [h.getIndex]
    obtain ⟨m', e1, e2⟩ := copy_shows h
    have e3 : Located.Is (.series m') (.series name index values) := e2
    match values, index, hl with
    | [a], [i], _ =>
      rw [if_pos (show (Frame.ofColumn [i] name [a]).index.length = 1 from rfl), onlyCell_shows (i := i) (c := name) (a := a) h]
      rfl
    | [], [], _ =>
      rw [if_neg (by simp [Frame.ofColumn]), e1]
      exact e3.observe nan
    | a :: b :: vs, i :: j :: is, _ =>
      rw [if_neg (by simp [Frame.ofColumn]), e1]
      exact e3.observe nan
  · rw [if_neg ha, if_neg ha]
    rfl

namespace SqueezeDemo

/-- a frame of one row, in two blocks -/
def row : Frame Int Int Nat := ⟨[7], [1, 2, 3], [[10, 11, 12]]⟩
def rowM : LFrame Int Int Nat := LFrame.mk (MFrame.mk (row.cut [1] [2, 1]) none none none none) false false

theorem rowM_shows : rowM.Shows row :=
  ⟨⟨by decide, by decide⟩, ⟨row, [1], [2, 1], ⟨by decide, by decide⟩, rfl, rfl, ⟨by decide, by decide, by decide, by decide⟩, rfl,
    Or.inl rfl, Or.inl rfl, fun _ => rfl, fun _ => rfl⟩, Or.inl ⟨rfl, rfl⟩, Or.inl ⟨rfl, rfl⟩⟩

/-- hypotheses are met: `df.squeeze()` of one row is a Series named by its label; along the columns nothing is taken away -/
example : (rowM.squeezeAxis 0 (-1) none).bind (Located.observe 0) = some (.series 7 [1, 2, 3] [10, 11, 12]) ∧
    (rowM.squeezeAxis 0 (-1) (some 0)).bind (Located.observe 0) = some (.series 7 [1, 2, 3] [10, 11, 12]) ∧
    (rowM.squeezeAxis 0 (-1) (some 1)).bind (Located.observe 0) = some (.frame row) ∧
    (rowM.squeezeAxis 0 (-1) (some 2)).bind (Located.observe 0) = none := by
  rw [C104_squeeze 0 (-1) rowM row rowM_shows, C104_squeeze 0 (-1) rowM row rowM_shows, C104_squeeze 0 (-1) rowM row rowM_shows,
    C104_squeeze 0 (-1) rowM row rowM_shows]
  decide +kernel

/-- a Series of three values and one of one value -/
def colM (index : List Int) (values : List Nat) (rl : List Nat) : LFrame Int Int Nat :=
  LFrame.mk (MFrame.mk ((Frame.ofColumn index 5 values).cut rl [1]) none none none none) false false

theorem col3_shows : (colM [1, 2, 3] [10, 11, 12] [2, 1]).Shows (Frame.ofColumn [1, 2, 3] 5 [10, 11, 12]) :=
  ⟨⟨by decide, by decide⟩, ⟨Frame.ofColumn [1, 2, 3] 5 [10, 11, 12], [2, 1], [1], ⟨by decide, by decide⟩, rfl, rfl,
    ⟨by decide, by decide, by decide, by decide⟩, rfl, Or.inl rfl, Or.inl rfl, fun _ => rfl, fun _ => rfl⟩, Or.inl ⟨rfl, rfl⟩, Or.inl ⟨rfl, rfl⟩⟩

theorem col1_shows : (colM [1] [10] [1]).Shows (Frame.ofColumn [1] 5 [10]) :=
  ⟨⟨by decide, by decide⟩, ⟨Frame.ofColumn [1] 5 [10], [1], [1], ⟨by decide, by decide⟩, rfl, rfl,
    ⟨by decide, by decide, by decide, by decide⟩, rfl, Or.inl rfl, Or.inl rfl, fun _ => rfl, fun _ => rfl⟩, Or.inl ⟨rfl, rfl⟩, Or.inl ⟨rfl, rfl⟩⟩

example : ((colM [1, 2, 3] [10, 11, 12] [2, 1]).seriesSqueezeAxis 0 none).bind (Located.observe 0) = some (.series 5 [1, 2, 3] [10, 11, 12]) ∧
    ((colM [1] [10] [1]).seriesSqueezeAxis 0 (some 0)).bind (Located.observe 0) = some (.scalar 10) ∧
    ((colM [1] [10] [1]).seriesSqueezeAxis 0 (some 1)).bind (Located.observe 0) = none := by
  rw [C104_series_squeeze 0 _ 5 _ _ col3_shows, C104_series_squeeze 0 _ 5 _ _ col1_shows, C104_series_squeeze 0 _ 5 _ _ col1_shows]
  decide +kernel

end SqueezeDemo
