import Verif.Lemmas.SeriesOp
import Verif.Props.Concat
import Verif.Props.Readers
/-
C54: an operation of a frame with a Series pairs cells by label, however frame and Series are divided.
-/

variable {ι κ κ' α β γ : Type}

theorem joinedLabels_isJoined [DecidableEq ι] {P : JoinOps ι} (hP : P.first = false) (axis0 : Bool) {l r : List ι}
    (h : axis0 = true ∨ l = r ∨ (l.Nodup ∧ r.Nodup)) :
    IsJoined P.merge (fun a b => (P.join2 a b).1) l r (joinedLabels P axis0 l [r]) := by
  unfold joinedLabels allSame
  refine ⟨?_, ?_, ?_⟩
  · intro e
    subst e
    simp
  · intro hne hl hr
    have : ¬ r = l := fun e => hne e.symm
    simp [hP, this, needIndexers, hl, hr]
  · intro hne hn
    have h' : axis0 = true := by
      rcases h with h | h | h
      · exact h
      · exact absurd h hne
      · exact absurd h hn
    have : ¬ r = l := fun e => hne e.symm
    have : needIndexers axis0 l [r] = true := by
      simp only [needIndexers, h', allSame, List.all_cons, List.all_nil, Bool.and_true, Bool.true_and, List.any_cons,
        List.any_nil, Bool.or_false, Bool.and_eq_true, Bool.not_eq_true', beq_eq_false_iff_ne, ne_eq, Bool.or_eq_true,
        decide_eq_false_iff_not]
      refine ⟨‹_›, ?_⟩
      by_cases hl : l.Nodup
      · exact Or.inr fun hr => hn ⟨hl, hr⟩
      · exact Or.inl hl
    have h2 : (P.first || [r].all (· == l)) = false := by
      simp only [hP, Bool.false_or, List.all_cons, List.all_nil, Bool.and_true, beq_eq_false_iff_ne]
      assumption
    rw [h2]
    simp only [Bool.false_eq_true, ↓reduceIte, this]

/-- **C54.** `df.op(s, axis=0)` (`add`, `sub`, `eq`, …): for a frame and a Series, each divided in any way and with labels
    recorded or not, the result has the outer join of the row labels and the frame's columns, and each of its cells is `f` of the
    frame's cell and the Series' value for its row label, a missing value standing for a label one of them does not have.

    Partial: `DynamicPartitioning` (`C54_dynamic_wrong_column`) is left out. -/
theorem C54_op_series_rows_partial [DecidableEq ι] [DecidableEq κ] [DecidableEq κ'] (P : JoinOps ι) (hP : P.Good)
    (hO : P.first = false) (cfg : Cfg) (hp : 1 ≤ cfg.nPartitions) (hr : 1 ≤ cfg.minRow) (nanL : α) (nanR : β) (nan : γ)
    (f : α → β → γ) (m : LFrame ι κ α) (s : LFrame ι κ' β) (df : Frame ι κ α) (sf : Frame ι κ' β) (vals : List β)
    (h : m.Shows df) (hs : s.Shows sf) (h1 : sf.columns.length = 1) (hv : sf.rows = vals.map fun v => [v]) :
    ∃ m' J I0 I1, m.opSeriesRows P cfg false nanL nanR f s = some m' ∧
      IsJoined P.merge (fun a b => (P.join2 a b).1) df.index sf.index J ∧
      IsIndexer df.index J I0 ∧ IsIndexer sf.index J I1 ∧
      m'.toPandas nan = some ((df.reindexRows nanL J I0).opRows f (pick nanR I1 vals)) ∧
      m'.getIndex = J ∧ m'.getColumns = df.columns := by
  obtain ⟨s1, a1, a2⟩ := synced_spec hs
  obtain ⟨m1, b1, b2⟩ := synced_spec h
  have hj : Joinable P true df.index [sf.index] := Or.inr (Or.inr (Or.inl ⟨rfl, hO, rfl⟩))
  obtain ⟨I0, I1, i0, i1, m', c1, c2⟩ := opSeriesRows_frame hP cfg hp hr nanL nanR f b2 a2 h1 hv hj
  refine ⟨⟨m', false, false⟩, _, I0, I1, ?_, joinedLabels_isJoined hO true (Or.inl rfl), i0, i1,
    ((represents_shows c2).observed nan).1, ((represents_shows c2).observed nan).2.1, ((represents_shows c2).observed nan).2.2⟩
  unfold LFrame.opSeriesRows LFrame.operation
  rw [hs.getColumns, if_neg (by simp [h1]), a1, Option.bind_some, b1, Option.bind_some]
  simp only [c1, Option.map_some]

/-- **C54.** The same without the join when the labels are equal, repeated or not: row `i` with value `i`. -/
theorem C54_op_series_rows_same_partial [DecidableEq ι] [DecidableEq κ] [DecidableEq κ'] (P : JoinOps ι) (hP : P.Good)
    (hO : P.first = false) (cfg : Cfg) (hp : 1 ≤ cfg.nPartitions) (hr : 1 ≤ cfg.minRow) (nanL : α) (nanR : β) (nan : γ)
    (f : α → β → γ) (m : LFrame ι κ α) (s : LFrame ι κ' β) (df : Frame ι κ α) (sf : Frame ι κ' β) (vals : List β)
    (h : m.Shows df) (hs : s.Shows sf) (h1 : sf.columns.length = 1) (hv : sf.rows = vals.map fun v => [v])
    (he : sf.index = df.index) :
    ∃ m', m.opSeriesRows P cfg false nanL nanR f s = some m' ∧ m'.toPandas nan = some (df.opRows f vals) := by
  obtain ⟨m', J, I0, I1, a1, a2, a3, a4, a5, _⟩ :=
    C54_op_series_rows_partial P hP hO cfg hp hr nanL nanR nan f m s df sf vals h hs h1 hv
  have hJ := a2.same he.symm
  subst hJ
  have hvl : vals.length = df.index.length := by
    have := hs.wf.rows_len
    rwa [hv, List.length_map, he] at this
  refine ⟨m', a1, ?_⟩
  rw [a5, a3.same rfl, a4.same he, reindexRows_id h.wf, ← hvl, pick_range nanR vals]

/-- **C54.** `df.op(s)` (`axis=1`, also `df + s`, `df == s`, …): for a frame and a Series whose labels are the frame's columns, or
    differ from them and do not repeat, each divided in any way and with labels recorded or not, the result has the frame's rows
    and the outer join of the column labels, and each of its cells is `f` of the frame's cell and the Series' value for its
    column label.

    Partial: differing labels with repeats (`C54_repeated_columns_raise`), `DynamicPartitioning` and the logical operators
    (`C54_logical_takes_series_for_frame`) are left out. -/
theorem C54_op_series_cols_partial [DecidableEq ι] [DecidableEq κ] [DecidableEq κ'] (P : JoinOps κ) (hP : P.Good)
    (hO : P.first = false) (cfg : Cfg) (hp : 1 ≤ cfg.nPartitions) (hc : 1 ≤ cfg.minCol) (nanL : α) (nanR : β) (nan : γ)
    (f : α → β → γ) (m : LFrame ι κ α) (s : LFrame κ κ' β) (df : Frame ι κ α) (sf : Frame κ κ' β) (vals : List β)
    (h : m.Shows df) (hs : s.Shows sf) (h1 : sf.columns.length = 1) (hv : sf.rows = vals.map fun v => [v])
    (hl : df.columns = sf.index ∨ (df.columns.Nodup ∧ sf.index.Nodup)) :
    ∃ m' J I0 I1, m.opSeriesCols P cfg nanL nanR f s = some m' ∧
      IsJoined P.merge (fun a b => (P.join2 a b).1) df.columns sf.index J ∧
      IsIndexer df.columns J I0 ∧ IsIndexer sf.index J I1 ∧
      m'.toPandas nan = some ((df.reindexCols nanL J I0).opCols f (pick nanR I1 vals)) ∧
      m'.getIndex = df.index ∧ m'.getColumns = J := by
  obtain ⟨t, t1, t2⟩ := transpose_shows hs
  obtain ⟨s1, a1, a2⟩ := synced_spec t2
  obtain ⟨m1, b1, b2⟩ := synced_spec h
  have hj : Joinable P false df.columns [sf.transpose.columns] := by
    show Joinable P false df.columns [sf.index]
    rcases hl with e | e
    · exact Or.inl (by intro l hl; simp only [List.mem_singleton] at hl; rw [hl, e])
    · refine Or.inr (Or.inl ?_)
      intro l hl
      simp only [List.mem_cons, List.not_mem_nil, or_false] at hl
      rcases hl with rfl | rfl
      · exact e.1
      · exact e.2
  have hrow : sf.transpose.rows = [vals] := by
    unfold Frame.transpose Frame.ncols
    rw [h1, hv]
    simp [List.range_one, List.filterMap_map, Function.comp_def]
  obtain ⟨I0, I1, i0, i1, m', c1, c2⟩ := opSeriesCols_frame hP cfg hp hc nanL nanR f b2 a2 hrow hj
  refine ⟨⟨m', false, false⟩, _, I0, I1, ?_, joinedLabels_isJoined hO false (Or.inr hl), i0, i1,
    ((represents_shows c2).observed nan).1, ((represents_shows c2).observed nan).2.1, ((represents_shows c2).observed nan).2.2⟩
  unfold LFrame.opSeriesCols LFrame.operation
  rw [hs.getColumns, if_neg (by simp [h1]), t1, Option.bind_some, a1, Option.bind_some, b1, Option.bind_some]
  simp only [c1, Option.map_some]

/-! ### Concrete cases -/

namespace SeriesOpDemo

open C11Example (P cfg good)

def demo : Frame Nat Nat Nat := { index := [10, 11, 12], columns := [0, 1, 2], rows := [[1, 2, 3], [4, 5, 6], [7, 8, 9]] }
/-- the frame in 2×2 blocks, labels and sizes not recorded -/
def held : LFrame Nat Nat Nat := ⟨⟨demo.cut [2, 1] [1, 2], none, none, none, none⟩, false, false⟩
theorem held_shows : held.Shows demo :=
  ⟨⟨by decide, by decide⟩, ⟨demo, [2, 1], [1, 2], ⟨by decide, by decide⟩, rfl, rfl, ⟨by decide, by decide, by decide, by decide⟩,
    rfl, Or.inl rfl, Or.inl rfl, fun _ => rfl, fun _ => rfl⟩, Or.inl ⟨rfl, rfl⟩, Or.inl ⟨rfl, rfl⟩⟩

/-- a Series with values for the rows 11, 10 and 99, in one block and two -/
def byRow : Frame Nat Nat Nat := { index := [11, 10, 99], columns := [7], rows := [[100], [200], [300]] }
def byRowHeld : LFrame Nat Nat Nat := ⟨⟨byRow.cut [1, 2] [1], none, none, none, none⟩, false, false⟩
theorem byRow_shows : byRowHeld.Shows byRow :=
  ⟨⟨by decide, by decide⟩, ⟨byRow, [1, 2], [1], ⟨by decide, by decide⟩, rfl, rfl, ⟨by decide, by decide, by decide, by decide⟩,
    rfl, Or.inl rfl, Or.inl rfl, fun _ => rfl, fun _ => rfl⟩, Or.inl ⟨rfl, rfl⟩, Or.inl ⟨rfl, rfl⟩⟩

example : ∃ m', held.opSeriesRows P cfg false 0 0 (· + ·) byRowHeld = some m' :=
  let ⟨m', _, _, _, h, _⟩ := C54_op_series_rows_partial P good rfl cfg (by decide) (by decide) 0 0 0 (· + ·) held byRowHeld demo byRow
    [100, 200, 300] held_shows byRow_shows rfl rfl
  ⟨m', h⟩

example : (held.opSeriesRows P cfg false 0 0 (· + ·) byRowHeld).bind (·.toPandas 0) =
    some { index := [10, 11, 12, 99], columns := [0, 1, 2], rows := [[201, 202, 203], [104, 105, 106], [7, 8, 9], [300, 300, 300]] } := by
  decide +kernel

/-- a Series with values for the columns 2 and 0 -/
def byCol : Frame Nat Nat Nat := { index := [2, 0], columns := [7], rows := [[100], [200]] }
def byColHeld : LFrame Nat Nat Nat := ⟨⟨byCol.cut [1, 1] [1], none, none, none, none⟩, false, false⟩
theorem byCol_shows : byColHeld.Shows byCol :=
  ⟨⟨by decide, by decide⟩, ⟨byCol, [1, 1], [1], ⟨by decide, by decide⟩, rfl, rfl, ⟨by decide, by decide, by decide, by decide⟩,
    rfl, Or.inl rfl, Or.inl rfl, fun _ => rfl, fun _ => rfl⟩, Or.inl ⟨rfl, rfl⟩, Or.inl ⟨rfl, rfl⟩⟩

example : ∃ m', held.opSeriesCols P cfg 0 0 (· + ·) byColHeld = some m' :=
  let ⟨m', _, _, _, h, _⟩ := C54_op_series_cols_partial P good rfl cfg (by decide) (by decide) 0 0 0 (· + ·) held byColHeld demo byCol
    [100, 200] held_shows byCol_shows rfl rfl (Or.inr (by decide))
  ⟨m', h⟩

example : (held.opSeriesCols P cfg 0 0 (· + ·) byColHeld).bind (·.toPandas 0) =
    some { index := [10, 11, 12], columns := [0, 1, 2], rows := [[201, 2, 103], [204, 5, 106], [207, 8, 109]] } := by
  decide +kernel

/-- a Series with values for the rows 10, 11 and 12 -/
def byRow3 : LFrame Nat Nat Nat :=
  ⟨⟨Frame.cut [3] [1] { index := [10, 11, 12], columns := [7], rows := [[100], [200], [300]] }, none, none, none, none⟩, false, false⟩
/-- the frame as one and two columns, recorded -/
def held12 : LFrame Nat Nat Nat := ⟨⟨demo.cut [3] [1, 2], none, some [0, 1, 2], none, some [1, 2]⟩, false, false⟩

/-- **C54, violated.** With `DynamicPartitioning` the result is divided anew, here into two columns and one, while one and two are
    recorded: `df.add(s, axis=0).iloc[:, [1]]` is column 2. -/
theorem C54_dynamic_wrong_column :
    held12.Shows demo ∧
    (held12.opSeriesRows P cfg true 0 0 (· + ·) byRow3).bind
      (fun r => (r.take2d cfg (fun _ _ => (false, false)) none (some (.array [1]))).bind fun t =>
        some (t.getColumns, (assemble t.parts).map (·.rows))) =
      some ([1], some [[103], [206], [309]]) :=
  ⟨⟨⟨by decide, by decide⟩, ⟨demo, [3], [1, 2], ⟨by decide, by decide⟩, rfl, rfl, ⟨by decide, by decide, by decide, by decide⟩,
    rfl, Or.inl rfl, Or.inr rfl, fun _ => rfl, fun _ => rfl⟩, Or.inl ⟨rfl, rfl⟩, Or.inr rfl⟩, by decide +kernel⟩

/-- two columns called 1 -/
def twice : Frame Nat Nat Nat := { index := [10, 11], columns := [0, 1, 1], rows := [[1, 2, 3], [4, 5, 6]] }
def twiceHeld : LFrame Nat Nat Nat := ⟨⟨twice.cut [2] [3], none, none, none, none⟩, false, false⟩
def two : LFrame Nat Nat Nat :=
  ⟨⟨Frame.cut [3] [1] { index := [0, 1, 5], columns := [7], rows := [[100], [200], [300]] }, none, none, none, none⟩, false, false⟩

/-- **C54, violated.** A frame with a repeated column label and a Series with other labels: pandas pairs both columns with the
    Series' value, Modin raises. -/
theorem C54_repeated_columns_raise :
    twiceHeld.Shows twice ∧ twiceHeld.opSeriesCols P cfg 0 0 (· + ·) two = none :=
  ⟨⟨⟨by decide, by decide⟩, ⟨twice, [2], [3], ⟨by decide, by decide⟩, rfl, rfl, ⟨by decide, by decide, by decide, by decide⟩,
    rfl, Or.inl rfl, Or.inl rfl, fun _ => rfl, fun _ => rfl⟩, Or.inl ⟨rfl, rfl⟩, Or.inl ⟨rfl, rfl⟩⟩, by decide +kernel⟩

/-- bits, and a Series of bits for the columns -/
def bits : Frame Nat Nat Nat := { index := [10, 11], columns := [0, 1], rows := [[1, 1], [0, 1]] }
def mask : Frame Nat Nat Nat := { index := [0, 1], columns := [7], rows := [[1], [0]] }

/-- **C54, violated.** `df & s` (also `|`, `^`): modin/pandas/base.py:3889 says nothing of broadcasting, so the Series is taken for
    a frame with one column and joined with the rows.  pandas pairs the Series' labels with the columns. -/
theorem C54_logical_takes_series_for_frame :
    bits.opCols (· &&& ·) [1, 0] = { index := [10, 11], columns := [0, 1], rows := [[1, 0], [0, 0]] } ∧
    (nAryOp P cfg 0 (cellwiseBlock fun v os => os.foldl (· &&& ·) v)
      { parts := bits.cut [2] [2], index := none, columns := none, rowLens := none, colWidths := none }
      [{ parts := mask.cut [2] [1], index := none, columns := none, rowLens := none, colWidths := none }]).bind (·.toPandas 0) =
      some { index := [10, 11, 0, 1], columns := [0, 1, 7], rows := [[0, 0, 0], [0, 0, 0], [0, 0, 0], [0, 0, 0]] } := by
  decide +kernel

end SeriesOpDemo
