import Verif.Lemmas.Dropna
import Verif.Props.Readers
/-
C33: `dropna`.
-/

variable {ι κ α : Type}

/-- **C33.** `dropna(axis=1, how | thresh, subset, ignore_index)` drops the columns pandas drops.  For every frame with
    distinct column labels, with or without pending labels, every division into blocks (row partitions without any row of the
    subset and empty ones included), every number of processors (it decides between the two algorithms), every `subset`:
    Modin succeeds exactly when pandas does, with pandas' result.

    Partial: repeated column labels and `DynamicPartitioning` without `thresh` (`C33_repeated_labels`,
    `C33_dynamic_wrong_row`; see `C33_dropna_columns_dynamic_partial`). -/
theorem C33_dropna_columns_partial [DecidableEq ι] [DecidableEq κ] (cfg : Cfg) (hmc : 1 ≤ cfg.minCol) (dyn : Bool) (cpu : Nat)
    (isna : α → Bool) (num : Nat → ι) (rule : NaRule) (subset : Option (List ι)) (ignore : Bool) (nan : α) (m : LFrame ι κ α)
    (df : Frame ι κ α) (h : m.Shows df) (hn : (∃ n, rule = .thresh n) ∨ (dyn = false ∧ df.columns.Nodup)) :
    match df.dropnaCols isna rule subset with
    | none => m.dropnaCols cfg dyn cpu isna num rule subset ignore = none
    | some r => ∃ m', m.dropnaCols cfg dyn cpu isna num rule subset ignore = some m' ∧ m'.Shows (r.ignoreIndex num ignore) ∧
        m'.toPandas nan = some (r.ignoreIndex num ignore) ∧ m'.getIndex = (r.ignoreIndex num ignore).index ∧
        m'.getColumns = (r.ignoreIndex num ignore).columns := by
  unfold Frame.dropnaCols LFrame.dropnaCols
  rw [h.getIndex]
  by_cases hok : subsetOk df.index subset
  · rw [if_pos hok, if_pos ((checkSubset_iff _ _).2 hok)]
    have hf : ∃ m', (m.operation fun m1 => m1.filterAxis cfg true (Frame.dropnaCols isna rule subset)) = some m' ∧
        m'.Shows (df.pickCols (naKeptCols isna rule subset df)) :=
      operation_shows h fun m1 h1 => filterCols_spec cfg isna rule subset h1 hok
    have hc : ∃ m', m.dropnaColsCompiled cfg dyn cpu isna rule subset = some m' ∧
        m'.Shows (df.pickCols (naKeptCols isna rule subset df)) := by
      unfold LFrame.dropnaColsCompiled
      cases rule with
      | thresh n => exact hf
      | how w =>
        simp only
        split
        · rcases hn with ⟨n, e⟩ | ⟨rfl, hn⟩
          · cases e
          · exact operation_shows h fun m1 h1 => dropnaMapReduce_spec cfg hmc isna w subset h1 hn
        · exact hf
    obtain ⟨m1, e1, e2⟩ := hc
    obtain ⟨m', e3, e4⟩ := ignoreIndex_shows num ignore e2
    refine ⟨m', ?_, e4, e4.observed nan⟩
    rw [e1, Option.bind_some, e3]
  · rw [if_neg hok]
    simp only
    rw [if_neg (by rw [checkSubset_iff]; exact hok)]

/-- **C33.** The same with `DynamicPartitioning`, for frames whose row lengths are not recorded and without pending labels. -/
theorem C33_dropna_columns_dynamic_partial [DecidableEq ι] [DecidableEq κ] (cfg : Cfg) (hmc : 1 ≤ cfg.minCol) (hmr : 1 ≤ cfg.minRow)
    (cpu : Nat) (isna : α → Bool) (num : Nat → ι) (rule : NaRule) (subset : Option (List ι)) (ignore : Bool) (nan : α)
    (m : LFrame ι κ α) (df r : Frame ι κ α) (h : m.Shows df) (hn : df.columns.Nodup) (hl : m.rowLens = none)
    (hd : m.defIndex = false ∧ m.defColumns = false) (hr : df.dropnaCols isna rule subset = some r) :
    ∃ m', m.dropnaCols cfg true cpu isna num rule subset ignore = some m' ∧ m'.toPandas nan = some (r.ignoreIndex num ignore) ∧
      m'.getIndex = (r.ignoreIndex num ignore).index ∧ m'.getColumns = (r.ignoreIndex num ignore).columns := by
  unfold Frame.dropnaCols at hr
  split at hr
  · rename_i hok
    rw [Option.some.injEq] at hr
    subst hr
    unfold LFrame.dropnaCols
    rw [h.getIndex, if_pos ((checkSubset_iff _ _).2 hok)]
    have hf : ∃ m', (m.operation fun m1 => m1.filterAxis cfg true (Frame.dropnaCols isna rule subset)) = some m' ∧
        m'.Shows (df.pickCols (naKeptCols isna rule subset df)) :=
      operation_shows h fun m1 h1 => filterCols_spec cfg isna rule subset h1 hok
    have hc : ∃ m', m.dropnaColsCompiled cfg true cpu isna rule subset = some m' ∧
        m'.Shows (df.pickCols (naKeptCols isna rule subset df)) := by
      unfold LFrame.dropnaColsCompiled
      cases rule with
      | thresh n => exact hf
      | how w =>
        simp only
        split
        · have hs : m.synced = some m := by simp [LFrame.synced, hd.1, hd.2]
          obtain ⟨m1, e1, e2⟩ := synced_spec h
          rw [hs, Option.some.injEq] at e1
          subst e1
          obtain ⟨m', e3, e4⟩ := dropnaDynamic_spec cfg hmc hmr isna w subset e2 hn hl
          refine ⟨_, ?_, represents_shows e4⟩
          unfold LFrame.operation
          rw [hs, Option.bind_some]
          exact congrArg (Option.map _) e3
        · exact hf
    obtain ⟨m1, e1, e2⟩ := hc
    obtain ⟨m', e3, e4⟩ := ignoreIndex_shows num ignore e2
    exact ⟨m', by rw [e1, Option.bind_some, e3], e4.observed nan⟩
  · cases hr

/-- **C33.** `dropna(axis=0, how | thresh, subset, ignore_index)` drops the rows pandas drops: every frame, repeated labels
    included, every division, every `subset` of the columns.  Modin succeeds exactly when pandas does, with pandas' result. -/
theorem C33_dropna_rows [DecidableEq ι] [DecidableEq κ] (cfg : Cfg) (hmc : 1 ≤ cfg.minCol)
    (isna : α → Bool) (num : Nat → ι) (rule : NaRule) (subset : Option (List κ)) (ignore : Bool) (nan : α) (m : LFrame ι κ α)
    (df : Frame ι κ α) (h : m.Shows df) :
    match df.dropnaRows isna rule subset with
    | none => m.dropnaRows cfg isna num rule subset ignore = none
    | some r => ∃ m', m.dropnaRows cfg isna num rule subset ignore = some m' ∧ m'.Shows (r.ignoreIndex num ignore) ∧
        m'.toPandas nan = some (r.ignoreIndex num ignore) ∧ m'.getIndex = (r.ignoreIndex num ignore).index ∧
        m'.getColumns = (r.ignoreIndex num ignore).columns := by
  unfold Frame.dropnaRows LFrame.dropnaRows
  rw [h.getColumns]
  by_cases hok : subsetOk df.columns subset
  · rw [if_pos hok, if_pos ((checkSubset_iff _ _).2 hok)]
    obtain ⟨m1, e1, e2⟩ := operation_shows h fun m1 h1 => filterRows_spec cfg hmc isna rule subset h1 hok
    obtain ⟨m', e3, e4⟩ := ignoreIndex_shows num ignore e2
    refine ⟨m', ?_, e4, e4.observed nan⟩
    unfold LFrame.dropnaRowsCompiled
    rw [e1, Option.bind_some, e3]
  · rw [if_neg hok]
    simp only
    rw [if_neg (by rw [checkSubset_iff]; exact hok)]

namespace DropnaDemo

/-- missing values are 0 -/
def na : Int → Bool := (· == 0)

def demo : Frame Nat String Int :=
  { index := [0, 1, 2], columns := ["a", "b", "c"], rows := [[0, 1, 2], [3, 0, 4], [5, 6, 7]] }

/-- two row partitions of one and two rows, two column partitions; the labels are not recorded -/
def held : LFrame Nat String Int :=
  { parts := demo.cut [1, 2] [2, 1], index := none, columns := some ["a", "b", "c"], rowLens := some [1, 2], colWidths := none
    defIndex := false, defColumns := false }

theorem held_shows : held.Shows demo :=
  ⟨⟨by decide, by decide⟩, ⟨demo, [1, 2], [2, 1], ⟨by decide, by decide⟩, rfl, rfl, ⟨by decide, by decide, by decide, by decide⟩, rfl,
    Or.inr rfl, Or.inl rfl, fun _ => rfl, fun _ => rfl⟩, Or.inl ⟨rfl, rfl⟩, Or.inr rfl⟩

example : demo.dropnaCols na (.how .any) none = some { index := [0, 1, 2], columns := ["c"], rows := [[2], [4], [7]] } := by decide
example : demo.dropnaCols na (.how .any) (some [2, 0]) =
    some { index := [0, 1, 2], columns := ["b", "c"], rows := [[1, 2], [0, 4], [6, 7]] } := by decide
/-- the subset has no row in the second row partition -/
example : demo.dropnaCols na (.how .all) (some [0]) =
    some { index := [0, 1, 2], columns := ["b", "c"], rows := [[1, 2], [0, 4], [6, 7]] } := by decide
example : demo.dropnaCols na (.thresh 3) none = some { index := [0, 1, 2], columns := ["c"], rows := [[2], [4], [7]] } := by decide
example : demo.dropnaCols na (.how .any) (some [9]) = none := by decide
example : demo.dropnaRows na (.how .any) (some ["b"]) =
    some { index := [0, 2], columns := ["a", "b", "c"], rows := [[0, 1, 2], [5, 6, 7]] } := by decide
/-- the rule of a repeated label: it counts twice -/
example : demo.dropnaRows na (.thresh 2) (some ["a", "a"]) =
    some { index := [1, 2], columns := ["a", "b", "c"], rows := [[3, 0, 4], [5, 6, 7]] } := by decide

example : ∃ m', held.dropnaCols ⟨4, 1, 1⟩ false 4 na id (.how .all) (some [0]) true = some m' ∧
    m'.toPandas 0 = some { index := [0, 1, 2], columns := ["b", "c"], rows := [[1, 2], [0, 4], [6, 7]] } := by
  obtain ⟨m', a, _, b, _⟩ := C33_dropna_columns_partial ⟨4, 1, 1⟩ (by decide) false 4 na id (.how .all) (some [0]) true 0 held demo held_shows
    (Or.inr ⟨rfl, by decide⟩)
  exact ⟨m', a, b⟩

example : (held.dropnaCols ⟨4, 1, 1⟩ false 0 na id (.how .any) none false).bind (·.toPandas 0) =
    some { index := [0, 1, 2], columns := ["c"], rows := [[2], [4], [7]] } := by decide +kernel

example : ∃ m', ({ held with rowLens := none } : LFrame Nat String Int).dropnaCols ⟨2, 1, 1⟩ true 4 na id (.how .any) none false = some m' ∧
    m'.toPandas 0 = some { index := [0, 1, 2], columns := ["c"], rows := [[2], [4], [7]] } := by
  obtain ⟨m', a, b, _⟩ := C33_dropna_columns_dynamic_partial ⟨2, 1, 1⟩ (by decide) (by decide) 4 na id (.how .any) none false 0
    { held with rowLens := none } demo _ ⟨held_shows.wf, ⟨demo, [1, 2], [2, 1], ⟨by decide, by decide⟩, rfl, rfl,
      ⟨by decide, by decide, by decide, by decide⟩, rfl, Or.inl rfl, Or.inl rfl, fun _ => rfl, fun _ => rfl⟩, Or.inl ⟨rfl, rfl⟩, Or.inr rfl⟩
    (by decide) rfl ⟨rfl, rfl⟩ rfl
  exact ⟨m', a, b⟩

example : ∃ m', held.dropnaRows ⟨4, 1, 1⟩ na id (.how .any) none true = some m' ∧
    m'.toPandas 0 = some { index := [0], columns := ["a", "b", "c"], rows := [[5, 6, 7]] } := by
  obtain ⟨m', a, _, b, _⟩ := C33_dropna_rows ⟨4, 1, 1⟩ (by decide) na id (.how .any) none true 0 held demo held_shows
  exact ⟨m', a, b⟩

def twice : Frame Nat String Int := { index := [0, 1], columns := ["a", "a", "b"], rows := [[1, 0, 2], [3, 4, 5]] }

end DropnaDemo

open DropnaDemo in
/-- **C33, violated.** Two columns `"a"`, one of them with a missing value: pandas drops that one, Modin keeps both; and two
    columns `"a"` without missing values become four. -/
theorem C33_repeated_labels :
    twice.dropnaCols na (.how .any) none = some { index := [0, 1], columns := ["a", "b"], rows := [[1, 2], [3, 5]] } ∧
    ((⟨⟨twice.cut [2] [3], none, none, none, none⟩, false, false⟩ : LFrame Nat String Int).dropnaCols ⟨4, 1, 1⟩ false 4 na id (.how .any) none false).bind
      (·.toPandas 0) = some twice ∧
    twice.dropnaCols na (.how .all) none = some twice ∧
    ((⟨⟨twice.cut [2] [3], none, none, none, none⟩, false, false⟩ : LFrame Nat String Int).dropnaCols ⟨4, 1, 1⟩ false 4 na id (.how .all) none false).bind
      (·.toPandas 0) = some { index := [0, 1], columns := ["a", "a", "a", "a", "b"], rows := [[1, 0, 1, 0, 2], [3, 4, 3, 4, 5]] } := by
  decide +kernel

open DropnaDemo in
/-- **C33, violated.** With `DynamicPartitioning` the result is divided anew, here into two rows and one row, while one row and
    two rows are recorded: `df.dropna(axis=1).iloc[[1]]` shows the cells of row 2 under the label of row 1. -/
theorem C33_dynamic_wrong_row :
    held.Shows demo ∧
    demo.dropnaCols na (.how .any) none = some { index := [0, 1, 2], columns := ["c"], rows := [[2], [4], [7]] } ∧
    (({ held with index := some [0, 1, 2] } : LFrame Nat String Int).dropnaCols ⟨2, 1, 1⟩ true 4 na id (.how .any) none false).bind
      (fun r => (r.take2d ⟨2, 1, 1⟩ (fun _ _ => (false, false)) (some (.array [1])) none).bind fun t => some (t.getIndex, (assemble t.parts).map (·.rows))) =
      some ([1], some [[7]]) :=
  ⟨held_shows, by decide, by decide +kernel⟩
