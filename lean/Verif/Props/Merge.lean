import Verif.Lemmas.Merge
import Verif.Props.Shuffle
/-
Properties C20 (merge), C21 (range-partitioned merge) and C46 (the columns predicted for a merge).
In all of them `left` and `right` stand for the pandas frames `l` and `r`, each divided into blocks in any way.
-/

variable {ι ι' κ α Q : Type}

/-! ### C20 -/

/-- **C20.** `merge` with `how` in left, inner, right on any columns gives exactly pandas' result: the same rows in the
    same order, the same columns, rows numbered from 0.
    Partial: `sort=False`; a name in both `left_on` and `right_on` must stand at the same place of them and both
    suffixes must be strings (both needed: `C20_swapped_keys_wrong`, `C20_none_suffix_wrong`); keys are columns. -/
theorem C20_merge_partial [DecidableEq ι] [DecidableEq ι'] [DecidableEq κ] [DecidableEq α] (cfg : Cfg)
    (hp : 1 ≤ cfg.nPartitions) (hmr : 1 ≤ cfg.minRow) (hmc : 1 ≤ cfg.minCol) (o : MergeOn κ) (ho : o.Aligned)
    (h1 : o.leftSuffix.isSome) (h2 : o.rightSuffix.isSome) (nan : α) (how : How) (byNames : Option (List κ))
    {left : MFrame ι κ α} {right : MFrame ι' κ α} {l : Frame ι κ α} {r : Frame ι' κ α} (hl : left.Represents l)
    (hr : right.Represents r) (hnl : l.columns ≠ []) (hnr : r.columns ≠ []) :
    ∃ m', rowAxisMerge (Q := Q) cfg o nan how none byNames left right = some m' ∧
      m'.Represents (Frame.merge o nan how l r) := by
  obtain ⟨m, f, e1, e2, e3, _⟩ := rowAxisMergeUnsorted_spec cfg hp hmr hmc o ho h1 h2 nan how hl hr hnl hnr
  obtain ⟨m', g1, g2, _⟩ := resetIndexDropLazy_spec cfg hmc e2
  refine ⟨m', ?_, ?_⟩
  · unfold rowAxisMerge
    rw [e1]
    exact g1
  · have : Frame.mk (List.range f.index.length) f.columns f.rows = Frame.merge o nan how l r := by
      rw [e3.1, e3.2, ← e2.wf.rows_len, e3.2]
      rfl
    rw [← this]; exact g2

/-- **C20 (sort=True).** When the call names the key columns and they are columns of the result, `sort=True` gives
    pandas' rows stably sorted by them (missing keys last), numbered from 0, whatever pivots the sampling led to.
    Partial: as `C20_merge_partial`, and `NPartitions` at least 2 (`C18_no_pivots_wrong`); a call that names no columns
    is not sorted (`C20_sort_unnamed_wrong`), a key renamed by a suffix raises (`C20_sort_renamed_key_crash`). -/
theorem C20_merge_sorted_partial [DecidableEq ι] [DecidableEq ι'] [DecidableEq κ] [DecidableEq α] (cfg : Cfg)
    (hp : 2 ≤ cfg.nPartitions) (hmr : 1 ≤ cfg.minRow) (hmc : 1 ≤ cfg.minCol) (o : MergeOn κ) (ho : o.Aligned)
    (h1 : o.leftSuffix.isSome) (h2 : o.rightSuffix.isSome) (nan : α) (how : How)
    (rq : SortReq α Q) (hle : TotalLe rq.le) (hna : ∀ a, rq.isna a = (rq.key a).isNone)
    (hdraw : ∀ n, 2 ≤ n → rq.draw n ≠ [] ∧ Increasing rq.le (rq.draw n))
    {left : MFrame ι κ α} {right : MFrame ι' κ α} {l : Frame ι κ α} {r : Frame ι' κ α} (hl : left.Represents l)
    (hr : right.Represents r) (hnl : l.columns ≠ []) (hnr : r.columns ≠ [])
    (names : List κ) (hne : names ≠ []) (hnames : ∀ c ∈ names, c ∈ o.columns l.columns r.columns) :
    ∃ m', rowAxisMerge cfg o nan how (some rq) (some names) left right = some m' ∧
      m'.Represents (Frame.numbered (o.columns l.columns r.columns)
        ((Frame.merge o nan how l r).sortValues rq.le rq.key true
          (names.map fun c => ((o.columns l.columns r.columns).idxOf c, true))).rows) := by
  obtain ⟨m, f, e1, e2, e3, _⟩ := rowAxisMergeUnsorted_spec cfg (by omega) hmr hmc o ho h1 h2 nan how hl hr hnl hnr
  cases names with
  | nil => exact absurd rfl hne
  | cons c0 names =>
    have hfc : f.columns = o.columns l.columns r.columns := e3.1
    obtain ⟨m1, s1, s2⟩ := C18_sort_values_partial cfg hp hmr hmc rq.over hle hna rq.numeric true hdraw e2
      (f.columns.idxOf c0) true (names.map fun c => (f.columns.idxOf c, true))
      (by
        have := hnames c0 (by simp)
        rw [← hfc] at this
        exact List.idxOf_lt_length_of_mem this)
    obtain ⟨m', g1, g2, _⟩ := resetIndexDropLazy_spec cfg hmc s2
    refine ⟨m', ?_, ?_⟩
    · unfold rowAxisMerge sortMerged
      simp only [e1, Option.bind_some]
      rw [e2.getColumns, if_pos (by
        rw [List.all_eq_true]
        intro c hc
        rw [hfc]
        simpa using hnames c hc), List.map_cons, s1, Option.bind_some]
      exact g1
    · have hs := sortValues_sameData rq.le rq.key true (((c0 :: names).map fun c => (f.columns.idxOf c, true))) e2.wf
        (merge_wf o nan how hl.wf hr.wf) e3
      rw [List.map_cons] at hs
      have hw := s2.wf.rows_len
      rw [hs.1, hs.2, ← hw, hs.2] at g2
      simp only [hfc, ← List.map_cons (f := fun c => ((o.columns l.columns r.columns).idxOf c, true))] at g2
      exact g2

/-! ### C21 -/

/-- **C21.** The range-partitioned merge (`how` left or inner, one key column of the same name on both sides)
    gives pandas' rows (as a multiset: their order is that of the ranges), its columns, and numbers the rows
    from 0, whatever pivots the sampling of `left` led to and however differently the two frames are divided.
    Partial: the suffixes must be strings (`C20_none_suffix_wrong`), the sampling must give at least one pivot. -/
theorem C21_range_merge_partial [DecidableEq ι] [DecidableEq ι'] [DecidableEq κ] [DecidableEq α] (cfg : Cfg)
    (hp : 1 ≤ cfg.nPartitions) (hmc : 1 ≤ cfg.minCol) (o : MergeOn κ) (k : κ) (ho : o.leftOn = [k] ∧ o.rightOn = [k])
    (h1 : o.leftSuffix.isSome) (h2 : o.rightSuffix.isSome) (nan : α) {how : How} (hh : how ≠ .right)
    {le : Q → Q → Bool} (hle : TotalLe le) (col : KeyCol α Q) {draw : Nat → List (Option Q)}
    (hdraw : ∀ n, 2 ≤ n → draw n ≠ [] ∧ Increasing le (draw n))
    {left : MFrame ι κ α} {right : MFrame ι' κ α} {l : Frame ι κ α} {r : Frame ι' κ α} (hl : left.Represents l)
    (hr : right.Represents r) (hkl : k ∈ l.columns) (hkr : k ∈ r.columns) :
    ∃ m' f, rangeMerge cfg o nan how le col draw k left right = some m' ∧ m'.Represents f ∧
      f.columns = (Frame.merge o nan how l r).columns ∧ f.index = List.range f.rows.length ∧
      f.rows.Perm (Frame.merge o nan how l r).rows :=
  rangeMerge_spec cfg hp hmc o k ho h1 h2 nan hh hle col hdraw hl hr hkl hkr

/-! ### C46 -/

/-- **C46.** The column labels a merge records without looking at its result, if it records any, are the labels the
    result has.  Partial: as for `C20_merge_partial`. -/
theorem C46_predicted_columns_partial [DecidableEq κ] [DecidableEq α] (o : MergeOn κ) (ho : o.Aligned) (h1 : o.leftSuffix.isSome)
    (h2 : o.rightSuffix.isSome) (nan : α) (how : How) {left : MFrame ι κ α} {right : MFrame ι' κ α} {l : Frame ι κ α}
    {r : Frame ι' κ α} (hl : left.Represents l) (hr : right.Represents r) (c : List κ) (hc : mergeColumns o left right = some c) :
    c = (Frame.merge o nan how l r).columns ∧
      (∀ row ∈ (Frame.merge o nan how l r).rows, row.length = c.length) := by
  rcases mergeColumns_eq o ho h1 h2 hl hr with h | h
  · rw [h] at hc; simp at hc
  · rw [h] at hc
    cases hc
    exact ⟨rfl, (merge_wf o nan how hl.wf hr.wf).row_width⟩

/-! ### the hypotheses hold of a concrete case -/

namespace C20Example
open C18Example

def l : Frame Nat String (Option Int) :=
  { index := [7, 8, 9, 10], columns := ["k", "v"], rows := [[some 3, some 1], [none, some 2], [some 1, some 3], [some 3, some 4]] }
def r : Frame Nat String (Option Int) :=
  { index := [0, 1, 2], columns := ["v", "k"], rows := [[some 10, some 3], [some 11, none], [some 12, some 3]] }
def left : MFrame Nat String (Option Int) :=
  { parts := l.cut [1, 3] [1, 1], index := some l.index, columns := some l.columns, rowLens := none, colWidths := some [1, 1] }
def right : MFrame Nat String (Option Int) :=
  { parts := r.cut [2, 1] [2], index := none, columns := none, rowLens := none, colWidths := none }
def o : MergeOn String := { leftOn := ["k"], rightOn := ["k"], leftSuffix := some "_x", rightSuffix := some "_y", fmt := fun c s => c ++ s }

theorem repL : left.Represents l :=
  ⟨⟨by decide, by decide⟩, ⟨[1, 3], [1, 1], ⟨by decide, by decide, by decide, by decide⟩, rfl, Or.inl rfl, Or.inr rfl⟩,
    Or.inr rfl, Or.inr rfl⟩
theorem repR : right.Represents r :=
  ⟨⟨by decide, by decide⟩, ⟨[2, 1], [2], ⟨by decide, by decide, by decide, by decide⟩, rfl, Or.inl rfl, Or.inl rfl⟩,
    Or.inl rfl, Or.inl rfl⟩
theorem aligned : o.Aligned := by
  intro c hc _
  simp only [o, List.mem_singleton] at hc
  subst hc
  decide

def rq : SortReq (Option Int) Int :=
  { over := false, le := le, isna := Option.isNone, key := id, numeric := true, draw := draw }

example : ∃ m', rowAxisMerge (Q := Int) ⟨4, 1, 1⟩ o none .right none none left right = some m' ∧
    m'.Represents (Frame.merge o none .right l r) :=
  C20_merge_partial _ (by decide) (by decide) (by decide) o aligned rfl rfl none .right none repL repR (by decide) (by decide)

/-- what the specification says in this case -/
example : Frame.merge o none .left l r = Frame.mk [0, 1, 2, 3, 4, 5] ["k", "v_x", "v_y"]
    [[some 3, some 1, some 10], [some 3, some 1, some 12], [none, some 2, some 11], [some 1, some 3, none],
     [some 3, some 4, some 10], [some 3, some 4, some 12]] := by decide
example : (Frame.merge o none .right l r).rows =
    [[some 3, some 1, some 10], [some 3, some 4, some 10], [none, some 2, some 11], [some 3, some 1, some 12], [some 3, some 4, some 12]] := by decide

example : ∃ m', rowAxisMerge ⟨4, 1, 1⟩ o none .left (some rq) (some ["k"]) left right = some m' ∧
      m'.Represents (Frame.numbered (o.columns l.columns r.columns)
        ((Frame.merge o none .left l r).sortValues rq.le rq.key true
          (["k"].map fun c => ((o.columns l.columns r.columns).idxOf c, true))).rows) :=
  C20_merge_sorted_partial _ (by decide) (by decide) (by decide) o aligned rfl rfl none .left rq total (fun _ => rfl) draws
    repL repR (by decide) (by decide) ["k"] (by decide) (by decide)

example : ((Frame.merge o none .left l r).sortValues rq.le rq.key true [(0, true)]).rows =
    [[some 1, some 3, none], [some 3, some 1, some 10], [some 3, some 1, some 12], [some 3, some 4, some 10], [some 3, some 4, some 12],
     [none, some 2, some 11]] := by decide

example : ∃ m' f, rangeMerge ⟨4, 1, 1⟩ o none .left le kcol draw "k" left right = some m' ∧ m'.Represents f ∧
      f.columns = (Frame.merge o none .left l r).columns ∧ f.index = List.range f.rows.length ∧
      f.rows.Perm (Frame.merge o none .left l r).rows :=
  C21_range_merge_partial _ (by decide) (by decide) o "k" ⟨rfl, rfl⟩ rfl rfl none (by decide) total kcol draws repL repR (by decide) (by decide)

example : mergeColumns o left right = some ["k", "v_x", "v_y"] := by decide

end C20Example

open C20Example C18Example in
/-- **C20, where it fails (1).** `left.merge(right, sort=True)` on the common columns without naming them: not sorted. -/
theorem C20_sort_unnamed_wrong :
    (rowAxisMerge ⟨4, 1, 1⟩ o none .left (some rq) none left right).bind (fun m => (m.toPandas none).map (·.rows)) =
      some (Frame.merge o none .left l r).rows ∧
    ((Frame.merge o none .left l r).sortValues rq.le rq.key true [(0, true)]).rows ≠ (Frame.merge o none .left l r).rows := by decide

open C20Example C18Example in
/-- **C20, where it fails (2).** `left.merge(right, left_on="k", right_on="v", sort=True)` where `right` has a column `k`
    too: the result has `k_x`, sorting by `k` raises. -/
theorem C20_sort_renamed_key_crash :
    rowAxisMerge ⟨4, 1, 1⟩ { o with leftOn := ["k"], rightOn := ["v"] } none .left (some rq) (some ["k", "v"]) left right = none := by decide

open C20Example C18Example in
/-- **C20/C46, where they fail (3).** `left_on=["k", "v"], right_on=["v", "k"]`: pandas keeps all four columns, the
    predicted columns are two. -/
theorem C20_swapped_keys_wrong :
    mergeColumns { o with leftOn := ["k", "v"], rightOn := ["v", "k"] } left right = some ["k", "v"] ∧
    (Frame.merge { o with leftOn := ["k", "v"], rightOn := ["v", "k"] } none .inner l r).columns = ["k_x", "v_x", "v_y", "k_y"] := by decide

open C20Example C18Example in
/-- **C20/C46, where they fail (4).** `suffixes=(None, "_y")`: the predicted label is `vNone`. -/
theorem C20_none_suffix_wrong :
    mergeColumns { o with leftSuffix := none } left right = some ["k", "vNone", "v_y"] ∧
    (Frame.merge { o with leftSuffix := none } none .left l r).columns = ["k", "v", "v_y"] := by decide
