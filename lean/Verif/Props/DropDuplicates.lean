import Verif.Model.DropDuplicates
import Verif.Props.Mask
import Verif.Props.Duplicated
import Verif.Props.Relabel
import Verif.Lemmas.UniqueKernel
/-
C52: `drop_duplicates` keeps exactly one (or none) of every set of equal rows.
-/

variable {ι κ α K T D : Type}

theorem subset_positions [DecidableEq κ] {columns l : List κ} (hn : (columns.filter fun c => l.contains c).Nodup) :
    (columns.filter fun c => l.contains c).flatMap (positionsOf columns) =
      (List.range columns.length).filter fun j => columns[j]?.any fun c => l.contains c :=
  flatMap_filter hn

/-- the frame whose rows are compared -/
def Frame.subsetFrame [DecidableEq κ] (subset : Option (List κ)) (df : Frame ι κ α) : Frame ι κ α :=
  match subset with
  | none => df
  | some l => df.takeCols ((List.range df.columns.length).filter fun j => df.columns[j]?.any fun c => l.contains c)

theorem subsetFrame_rows [DecidableEq κ] (subset : Option (List κ)) (df : Frame ι κ α) :
    (df.subsetFrame subset).rows = df.rows.map fun r => subsetCells df.columns subset r := by
  unfold Frame.subsetFrame subsetCells
  cases subset with
  | none => simp
  | some l => rfl

theorem subsetFrame_index [DecidableEq κ] (subset : Option (List κ)) (df : Frame ι κ α) : (df.subsetFrame subset).index = df.index := by
  unfold Frame.subsetFrame
  cases subset <;> rfl

theorem subsetFrame_ncols [DecidableEq κ] {subset : Option (List κ)} {df : Frame ι κ α} (hc : 0 < df.ncols)
    (hs : ∀ l, subset = some l → l ≠ []) (hok : subsetOk df.columns subset) : 0 < (df.subsetFrame subset).ncols := by
  unfold Frame.subsetFrame
  cases subset with
  | none => exact hc
  | some l =>
    obtain ⟨x, hx⟩ := List.exists_mem_of_ne_nil _ (hs l rfl)
    have hxc := hok l rfl x hx
    show 0 < (takeList df.columns _).length
    rw [takeList_filter df.columns (fun c => l.contains c)]
    apply List.length_pos_of_mem (a := x)
    simp [hxc, hx]

/-- **C52.** For every frame with rows and columns, divided in any way and with labels recorded or not, every `keep`, `subset` of
    column labels (no listed column's label repeats) and `ignore_index`: `drop_duplicates` gives pandas' rows, in order, with
    their labels (or 0, 1, ...), and raises exactly when a listed column is not there.  As for `duplicated` (C41) the digests of
    two rows must be equal exactly when their cells are.

    Partial: frames without rows (`C52_no_rows_fails`) or columns, repeated labels among the listed columns,
    `DynamicPartitioning`, digests that confuse rows (C41), one column with `keep="last"` and `ignore_index=True`
    (`C52_last_is_first`); a frame of one column must not be held with blocks of no columns beside it. -/
theorem C52_drop_duplicates_partial [DecidableEq ι] [DecidableEq κ] [DecidableEq K] [DecidableEq D] (le : ι → ι → Bool) (cfg : Cfg)
    (hp : 1 ≤ cfg.nPartitions) (hr : 1 ≤ cfg.minRow) (hc : 1 ≤ cfg.minCol) (cpu : Nat) (known : Nat → Nat → Bool × Bool) (nan : α)
    (num : Nat → ι) (cell : ι → α) (indexName levelName : κ) (name : Option κ) (namesKnown : Bool) (key : α → K) (text : α → T)
    (digest : List T → D) (keep : DupKeep) (ignore : Bool) (subset : Option (List κ)) (m : LFrame ι κ α) (df : Frame ι κ α)
    (h : m.Shows df) (hrows : df.rows ≠ []) (hcols : df.columns ≠ [])
    (hs : ∀ l, subset = some l → l ≠ [] ∧ (df.columns.filter fun c => l.contains c).Nodup)
    (hdig : ∀ r ∈ df.rows, ∀ s ∈ df.rows, (subsetCells df.columns subset r).map key = (subsetCells df.columns subset s).map key ↔
      digest ((subsetCells df.columns subset r).map text) = digest ((subsetCells df.columns subset s).map text))
    (hone : df.ncols = 1 → gridWidth m.parts ≤ 1) (hlast : ¬(keep = .last ∧ ignore = true ∧ subset = none ∧ df.ncols = 1)) :
    match df.dropDuplicates num key keep subset ignore with
    | none => m.dropDuplicates le cfg false cpu known nan num cell indexName levelName name namesKnown key text digest keep ignore
        subset = none
    | some r => ∃ m', m.dropDuplicates le cfg false cpu known nan num cell indexName levelName name namesKnown key text digest keep
          ignore subset = some m' ∧ m'.Shows r ∧ m'.toPandas nan = some r ∧ m'.getIndex = r.index ∧ m'.getColumns = r.columns := by
  unfold Frame.dropDuplicates LFrame.dropDuplicates
  rw [if_neg (by simp [hrows, hcols]), h.getColumns]
  by_cases hok : subsetOk df.columns subset
  · rw [if_pos hok, if_pos ((checkSubset_iff _ _).2 hok)]
    simp only
    have hn : 0 < df.nrows := by
      have := h.wf.rows_len
      have h2 := List.length_pos_iff.2 hrows
      unfold Frame.nrows
      omega
    have hcl : 0 < df.ncols := List.length_pos_iff.2 hcols
    by_cases hk : (subset.isNone && ignore && decide (m.getColumns.length = 1) && decide (keep ≠ .none)) = true
    · unfold LFrame.unique
      rw [if_pos hk]
      rw [h.getColumns] at hk
      simp only [Bool.and_eq_true, decide_eq_true_eq, Option.isNone_iff_eq_none] at hk
      obtain ⟨⟨⟨rfl, rfl⟩, k3⟩, k4⟩ := hk
      have k5 : keep = .first := by
        cases keep with
        | first => rfl
        | last => exact absurd ⟨rfl, rfl, rfl, k3⟩ hlast
        | none => exact absurd rfl k4
      subst k5
      obtain ⟨m', a1, a2⟩ := uniqueKernel_shows cfg hp hr num key h (hone k3) k3
      exact ⟨m', a1, a2, (a2.observed nan).1, a2.getIndex, a2.getColumns⟩
    unfold LFrame.unique
    rw [if_neg hk]
    unfold LFrame.baseUnique
    have h1 : ∃ s, m.comparedColumns cfg known subset = some s ∧ s.Shows (df.subsetFrame subset) := by
      cases subset with
      | none => exact ⟨m, rfl, h⟩
      | some l =>
        obtain ⟨s, e1, e2⟩ := takeColLabels_shows cfg hp hr hc known h (labels := df.columns.filter fun c => l.contains c)
          (fun x hx => (List.mem_filter.1 hx).1) (hs l rfl).2
        rw [subset_positions (hs l rfl).2] at e2
        refine ⟨s, ?_, e2⟩
        unfold LFrame.comparedColumns LFrame.subsetColumns
        simp only
        rw [h.getColumns, e1]
    obtain ⟨s, s1, s2⟩ := h1
    have hsn := subsetFrame_ncols hcl (fun l e => (hs l e).1) hok
    obtain ⟨marks, k1, k2, _⟩ := C41_duplicated_partial cfg hp hr hc key text digest keep s (df.subsetFrame subset) s2 hsn
      (Or.inr (by unfold Frame.nrows; rw [subsetFrame_index]; exact hn))
      (by
        rw [subsetFrame_rows]
        intro r hr' t ht
        obtain ⟨r', hr1, rfl⟩ := List.mem_map.1 hr'
        obtain ⟨t', ht1, rfl⟩ := List.mem_map.1 ht
        exact hdig r' hr1 t' ht1)
    obtain ⟨mask, q1, q2⟩ := mapCells_shows cfg false cpu (fun b : Bool => some (!b)) k2
    have hmf : (df.subsetFrame subset).duplicated unnamed key keep =
        { index := df.index, columns := [unnamed],
          rows := (duplicatedMarks keep (df.rows.map fun r => (subsetCells df.columns subset r).map key)).map ([·]) } := by
      unfold Frame.duplicated
      rw [if_neg (by have := hsn; unfold Frame.ncols at this; omega), subsetFrame_index, subsetFrame_rows, List.map_map]
      rfl
    rw [hmf] at q2
    have main := C51_mask_partial le cfg hp hr nan m mask df _ ((duplicatedMarks keep (df.rows.map fun r =>
      (subsetCells df.columns subset r).map key)).map not) h q2 rfl (by simp [Frame.mapCells]) (Or.inl rfl)
    simp only [Frame.mapCells, Frame.getMask, maskFor, ↓reduceIte, Option.map_some] at main
    obtain ⟨r, r1, r2, r3⟩ := main
    rw [s1, Option.bind_some, k1, Option.bind_some, q1, Option.bind_some, r1, Option.bind_some]
    cases ignore with
    | false => exact ⟨r, rfl, r2, r3⟩
    | true =>
      obtain ⟨m', a1, a2, a3, a4, a5⟩ := C32_reset_index_partial cfg hc num cell indexName levelName name true namesKnown nan r _ _ r2
        rfl (by simp)
      exact ⟨m', by simpa using a1, a5 (Or.inr (Or.inr rfl)), a2, a3, a4⟩
  · rw [if_neg hok]
    simp only
    rw [if_neg (by rw [checkSubset_iff]; exact hok)]

/-- **C52.** `Series.unique()` gives each value once, in the order of its first appearance, whatever the blocks of rows. -/
theorem C52_unique [DecidableEq ι] [DecidableEq κ] [DecidableEq K] [DecidableEq D] (le : ι → ι → Bool) (cfg : Cfg)
    (hp : 1 ≤ cfg.nPartitions) (hr : 1 ≤ cfg.minRow) (dyn : Bool) (cpu : Nat) (known : Nat → Nat → Bool × Bool) (nan : α)
    (num : Nat → ι) (cell : ι → α) (indexName levelName : κ) (name : Option κ) (namesKnown : Bool) (key : α → K) (text : α → T)
    (digest : List T → D) (m : LFrame ι κ α) (index : List ι) (label : κ) (cells : List α)
    (h : m.Shows { index := index, columns := [label], rows := cells.map ([·]) }) (hw : gridWidth m.parts ≤ 1) :
    m.seriesUnique le cfg dyn cpu known nan num cell indexName levelName name namesKnown key text digest
      = some (dropDuplicates .first key cells) := by
  obtain ⟨m', a1, a2⟩ := uniqueKernel_shows cfg hp hr num key h hw rfl
  unfold LFrame.seriesUnique LFrame.unique
  rw [if_pos (by rw [h.getColumns]; rfl), a1, Option.bind_some, (a2.observed nan).1]
  simp only [Option.map_some, Frame.pickRows, Frame.ignoreIndex, if_true, List.map_map]
  congr 1
  rw [show (((fun x => x.map key) ∘ fun x => [x]) : α → List K) = fun x => [key x] from rfl]
  have e := keepWhere_marks_first (fun r : List α => r.map key) (cells.map ([·]))
  rw [List.map_map, show (((fun r => r.map key) ∘ fun x => [x]) : α → List K) = fun x => [key x] from rfl] at e
  rw [e]
  induction cells with
  | nil => rfl
  | cons x l ih =>
    clear e a1 a2
    have : ∀ l : List α, (dropDuplicates .first (fun r : List α => r.map key) (l.map ([·]))) = (dropDuplicates .first key l).map ([·]) := by
      intro l
      induction l with
      | nil => rfl
      | cons x l ih =>
        rw [List.map_cons]
        unfold dropDuplicates
        simp only
        rw [ih, List.map_cons, List.filter_map]
        congr 2
        refine List.filter_congr fun y _ => ?_
        simp
    rw [this, ← List.flatMap_def, List.flatMap_singleton']

namespace DropDupDemo
open DupDemo

def leI (a b : Int) : Bool := decide (a ≤ b)

/-- the frame of C41: four rows, the first, third and fourth the same, in two row and two column partitions, with labels that
    have not been written into the blocks -/
example : ∃ m', m.dropDuplicates leI ⟨4, 1, 1⟩ false 4 (fun _ _ => (false, false)) .nan Int.ofNat (fun _ => .nan) "index" "level_0" none
      true key text (fun l => l) .last true none = some m' ∧
    m'.toPandas .nan = some { index := [0, 1], columns := ["a", "b"], rows := [[.one, .nan], [.nan, .one]] } := by
  obtain ⟨m', e1, _, e2, _⟩ := C52_drop_duplicates_partial leI ⟨4, 1, 1⟩ (by decide) (by decide) (by decide) 4 (fun _ _ => (false, false))
    .nan Int.ofNat (fun _ => .nan) "index" "level_0" none true key text (fun l => l) .last true none m df DupDemo.shows (by decide) (by decide)
    (by simp) (by decide) (by decide) (by decide)
  exact ⟨m', e1, by rw [e2]; decide⟩

example : ∃ m', m.dropDuplicates leI ⟨4, 1, 1⟩ false 4 (fun _ _ => (false, false)) .nan Int.ofNat (fun _ => .nan) "index" "level_0" none
      true key text (fun l => l) .none false (some ["b"]) = some m' ∧
    m'.toPandas .nan = some { index := [5], columns := ["a", "b"], rows := [[.one, .nan]] } := by
  obtain ⟨m', e1, _, e2, _⟩ := C52_drop_duplicates_partial leI ⟨4, 1, 1⟩ (by decide) (by decide) (by decide) 4 (fun _ _ => (false, false))
    .nan Int.ofNat (fun _ => .nan) "index" "level_0" none true key text (fun l => l) .none false (some ["b"]) m df DupDemo.shows (by decide)
    (by decide) (by simp; decide) (by decide) (by decide) (by decide)
  exact ⟨m', e1, by rw [e2]; decide⟩

def noRows : Frame Int String Cell := ⟨[], ["a", "b"], []⟩

/-- **C52, violated.** A frame without rows held in two block columns: pandas returns it, Modin raises. -/
theorem C52_no_rows_fails :
    noRows.dropDuplicates Int.ofNat key .first none false = some noRows ∧
    (⟨⟨noRows.cut [0] [1, 1], none, none, none, none⟩, false, false⟩ : LFrame Int String Cell).dropDuplicates leI ⟨4, 1, 1⟩ false 4
      (fun _ _ => (false, false)) .nan Int.ofNat (fun _ => .nan) "index" "level_0" none true key text (fun l => l) .first false none = none := by
  decide +kernel

/-- one column in two row partitions -/
def col : Frame Int String Cell := ⟨[5, 6, 7], ["a"], [[.zero], [.one], [.negZero]]⟩

def mcol : LFrame Int String Cell := ⟨⟨col.cut [2, 1] [1], some col.index, some col.columns, none, none⟩, false, false⟩

theorem mcol_shows : mcol.Shows col :=
  ⟨⟨rfl, by decide⟩, ⟨col, [2, 1], [1], ⟨rfl, by decide⟩, rfl, rfl,
    ⟨by decide, by decide, by decide, by decide⟩, rfl, Or.inl rfl, Or.inl rfl, by decide, by decide⟩, Or.inr rfl, Or.inr rfl⟩

-- `Series([0.0, 1.0, -0.0]).unique()`
example : mcol.seriesUnique leI ⟨4, 1, 1⟩ false 4 (fun _ _ => (false, false)) .nan Int.ofNat (fun _ => .nan) "index" "level_0" none true key
    text (fun l => l) = some [.zero, .one] := by
  have h : gridWidth mcol.parts ≤ 1 := by decide
  rw [C52_unique leI ⟨4, 1, 1⟩ (by decide) (by decide) false 4 (fun _ _ => (false, false)) .nan Int.ofNat (fun _ => .nan) "index" "level_0" none
    true key text (fun l => l) mcol [5, 6, 7] "a" [.zero, .one, .negZero] mcol_shows h]
  decide

/-- **C52, violated.** `drop_duplicates(keep="last", ignore_index=True)` on one column keeps the first of equal values. -/
theorem C52_last_is_first :
    (mcol.dropDuplicates leI ⟨4, 1, 1⟩ false 4 (fun _ _ => (false, false)) .nan Int.ofNat (fun _ => .nan) "index" "level_0" none true key
      text (fun l => l) .last true none).bind (·.toPandas .nan) = some ⟨[0, 1], ["a"], [[.zero], [.one]]⟩ ∧
    col.dropDuplicates Int.ofNat key .last none true = some ⟨[0, 1], ["a"], [[.one], [.negZero]]⟩ :=
  ⟨by decide +kernel, by decide +kernel⟩

end DropDupDemo
