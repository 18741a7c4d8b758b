import Verif.Lemmas.Duplicated
import Verif.Props.Readers
/-
C41: `duplicated`.
-/

variable {ι κ α K T D : Type}

/-- **C41.** `duplicated(keep=...)` marks the rows pandas marks.  For every frame with columns, with or without pending labels,
    every division into blocks, every `keep`: if the digests of two rows of the frame agree exactly when pandas takes the rows
    for equal, the result is pandas' result.

    Partial: a frame without columns; a frame without rows in several block columns (`C41_no_rows_fails`); rows that pandas takes
    for equal but that print differently (`C41_negative_zero_missed`), or the other way round (`C41_cast_makes_equal`). -/
theorem C41_duplicated_partial [DecidableEq ι] [DecidableEq κ] [DecidableEq K] [DecidableEq D] (cfg : Cfg) (hp : 1 ≤ cfg.nPartitions)
    (hr : 1 ≤ cfg.minRow) (hc : 1 ≤ cfg.minCol) (key : α → K) (text : α → T) (digest : List T → D) (keep : DupKeep)
    (m : LFrame ι κ α) (df : Frame ι κ α) (h : m.Shows df) (hcols : 0 < df.ncols) (hrows : gridWidth m.parts ≤ 1 ∨ 0 < df.nrows)
    (hdig : ∀ r ∈ df.rows, ∀ s ∈ df.rows, r.map key = s.map key ↔ digest (r.map text) = digest (s.map text)) :
    ∃ m', m.duplicated cfg key text digest keep = some m' ∧ m'.Shows (df.duplicated unnamed key keep) ∧
      m'.toPandas false = some (df.duplicated unnamed key keep) ∧ m'.getIndex = df.index ∧ m'.getColumns = [unnamed] := by
  have fin : ∀ m' : LFrame ι String Bool, m'.Shows (df.duplicated unnamed key keep) →
      m'.Shows (df.duplicated unnamed key keep) ∧ m'.toPandas false = some (df.duplicated unnamed key keep) ∧
      m'.getIndex = df.index ∧ m'.getColumns = [unnamed] := by
    intro m' e
    have := e.observed false
    rw [duplicated_index _ _ _ hcols, duplicated_columns] at this
    exact ⟨e, this⟩
  unfold LFrame.duplicated
  split
  · rename_i hw
    have hnr : 0 < df.nrows := by
      rcases hrows with h1 | h1
      · omega
      · exact h1
    obtain ⟨m1, e1, e2⟩ := synced_spec h
    obtain ⟨r, e3, e4⟩ := fullReduce1_spec cfg hp hc e2 hnr (fun row => digest (row.map text))
    have hs := represents_shows e4
    have hw1 : gridWidth r.parts ≤ 1 := by
      obtain ⟨rl, cw, q1, q2, _, q3⟩ := e4.blocks
      rw [fullReduce1_widths e3] at q3
      rcases q3 with q | q
      · cases q
      · cases q
        rw [q2, gridWidth_cut q1.rl_ne]
        simp
    have hsame := duplicated_reduceRows df hcols unnamed key (fun row => digest (row.map text)) keep hdig
    obtain ⟨m', e5, e6⟩ := applyFullColumns_spec cfg hr hs hw1 (fun b => b.duplicated unnamed id keep) (e4.wf.duplicated _ _ _)
      (by rw [duplicated_index]; simp [Frame.reduceRows, Frame.ncols]) (some m.getIndex) (Or.inr (by rw [h.getIndex]; rfl))
    rw [duplicated_columns, hsame] at *
    refine ⟨m', ?_, fin m' e6⟩
    unfold LFrame.operation
    rw [e1, Option.bind_some]
    simp only
    rw [e3, Option.map_some, Option.bind_some]
    exact e5
  · rename_i hw
    obtain ⟨m', e5, e6⟩ := applyFullColumns_spec cfg hr h (by omega) (fun b => b.duplicated unnamed key keep) (h.wf.duplicated _ _ _)
      (duplicated_index _ _ _ hcols) m.index (h.index.imp_left (·.1))
    rw [duplicated_columns] at e5
    exact ⟨m', e5, fin m' e6⟩

/-! ### a concrete case, and what is missing -/

namespace DupDemo

/-- some floats -/
inductive Cell where
  | zero | negZero | one | nan
deriving DecidableEq, Repr

/-- `0.0 == -0.0` -/
def key : Cell → Cell
  | .negZero => .zero
  | c => c

/-- `repr` -/
def text : Cell → String
  | .zero => "0.0"
  | .negZero => "-0.0"
  | .one => "1.0"
  | .nan => "nan"

/-- four rows, the first, third and fourth the same; missing values are equal -/
def df : Frame Int String Cell :=
  { index := [5, 5, 7, 8], columns := ["a", "b"], rows := [[.nan, .one], [.one, .nan], [.nan, .one], [.nan, .one]] }

/-- the frame in two row and two column partitions, with the labels `5, 5, 7, 8` not yet written into the blocks -/
def m : LFrame Int String Cell :=
  { parts := ({ df with index := [0, 1, 2, 3] } : Frame Int String Cell).cut [3, 1] [1, 1], index := some df.index, columns := none,
    rowLens := none, colWidths := none, defIndex := true, defColumns := false }

theorem shows : m.Shows df :=
  ⟨⟨rfl, by decide⟩, ⟨{ df with index := [0, 1, 2, 3] }, [3, 1], [1, 1], ⟨rfl, by decide⟩, rfl, rfl,
    ⟨by decide, by decide, by decide, by decide⟩, rfl, Or.inl rfl, Or.inl rfl, by decide, fun _ => rfl⟩, Or.inr rfl, Or.inl ⟨rfl, rfl⟩⟩

/-- the hypotheses hold, with the texts as digests -/
example : ∃ m', m.duplicated ⟨4, 1, 1⟩ key text (fun l => l) .first = some m' ∧
    m'.toPandas false = some { index := [5, 5, 7, 8], columns := [unnamed], rows := [[false], [false], [true], [true]] } := by
  obtain ⟨m', e1, _, e2, _⟩ := C41_duplicated_partial ⟨4, 1, 1⟩ (by decide) (by decide) (by decide) key text (fun l => l) .first m df shows
    (by decide) (Or.inr (by decide)) (by decide)
  exact ⟨m', e1, by rw [e2]; decide⟩

example : (df.duplicated unnamed key .last).rows = [[true], [false], [true], [false]] := by decide
example : (df.duplicated unnamed key .none).rows = [[true], [false], [true], [true]] := by decide

/-- two rows that are equal to pandas: `0.0` and `-0.0` -/
def zeros : Frame Int String Cell := { index := [0, 1], columns := ["a", "b"], rows := [[.zero, .one], [.negZero, .one]] }

def mzeros (cw : List Nat) : LFrame Int String Cell :=
  { parts := zeros.cut [2] cw, index := none, columns := none, rowLens := none, colWidths := none, defIndex := false, defColumns := false }

/-- **C41 fails for rows that print differently.**  pandas marks the second row, which equals the first; Modin marks it if the
    columns are in one partition and does not mark it if they are in two: the texts, and so their digests, differ. -/
theorem C41_negative_zero_missed :
    (zeros.duplicated unnamed key .first).rows = [[false], [true]] ∧
    ((mzeros [2]).duplicated ⟨4, 1, 1⟩ key text (fun l => l) .first).bind (·.toPandas false) =
      some (zeros.duplicated unnamed key .first) ∧
    (((mzeros [1, 1]).duplicated ⟨4, 1, 1⟩ key text (fun l => l) .first).bind (·.toPandas false)).map (·.rows) =
      some [[false], [false]] := by
  refine ⟨by decide, by decide +kernel, by decide +kernel⟩

/-- two different integers (the cells of the second column are floats), which become equal when the row is cast to float64 -/
def big : Frame Int String Int :=
  { index := [0, 1], columns := ["a", "b"], rows := [[9007199254740992, 1], [9007199254740993, 1]] }

/-- casting to float64, for the numbers used here -/
def asFloat (n : Int) : Int := if n = 9007199254740993 then 9007199254740992 else n

/-- **C41 fails for rows that become equal by a cast.**  `DataFrame.apply(axis=1)` presents an integer and a float column as rows
    of floats. -/
theorem C41_cast_makes_equal :
    (big.duplicated unnamed id .first).rows = [[false], [false]] ∧
    ((LFrame.duplicated ⟨4, 1, 1⟩ id asFloat (fun l => l) .first
      (⟨⟨big.cut [2] [1, 1], none, none, none, none⟩, false, false⟩ : LFrame Int String Int)).bind (·.toPandas false)).map (·.rows) =
      some [[false], [true]] := by
  refine ⟨by decide, by decide +kernel⟩

/-- **C41 fails for a frame without rows.**  The frame of digests has one column but is held in several block columns; each of
    them yields a column of marks, and the one label cannot be written to all of them. -/
theorem C41_no_rows_fails :
    ((⟨[], ["a", "b"], []⟩ : Frame Int String Cell).duplicated unnamed key .first) = ⟨[], [unnamed], []⟩ ∧
    ((LFrame.duplicated ⟨4, 1, 1⟩ key text (fun l => l) .first
      (⟨⟨(⟨[], ["a", "b"], []⟩ : Frame Int String Cell).cut [0] [1, 1], none, none, none, none⟩, false, false⟩
        : LFrame Int String Cell)).bind (·.toPandas false)) = none := by
  refine ⟨by decide, by decide +kernel⟩

end DupDemo
