import Verif.Lemmas.Corr
import Verif.Props.Readers
/-
C35: `corr` and `cov`.
-/

variable {ι κ R : Type}

/-- **C35, correlation.** `corr(min_periods=...)` gives the table pandas gives.  For every frame of exact numbers and missing
    values with columns, distinct labels, with or without pending labels, every division into blocks, every `min_periods`: if
    nothing is missing, or the column labels are in increasing order, or every row partition has a missing value, the result is
    the table of the correlations of the columns over the rows where both have a value.  `quotient t a b` stands for
    `t / sqrt(a * b)`; the only thing used about it is that it is symmetric in `a` and `b`.

    Partial: columns that are not in the order of their labels, with values missing in some row partitions and in others not
    (`C35_unsorted_columns_wrong`); repeated labels; rounding; infinities; `numeric_only`. -/
theorem C35_corr_partial [DecidableEq ι] [DecidableEq κ] (cfg : Cfg) (hr : 1 ≤ cfg.minRow) (le : κ → κ → Bool)
    (quotient : Rat → Rat → Rat → R) (hsym : ∀ t a b, quotient t a b = quotient t b a) (nan : R) (minPeriods : Nat)
    (m : LFrame ι κ (Option Rat)) (df : Frame ι κ (Option Rat)) (h : m.Shows df) (_hcols : 0 < df.ncols) (_hdist : df.columns.Nodup)
    (hcase : (∀ row ∈ df.rows, none ∉ row) ∨ (df.columns.Pairwise fun a b => le a b = true) ∨
      (∀ band ∈ bandRows m, ∃ row ∈ band, none ∈ row)) :
    ∃ m', m.corr cfg le quotient nan minPeriods = some m' ∧ m'.Shows (df.corr quotient nan minPeriods) ∧
      m'.toPandas nan = some (df.corr quotient nan minPeriods) ∧ m'.getIndex = df.columns ∧ m'.getColumns = df.columns := by
  have hord : (bandRows m).all (·.hasNans) = true ∨ (bandRows m).any (·.hasNans) = false ∨
      df.columns.Pairwise fun a b => le a b = true := by
    have hnan : ∀ b : Band, b.hasNans = true ↔ ∃ row ∈ b, none ∈ row := by
      intro b
      simp [Band.hasNans, List.any_eq_true]
    rcases hcase with e | e | e
    · right; left
      rw [List.any_eq_false]
      intro b hb hn
      obtain ⟨row, h1, h2⟩ := (hnan b).1 hn
      refine e row ?_ h2
      rw [← bandRows_flatten h]
      exact List.mem_flatten.mpr ⟨b, hb, h1⟩
    · exact Or.inr (Or.inr e)
    · left
      rw [List.all_eq_true]
      exact fun b hb => (hnan b).2 (e b hb)
  obtain ⟨m', e1, e2⟩ := corr_shows cfg hr le quotient hsym nan minPeriods h hord
  exact ⟨m', e1, e2, e2.observed nan⟩

/-- **C35, covariance.** `cov(min_periods=..., ddof=...)` gives the table pandas gives.  For every frame of exact numbers and
    missing values, with or without pending labels, every division into blocks, every `min_periods` that is not larger than the
    number of rows: if `ddof` is 1, or nothing is missing and there are more rows than `ddof`, the result is the table of the
    covariances of the columns over the rows where both have a value.

    Partial: `min_periods` larger than the number of rows (`C35_cov_loses_labels`); another `ddof` with missing values
    (`C35_cov_ddof_differs`); rounding; `numeric_only`. -/
theorem C35_cov_partial [DecidableEq ι] [DecidableEq κ] (cfg : Cfg) (hc : 1 ≤ cfg.minCol) (num : Nat → κ) (minPeriods : Option Nat)
    (ddof : Nat) (m : LFrame ι κ (Option Rat)) (df : Frame ι κ (Option Rat)) (h : m.Shows df)
    (hmin : ∀ p, minPeriods = some p → p ≤ df.nrows)
    (hddof : ddof = 1 ∨ ((∀ row ∈ df.rows, none ∉ row) ∧ ddof < df.nrows)) :
    ∃ m', m.cov cfg num minPeriods ddof = some m' ∧ m'.Shows (df.cov minPeriods ddof) ∧
      m'.toPandas none = some (df.cov minPeriods ddof) ∧ m'.getIndex = df.columns ∧ m'.getColumns = df.columns := by
  have hd : ddof = 1 ∨ df.rows.any (·.any (·.isNone)) = false := by
    refine hddof.imp_right fun e => ?_
    rw [List.any_eq_false]
    intro row hrow hn
    rw [List.any_eq_true] at hn
    obtain ⟨x, h1, h2⟩ := hn
    rw [Option.isNone_iff_eq_none.mp h2] at h1
    exact e.1 row hrow h1
  obtain ⟨m', e1, e2⟩ := nancorr_shows cfg hc num minPeriods ddof h (h.observed none).1 hd
  refine ⟨m', ?_, e2, e2.observed none⟩
  unfold LFrame.cov
  rw [if_neg, e1]
  rw [h.getIndex]
  cases hp : minPeriods with
  | none => simp
  | some p =>
    have := hmin p hp
    simp only [Option.any_some, decide_eq_true_eq]
    unfold Frame.nrows at this
    omega

/-! ### a concrete case, and what is missing -/

namespace CorrDemo

/-- instead of `t / sqrt(a * b)`: the pair of `t` and `a * b` -/
def quotient (t a b : Rat) : Option (Rat × Rat) := if a * b = 0 then none else some (t, a * b)

theorem quotient_symm (t a b : Rat) : quotient t a b = quotient t b a := by
  unfold quotient
  rw [Rat.mul_comm]

/-- three columns, one value missing -/
def df : Frame Int Nat (Option Rat) :=
  { index := [5, 6, 7, 8], columns := [1, 2, 3], rows := [[some 1, some 2, some 0], [some 3, none, some 1], [some 2, some 7, some 1], [some 4, some 1, some 5]] }

/-- the frame in two row and two column partitions, with row labels not yet written into the blocks -/
def m : LFrame Int Nat (Option Rat) :=
  { parts := ({ df with index := [0, 1, 2, 3] } : Frame Int Nat (Option Rat)).cut [2, 2] [1, 2], index := some df.index, columns := none,
    rowLens := none, colWidths := none, defIndex := true, defColumns := false }

theorem shows : m.Shows df :=
  ⟨⟨rfl, by decide⟩, ⟨{ df with index := [0, 1, 2, 3] }, [2, 2], [1, 2], ⟨rfl, by decide⟩, rfl, rfl,
    ⟨by decide, by decide, by decide, by decide⟩, rfl, Or.inl rfl, Or.inl rfl, by decide, fun _ => rfl⟩, Or.inr rfl, Or.inl ⟨rfl, rfl⟩⟩

/-- the hypotheses hold: the labels are in order, and one of the two row partitions has a missing value -/
example : ∃ m', m.corr ⟨4, 1, 1⟩ Nat.ble quotient none 1 = some m' ∧ m'.toPandas none = some (df.corr quotient none 1) := by
  obtain ⟨m', e1, _, e2, _⟩ := C35_corr_partial ⟨4, 1, 1⟩ (by decide) Nat.ble quotient quotient_symm none 1 m df shows (by decide)
    (by decide) (Or.inr (Or.inl (by decide)))
  exact ⟨m', e1, e2⟩

/-- the first and the second column have three values in common: 1, 2, 4 and 2, 7, 1 -/
example : ((df.corr quotient none 1).rows[0]?.bind (·[1]?)) = some (some ((-10/3 : Rat), (868/9 : Rat))) := by decide +kernel
example : ((df.corr quotient none 4).rows[0]?.bind (·[1]?)) = some none := by decide +kernel
example : (df.cov none 1).rows[0]? = some [some (5/3 : Rat), some (-5/3 : Rat), some (5/2 : Rat)] := by decide +kernel

example : ∃ m', m.cov ⟨4, 1, 1⟩ id (some 2) 1 = some m' ∧ m'.toPandas none = some (df.cov (some 2) 1) := by
  obtain ⟨m', e1, _, e2, _⟩ := C35_cov_partial ⟨4, 1, 1⟩ (by decide) id (some 2) 1 m df shows (by intro p hp; cases hp; decide)
    (Or.inl rfl)
  exact ⟨m', e1, e2⟩

/-- the same with columns 2 and 1 -/
def df2 : Frame Int Nat (Option Rat) :=
  { index := [0, 1, 2, 3], columns := [2, 1], rows := [[some 1, some 2], [some 3, some 9], [some 2, none], [some 4, some 1]] }

def m2 (rl : List Nat) : LFrame Int Nat (Option Rat) :=
  { parts := df2.cut rl [2], index := none, columns := none, rowLens := none, colWidths := none, defIndex := false, defColumns := false }

/-- **C35 fails for columns that are not in order.**  With a missing value in one row partition and none in the other, the sums
    of the other partition are added to the wrong columns and the table is not pandas' table; with one row partition it is. -/
theorem C35_unsorted_columns_wrong :
    (((m2 [2, 2]).corr ⟨4, 1, 1⟩ Nat.ble quotient none 1).bind (·.toPandas none)) ≠ some (df2.corr quotient none 1) ∧
    (((m2 [4]).corr ⟨4, 1, 1⟩ Nat.ble quotient none 1).bind (·.toPandas none)) = some (df2.corr quotient none 1) := by
  refine ⟨by decide +kernel, by decide +kernel⟩

/-- **C35 fails for `min_periods` larger than the number of rows.**  pandas gives a table of missing values with the column
    labels; Modin gives one with the labels 0 and 1. -/
theorem C35_cov_loses_labels :
    (df2.cov (some 5) 1) = ⟨[2, 1], [2, 1], [[none, none], [none, none]]⟩ ∧
    (((m2 [2, 2]).cov ⟨4, 1, 1⟩ id (some 5) 1).bind (·.toPandas none)) = some ⟨[0, 1], [0, 1], [[none, none], [none, none]]⟩ := by
  refine ⟨by decide +kernel, by decide +kernel⟩

/-- **C35 fails for `ddof=0` with missing values.**  pandas ignores `ddof` then and divides by one less than the number of
    values; Modin divides by the number of values. -/
theorem C35_cov_ddof_differs :
    (df2.cov none 0).rows[0]? = some [some (5/3 : Rat), some (1/2 : Rat)] ∧
    (((m2 [2, 2]).cov ⟨4, 1, 1⟩ id none 0).bind (·.toPandas none)).bind (·.rows[0]?) = some [some (5/4 : Rat), some (1/3 : Rat)] := by
  refine ⟨by decide +kernel, by decide +kernel⟩

end CorrDemo
