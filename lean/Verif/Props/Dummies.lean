import Verif.Lemmas.Dummies
/-
C79: `modin.pandas.get_dummies` puts the same indicator columns in the same order as pandas, however the frame is divided.
-/

variable {L α P : Type}

/-- The full claim, `pandas.get_dummies(df, columns=cols, prefix=pre)` for every `cols` and `pre`, fails
    (`C79_all_columns_in_frame_order`, `C79_missing_label_accepted`, `C79_missing_label_repeats_last`,
    `C79_prefix_list_refused`).  Proved: for every division of a frame with distinct column labels, every encoder, and every
    list of distinct labels that are there - if all columns are listed, in the frame's order - without a list of prefixes, the result
    is pandas'. -/
theorem C79_get_dummies_partial [DecidableEq L] (cfg : Cfg) (hp : 1 ≤ cfg.nPartitions) (hr : 1 ≤ cfg.minRow) (hc : 1 ≤ cfg.minCol)
    (nan : α) (known : Nat → Nat → Bool × Bool) (knownG : Grid L L α → Bool) (E : Encoder P L α) {m : LFrame L L α}
    {df : Frame L L α} (h : m.Shows df) (hn : df.columns.Nodup) {cols : List L} (hne : cols ≠ []) (hcn : cols.Nodup)
    (hsub : ∀ c ∈ cols, c ∈ df.columns) (hall : cols.length = df.columns.length → cols = df.columns) :
    ∃ r m', df.getDummies E none cols = some r ∧ m.getDummies cfg nan known knownG E none cols = some m' ∧
      m'.toPandas nan = some r := by
  have hne' : df.columns ≠ [] := by
    intro h0
    obtain ⟨c, t, rfl⟩ := List.exists_cons_of_ne_nil hne
    have := hsub c (by simp)
    rw [h0] at this
    cases this
  obtain ⟨r, m', h1, h2, h3⟩ := getDummies_shows cfg hp hr hc nan known knownG E h hn hne' hcn hsub hall
  exact ⟨r, m', h1, h2, (h3.observed nan).1⟩

/-- The same without a list of columns, for frames without date-like columns (`C79_dates_encoded`): the columns of text and
    categories are encoded. -/
theorem C79_default_columns_partial [DecidableEq L] (cfg : Cfg) (hp : 1 ≤ cfg.nPartitions) (hr : 1 ≤ cfg.minRow)
    (hc : 1 ≤ cfg.minCol) (nan : α) (known : Nat → Nat → Bool × Bool) (knownG : Grid L L α → Bool) (E : Encoder P L α)
    {m : LFrame L L α} {df : Frame L L α} (h : m.Shows df) (hn : df.columns.Nodup) (hne : df.columns ≠ [])
    {kinds : List DummyKind} (hk : kinds.length = df.columns.length) (hd : DummyKind.date ∉ kinds) :
    ∃ r m', df.getDummiesDefault E none kinds = some r ∧ m.getDummiesDefault cfg nan known knownG E none kinds = some m' ∧
      m'.toPandas nan = some r := by
  obtain ⟨r, m', h1, h2, h3⟩ := getDummiesDefault_shows cfg hp hr hc nan known knownG E h hn hne hk hd
  exact ⟨r, m', h1, h2, (h3.observed nan).1⟩

namespace DummyDemo

/-- levels in order of appearance, labels `prefix * 100 + level` -/
def enc : Encoder Int Int Int := ⟨firsts, fun p c v => p.getD c * 100 + v, fun v x => if x = v then 1 else 0⟩

/-- columns 1, 2, 3 in two block rows and two block columns -/
def df : Frame Int Int Int := ⟨[10, 11, 12], [1, 2, 3], [[5, 7, 0], [6, 7, 1], [5, 8, 2]]⟩
def m : LFrame Int Int Int := ⟨⟨df.cut [2, 1] [1, 2], none, none, none, none⟩, false, false⟩
def cfg : Cfg := ⟨2, 1, 1⟩
def known : Nat → Nat → Bool × Bool := fun _ _ => (true, true)

theorem m_shows : m.Shows df :=
  represents_shows (m := ⟨df.cut [2, 1] [1, 2], none, none, none, none⟩) ⟨by constructor <;> decide,
    ⟨[2, 1], [1, 2], by constructor <;> decide, rfl, Or.inl rfl, Or.inl rfl⟩, Or.inl rfl, Or.inl rfl⟩

-- two of three columns, in another order than the frame's: the hypotheses hold, and the result is not trivial
example : df.columns.Nodup ∧ [3, 1] ≠ [] ∧ [3, 1].Nodup ∧ (∀ c ∈ [3, 1], c ∈ df.columns) ∧
    ([(3 : Int), 1].length = df.columns.length → [3, 1] = df.columns) ∧
    df.getDummies enc none [3, 1] = some ⟨[10, 11, 12], [2, 300, 301, 302, 105, 106],
      [[7, 1, 0, 0, 1, 0], [7, 0, 1, 0, 0, 1], [8, 0, 0, 1, 1, 0]]⟩ := by decide

example : ∃ r m', df.getDummies enc none [3, 1] = some r ∧ m.getDummies cfg 0 known (fun _ => true) enc none [3, 1] = some m' ∧
    m'.toPandas 0 = some r :=
  C79_get_dummies_partial cfg (by decide) (by decide) (by decide) 0 known _ enc m_shows (by decide) (by decide) (by decide)
    (by decide) (by decide)

-- without a list of columns: column 1 is text, the others are numbers
example : ∃ r m', df.getDummiesDefault enc none [.text, .number, .number] = some r ∧
    m.getDummiesDefault cfg 0 known (fun _ => true) enc none [.text, .number, .number] = some m' ∧ m'.toPandas 0 = some r :=
  C79_default_columns_partial cfg (by decide) (by decide) (by decide) 0 known _ enc m_shows (by decide) (by decide)
    (by decide) (by decide)

example : df.getDummiesDefault enc none [.text, .number, .number] = some ⟨[10, 11, 12], [2, 3, 105, 106],
    [[7, 0, 1, 0], [7, 1, 0, 1], [8, 2, 1, 0]]⟩ := by decide

def run (pre : Option (List Int)) (cols : List Int) : Option (Frame Int Int Int) :=
  (m.getDummies cfg 0 known (fun _ => true) enc pre cols).bind (·.toPandas 0)

/-- All columns listed in another order: modin puts the new columns in the order of the frame, pandas in the order listed. -/
theorem C79_all_columns_in_frame_order :
    (run none [3, 2, 1]).map (·.columns) = some [105, 106, 207, 208, 300, 301, 302] ∧
    (df.getDummies enc none [3, 2, 1]).map (·.columns) = some [300, 301, 302, 207, 208, 105, 106] := by decide +kernel

/-- As many labels as columns, one of which is not there: no exception, pandas raises `KeyError`. -/
theorem C79_missing_label_accepted :
    (run none [1, 2, 9]).map (·.columns) = some [105, 106, 3, 207, 208] ∧ df.getDummies enc none [1, 2, 9] = none := by
  decide +kernel

/-- A single label that is not there: no exception, and the last column appears twice. -/
theorem C79_missing_label_repeats_last :
    run none [9] = some ⟨[10, 11, 12], [1, 2, 3, 3], [[5, 7, 0, 0], [6, 7, 1, 1], [5, 8, 2, 2]]⟩ ∧
    df.getDummies enc none [9] = none := by decide +kernel

/-- One prefix for each listed column: pandas takes them in turn, modin refuses them as soon as the listed columns are in several
    blocks, although it takes them if the frame is one block. -/
theorem C79_prefix_list_refused :
    run (some [7, 8]) [1, 3] = none ∧
    (df.getDummies enc (some [7, 8]) [1, 3]).map (·.columns) = some [2, 705, 706, 800, 801, 802] ∧
    ((LFrame.getDummies cfg 0 known (fun _ => true) enc (some [7, 8]) [1, 3]
      (⟨⟨df.cut [3] [3], none, none, none, none⟩, false, false⟩ : LFrame Int Int Int)).bind (·.toPandas 0)).map (·.columns) =
      some [2, 705, 706, 800, 801, 802] := by decide +kernel

/-- Without a list of columns: modin also encodes dates. -/
theorem C79_dates_encoded :
    ((m.getDummiesDefault cfg 0 known (fun _ => true) enc none [.date, .number, .number]).bind (·.toPandas 0)).map (·.columns) =
      some [2, 3, 105, 106] ∧
    (df.getDummiesDefault enc none [.date, .number, .number]).map (·.columns) = some [1, 2, 3] := by decide +kernel

/-- Two columns of numbers with the same label are taken for columns that are not numbers. -/
theorem C79_repeated_label_encoded :
    dummyColumns [.number, .number, .number] [(1 : Int), 2, 1] = [1, 1] ∧
    ({ df with columns := [1, 2, 1] } : Frame Int Int Int).getDummiesDefault enc none [.number, .number, .number] =
      some { df with columns := [1, 2, 1] } := by decide

/-- `dtype=int`: the dtype reported for the new columns is `bool` all the same. -/
theorem C79_asked_dtype_not_reported :
    dummyDtypes "bool" (some "int64") ["float64"] 2 ≠ ["float64"] ++ List.replicate 2 ((some "int64").getD "bool") := by decide

end DummyDemo
