import Verif.Lemmas.LocAssign
/-
C55: `df.iloc[r, c] = item` and `df.loc[r, c] = item`.
-/

variable {L α : Type} [DecidableEq L]

/-- What is asked of an assignment to the rows `rs` and columns `cs` of `df`; each field is needed, see the witnesses below. -/
structure PlainAssignment (df : Frame L L α) (rs cs : List Nat) (item : Item α) : Prop where
  /-- the item has the shape of the selection -/
  shape : item.Matches rs.length cs.length
  /-- if as many rows are addressed as there are, they are all the rows, in order; so with columns -/
  rows_order : rs.length = df.nrows → rs = List.range df.nrows
  cols_order : cs.length = df.ncols → cs = List.range df.ncols
  /-- on a frame of one cell it is the cell that is addressed -/
  cell : df.nrows = 1 → df.ncols = 1 → rs = [0] ∧ cs = [0]
  /-- a column assigned as a whole does not share its label, nor does a row -/
  col_label : ∀ q x, 1 < df.nrows → rs.length = df.nrows → cs = [q] → df.columns[q]? = some x → df.columns.count x = 1
  row_label : ∀ p x, 1 < df.ncols → cs.length = df.ncols → rs = [p] → df.index[p]? = some x → df.index.count x = 1
  /-- an array of one dimension is written to one column, or to a row as a whole -/
  line : ∀ xs, item = .arr1 xs → cs.length = 1 ∨ cs.length = df.ncols

/-- **C55, `iloc`.** `df.iloc[r, c] = item` is pandas' assignment: the cells in the addressed rows and columns get the item's
    values, a scalar everywhere or the matching entry of an array, the last one written where a position is repeated, and every
    other cell and all labels stay.  For every frame with rows and columns, every division of it into blocks, known or unknown
    labels and lengths, pending labels or not, and keys that are an integer, a list of integers (negative from the end), a
    boolean list or a slice.  It does not matter which of the three ways the code takes: a whole column, a whole row, or both
    axes.

    Partial: the conditions of `PlainAssignment`; slices must not run backwards (`C55_backward_slice_writes`) and for arrays
    start at the first position (`C10_range_with_uneven_blocks_wrong`). -/
theorem C55_iloc_set_partial (cfg : Cfg) (hp : 1 ≤ cfg.nPartitions) (hmr : 1 ≤ cfg.minRow) (hmc : 1 ≤ cfg.minCol) (nan : α)
    (known : Nat → Nat → Bool × Bool) (knownG : Grid L L α → Bool) (unnamed : L) (m : LFrame L L α) (df : Frame L L α)
    (h : m.Shows df) (hr : 0 < df.nrows) (hc : 0 < df.ncols) (r c : IKey) (rs cs : List Nat)
    (hrs : r.addressed df.nrows = some rs) (hcs : c.addressed df.ncols = some cs) (item : Item α)
    (hplain : PlainAssignment df rs cs item) (hfr : r.Forward df.nrows) (hfc : c.Forward df.ncols)
    (hstart : (∃ v, item = .scalar v) ∨ r.FromStart df.nrows ∧ c.FromStart df.ncols) :
    ∃ m', m.ilocSet cfg nan known knownG unnamed r c item = some m' ∧
      m'.Shows (df.assign rs cs (item.at cs.length)) ∧ m'.toPandas nan = some (df.assign rs cs (item.at cs.length)) := by
  obtain ⟨rows, l1, rfl, v1, s1⟩ := IKey.lookup_spec hrs hfr
  obtain ⟨cols, l2, rfl, v2, s2⟩ := IKey.lookup_spec hcs hfc
  obtain ⟨m', e1, e2⟩ := setPositional_shows cfg hp hmr hmc nan known knownG unnamed h hr hc r.isScalar c.isScalar v1 v2 hplain.shape
    ⟨hplain.rows_order, hplain.cols_order⟩ hplain.cell hplain.col_label hplain.row_label hplain.line
    (hstart.imp_right fun hs => ⟨s1 hs.1, s2 hs.2⟩)
  refine ⟨m', ?_, e2, (e2.observed nan).1⟩
  unfold LFrame.ilocSet
  rw [h.getIndex, h.getColumns, show df.index.length = df.nrows from rfl, show df.columns.length = df.ncols from rfl, l1, Option.bind_some, l2, Option.bind_some]
  exact e1

/-- **C55, `loc`.** `df.loc[r, c] = item` for labels that exist: the same with keys that are a label (all its occurrences), a list
    of labels, a boolean list or `:`.

    Partial: the conditions of `PlainAssignment`; with a boolean list of rows the item must be a scalar
    (`C55_mask_array_raises`).  Labels that do not exist enlarge the frame, which is not covered here. -/
theorem C55_loc_set_partial (cfg : Cfg) (hp : 1 ≤ cfg.nPartitions) (hmr : 1 ≤ cfg.minRow) (hmc : 1 ≤ cfg.minCol) (nan : α)
    (known : Nat → Nat → Bool × Bool) (knownG : Grid L L α → Bool) (unnamed : L) (m : LFrame L L α) (df : Frame L L α)
    (h : m.Shows df) (hr : 0 < df.nrows) (hc : 0 < df.ncols) (r c : LKey L) (rs cs : List Nat)
    (hrs : r.addressed df.index = some rs) (hcs : c.addressed df.columns = some cs) (item : Item α)
    (hplain : PlainAssignment df rs cs item) (hmask : ∀ bs, r = .mask bs → ∃ v, item = .scalar v) :
    ∃ m', m.locSet cfg nan known knownG unnamed r c item = some m' ∧
      m'.Shows (df.assign rs cs (item.at cs.length)) ∧ m'.toPandas nan = some (df.assign rs cs (item.at cs.length)) := by
  obtain ⟨rows, l1, rfl, v1, s1⟩ := LKey.lookup_spec hrs
  obtain ⟨cols, l2, rfl, v2, s2⟩ := LKey.lookup_spec hcs
  obtain ⟨m', e1, e2⟩ := setPositional_shows cfg hp hmr hmc nan known knownG unnamed h hr hc r.isScalar c.isScalar v1 v2 hplain.shape
    ⟨hplain.rows_order, hplain.cols_order⟩ hplain.cell hplain.col_label hplain.row_label hplain.line (Or.inr ⟨s1, s2⟩)
  refine ⟨m', ?_, e2, (e2.observed nan).1⟩
  unfold LFrame.locSet
  rw [h.getIndex, h.getColumns, l1, Option.bind_some, l2, Option.bind_some]
  cases r with
  | mask bs =>
    obtain ⟨v, rfl⟩ := hmask bs rfl
    exact e1
  | label x => exact e1
  | list xs => exact e1
  | all => exact e1

/-- **C10, scalars.** Assigning a scalar at positions along both axes is pandas' assignment, for every division into blocks and
    whatever lengths are known: the condition on ranges in `C10_assign_partial` is only needed for arrays. -/
theorem C10_assign_scalar {ι κ : Type} [DecidableEq ι] [DecidableEq κ] (m : MFrame ι κ α) (df : Frame ι κ α) (h : m.Represents df)
    (rows cols : Positions) (hr : rows.Valid df.nrows) (hc : cols.Valid df.ncols) (a : α) :
    ∃ m', writeItems m rows cols (.scalar a) = some m' ∧ m'.Represents (df.assign rows.toList cols.toList fun _ _ => some a) :=
  writeScalar_spec h hr hc a

/-! ### demonstrations -/

namespace LocAssignDemo

/-- a frame of 3 rows and 3 columns -/
def df : Frame Int Int Int := { index := [7, 5, 9], columns := [1, 2, 3], rows := [[10, 20, 30], [11, 21, 31], [12, 22, 32]] }

/-- held in 4 blocks, nothing cached -/
def m : LFrame Int Int Int := ⟨⟨df.cut [2, 1] [2, 1], none, none, none, none⟩, false, false⟩

theorem m_shows : m.Shows df :=
  represents_shows (m := ⟨df.cut [2, 1] [2, 1], none, none, none, none⟩) ⟨by constructor <;> decide, ⟨[2, 1], [2, 1],
    by constructor <;> decide, rfl, Or.inl rfl, Or.inl rfl⟩, Or.inl rfl, Or.inl rfl⟩

def cfg : Cfg := ⟨4, 1, 1⟩
def no : Nat → Nat → Bool × Bool := fun _ _ => (false, false)
def noG : Grid Int Int Int → Bool := fun _ => false

/-- the cells after `m.iloc[r, c] = item` and `m.loc[r, c] = item` -/
def iset (m : LFrame Int Int Int) (r c : IKey) (item : Item Int) : Option (List (List Int)) :=
  ((m.ilocSet cfg 0 no noG 99 r c item).bind (·.toPandas 0)).map (·.rows)
def lset (m : LFrame Int Int Int) (r c : LKey Int) (item : Item Int) : Option (List (List Int)) :=
  ((m.locSet cfg 0 no noG 99 r c item).bind (·.toPandas 0)).map (·.rows)

-- `df.iloc[[2, -3], 0:2] = np.array([[1, 2], [3, 4]])`: across blocks, out of order, from the end
example : ∃ m', m.ilocSet cfg 0 no noG 99 (.list [2, -3]) (.slice none (some 2)) (.arr2 [[1, 2], [3, 4]]) = some m' ∧
    m'.toPandas 0 = some { df with rows := [[3, 4, 30], [11, 21, 31], [1, 2, 32]] } := by
  obtain ⟨m', e1, _, e3⟩ := C55_iloc_set_partial cfg (by decide) (by decide) (by decide) 0 no noG 99 m df m_shows (by decide) (by decide)
    (.list [2, -3]) (.slice none (some 2)) [2, 0] [0, 1] (by decide) (by decide) (.arr2 [[1, 2], [3, 4]])
    ⟨⟨rfl, by decide⟩, by decide, by decide, by decide, by intro _ _ _ h; exact absurd h (by decide),
      by intro _ _ _ h; exact absurd h (by decide), by intro _ h; cases h⟩ (by decide) (by decide) (Or.inr (by decide))
  exact ⟨m', e1, by rw [e3]; decide +kernel⟩

-- `df.iloc[:, 1] = np.array([1, 2, 3])`: a whole column
example : ∃ m', m.ilocSet cfg 0 no noG 99 (.slice none none) (.int 1) (.arr1 [1, 2, 3]) = some m' ∧
    m'.toPandas 0 = some { df with rows := [[10, 1, 30], [11, 2, 31], [12, 3, 32]] } := by
  obtain ⟨m', e1, _, e3⟩ := C55_iloc_set_partial cfg (by decide) (by decide) (by decide) 0 no noG 99 m df m_shows (by decide) (by decide)
    (.slice none none) (.int 1) [0, 1, 2] [1] (by decide) (by decide) (.arr1 [1, 2, 3])
    ⟨Or.inl ⟨rfl, rfl⟩, by decide, by decide, by decide,
      by intro q x _ _ hq hx; cases hq; cases hx; decide, by intro _ _ _ h; exact absurd h (by decide), by intro _ _; exact Or.inl rfl⟩
    (by decide) (by decide) (Or.inr (by decide))
  exact ⟨m', e1, by rw [e3]; decide +kernel⟩

-- `df.loc[5, :] = np.array([1, 2, 3])`: a whole row
example : ∃ m', m.locSet cfg 0 no noG 99 (.label 5) .all (.arr1 [1, 2, 3]) = some m' ∧
    m'.toPandas 0 = some { df with rows := [[10, 20, 30], [1, 2, 3], [12, 22, 32]] } := by
  obtain ⟨m', e1, _, e3⟩ := C55_loc_set_partial cfg (by decide) (by decide) (by decide) 0 no noG 99 m df m_shows (by decide) (by decide)
    (.label 5) .all [1] [0, 1, 2] (by decide) (by decide) (.arr1 [1, 2, 3])
    ⟨Or.inr ⟨rfl, rfl⟩, by decide, by decide, by decide, by intro _ _ _ h; exact absurd h (by decide),
      by intro p x _ _ hq hx; cases hq; cases hx; decide, by intro _ _; exact Or.inr rfl⟩ (by intro _ h; cases h)
  exact ⟨m', e1, by rw [e3]; decide +kernel⟩

-- `df.loc[[True, False, True], [3, 1]] = 0`
example : ∃ m', m.locSet cfg 0 no noG 99 (.mask [true, false, true]) (.list [3, 1]) (.scalar 0) = some m' ∧
    m'.toPandas 0 = some { df with rows := [[0, 20, 0], [11, 21, 31], [0, 22, 0]] } := by
  obtain ⟨m', e1, _, e3⟩ := C55_loc_set_partial cfg (by decide) (by decide) (by decide) 0 no noG 99 m df m_shows (by decide) (by decide)
    (.mask [true, false, true]) (.list [3, 1]) [0, 2] [2, 0] (by decide) (by decide) (.scalar 0)
    ⟨trivial, by decide, by decide, by decide, by intro _ _ _ h; exact absurd h (by decide),
      by intro _ _ _ h; exact absurd h (by decide), by intro _ h; cases h⟩ (fun _ _ => ⟨0, rfl⟩)
  exact ⟨m', e1, by rw [e3]; decide +kernel⟩

-- scalars through a range whose first block is not the first of the frame, with recorded lengths
example : ∃ m', writeItems (⟨df.cut [2, 1] [2, 1], none, none, some [2, 1], some [2, 1]⟩ : MFrame Int Int Int) (.range 2 3) (.range 1 3)
    (.scalar 5) = some m' ∧ m'.Represents { df with rows := [[10, 20, 30], [11, 21, 31], [12, 5, 5]] } :=
  C10_assign_scalar _ df ⟨by constructor <;> decide, ⟨[2, 1], [2, 1], by constructor <;> decide, rfl, Or.inr rfl, Or.inr rfl⟩, Or.inl rfl,
    Or.inl rfl⟩ (.range 2 3) (.range 1 3) (by simp [Positions.Valid, df, Frame.nrows]) (by simp [Positions.Valid, df, Frame.ncols]) 5

/-! ### what fails -/

/-- **C55, violated.** `df.iloc[[2, 1, 0], 0] = np.array([70, 80, 90])`: all rows in another order are taken for the whole column,
    so row 0 gets 70 and not 90. -/
theorem C55_row_order_ignored :
    IKey.addressed df.nrows (.list [2, 1, 0]) = some [2, 1, 0] ∧
    iset m (.list [2, 1, 0]) (.int 0) (.arr1 [70, 80, 90]) = some [[70, 20, 30], [80, 21, 31], [90, 22, 32]] ∧
    (df.assign [2, 1, 0] [0] (Item.at 1 (.arr1 [70, 80, 90]))).rows = [[90, 20, 30], [80, 21, 31], [70, 22, 32]] := by decide +kernel

/-- **C55, violated.** `df.iloc[0, [2, 1, 0]] = np.array([70, 80, 90])`: the same with columns. -/
theorem C55_column_order_ignored :
    iset m (.int 0) (.list [2, 1, 0]) (.arr1 [70, 80, 90]) = some [[70, 80, 90], [11, 21, 31], [12, 22, 32]] ∧
    (df.assign [0] [2, 1, 0] (Item.at 3 (.arr1 [70, 80, 90]))).rows = [[90, 80, 70], [11, 21, 31], [12, 22, 32]] := by decide +kernel

/-- **C55, violated.** `df.iloc[[0, 0, 0], 0] = 5` writes the whole column: only the number of positions is compared. -/
theorem C55_repeated_row_sets_column :
    IKey.addressed df.nrows (.list [0, 0, 0]) = some [0, 0, 0] ∧
    iset m (.list [0, 0, 0]) (.int 0) (.scalar 5) = some [[5, 20, 30], [5, 21, 31], [5, 22, 32]] ∧
    (df.assign [0, 0, 0] [0] (Item.at 1 (.scalar 5))).rows = [[5, 20, 30], [11, 21, 31], [12, 22, 32]] := by decide +kernel

/-- **C55, violated.** `df.iloc[[7, 8, 9], 0] = 5` on three rows writes the whole column; pandas raises `IndexError`. -/
theorem C55_out_of_bounds_sets_column :
    IKey.addressed df.nrows (.list [7, 8, 9]) = none ∧
    iset m (.list [7, 8, 9]) (.int 0) (.scalar 5) = some [[5, 20, 30], [5, 21, 31], [5, 22, 32]] := by decide +kernel

/-- **C55, violated.** `df.iloc[0, [0, 1]] = np.array([70, 80])`: the array is reordered along the rows, which keeps only its first
    value, and that one is written to both cells. -/
theorem C55_part_of_row_wrong :
    iset m (.int 0) (.list [0, 1]) (.arr1 [70, 80]) = some [[70, 70, 30], [11, 21, 31], [12, 22, 32]] ∧
    (df.assign [0] [0, 1] (Item.at 2 (.arr1 [70, 80]))).rows = [[70, 80, 30], [11, 21, 31], [12, 22, 32]] := by decide +kernel

/-- **C55, violated.** `df.iloc[2:1, 0] = 5` addresses nothing, and writes two rows. -/
theorem C55_backward_slice_writes :
    IKey.addressed df.nrows (.slice (some 2) (some 1)) = some [] ∧
    iset m (.slice (some 2) (some 1)) (.int 0) (.scalar 5) = some [[5, 20, 30], [11, 21, 31], [5, 22, 32]] := by decide +kernel

/-- **C55, violated.** `df.iloc[:, 0] = np.array([1, 2, 3, 4])` on three rows drops the 4; pandas raises `ValueError`. -/
theorem C55_long_array_truncated :
    iset m (.slice none none) (.int 0) (.arr1 [1, 2, 3, 4]) = some [[1, 20, 30], [2, 21, 31], [3, 22, 32]] := by decide +kernel

/-- **C55, violated.** A boolean list that is too short is accepted; pandas raises `IndexError`. -/
theorem C55_mask_length_unchecked :
    IKey.addressed df.nrows (.mask [true, true]) = none ∧
    iset m (.mask [true, true]) (.int 0) (.scalar 5) = some [[5, 20, 30], [5, 21, 31], [12, 22, 32]] := by decide +kernel

/-- **C55, violated.** `df.loc[[True, False, True], 1] = np.array([70, 80])` raises: the array is indexed with the positions of
    the marked rows. -/
theorem C55_mask_array_raises :
    LKey.addressed df.index (.mask [true, false, true]) = some [0, 2] ∧
    lset m (.mask [true, false, true]) (.label 1) (.arr1 [70, 80]) = none ∧
    (df.assign [0, 2] [0] (Item.at 1 (.arr1 [70, 80]))).rows = [[70, 20, 30], [11, 21, 31], [80, 22, 32]] := by decide +kernel

/-- two rows and two columns with the same labels -/
def twice : Frame Int Int Int := { index := [7, 7], columns := [1, 1], rows := [[10, 20], [11, 21]] }
def mtwice : LFrame Int Int Int := ⟨⟨twice.cut [1, 1] [1, 1], none, none, none, none⟩, false, false⟩

/-- **C55, violated.** `df.iloc[0] = 5` writes every row with the label of row 0, and `df.iloc[:, 0] = 5` every column with the label
    of column 0. -/
theorem C55_repeated_label_sets_all :
    iset mtwice (.int 0) (.slice none none) (.scalar 5) = some [[5, 5], [5, 5]] ∧
    (twice.assign [0] [0, 1] (Item.at 2 (.scalar 5))).rows = [[5, 5], [11, 21]] ∧
    iset mtwice (.slice none none) (.int 0) (.scalar 5) = some [[5, 5], [5, 5]] ∧
    (twice.assign [0, 1] [0] (Item.at 1 (.scalar 5))).rows = [[5, 20], [5, 21]] := by decide +kernel

/-- one cell -/
def cell : Frame Int Int Int := { index := [7], columns := [1], rows := [[10]] }
def mcell : LFrame Int Int Int := ⟨⟨cell.cut [1] [1], none, none, none, none⟩, false, false⟩

/-- **C55, violated.** On a frame of one cell `df.iloc[0, []] = 5` addresses nothing and writes the cell. -/
theorem C55_nothing_writes_cell :
    iset mcell (.int 0) (.list []) (.scalar 5) = some [[5]] ∧ (cell.assign [0] [] (Item.at 0 (.scalar 5))).rows = [[10]] := by
  decide +kernel

end LocAssignDemo
