import Verif.Lemmas.LocGet
/-
C73: reading with `df.iloc[r, c]`, `df.loc[r, c]` and `df[key]`.
-/

variable {L α : Type}

/-- **C73**, by position.  `df.iloc[r, c]` with integers, lists of integers (negative ones included), lists of booleans and slices, on
    every partitioning: the cells, the labels and the kind of the result are pandas': a value for two integers, a Series named by the
    row (with the columns as labels) for an integer as row, a Series named by the column for an integer as column, and a frame
    otherwise.  `df.ilocAt` is pandas' result; it is there because both keys are inside the frame (`hr`, `hc`).

    Partial: a slice must not be empty and positions must not repeat when block sizes are cached (as in C08). -/
theorem C73_iloc_partial [DecidableEq L] (cfg : Cfg) (hp : 1 ≤ cfg.nPartitions) (hmr : 1 ≤ cfg.minRow) (hmc : 1 ≤ cfg.minCol)
    (known : Nat → Nat → Bool × Bool) (nan : α) (unnamed : L) (m : LFrame L L α) (df : Frame L L α) (h : m.Shows df) (r c : IKey) (p q : Pick)
    (hr : r.picked df.nrows = some p) (hc : c.picked df.ncols = some q) (hrs : r.isSlice = true → p.list ≠ [])
    (hcs : c.isSlice = true → q.list ≠ [])
    (hd : (∀ i j, known i j = (false, false)) ∨ (p.list.Nodup ∧ q.list.Nodup)) :
    ∃ s, df.ilocAt r c = some s ∧ (m.ilocAt cfg known nan unnamed r c).bind (Located.observe nan) = some s := by
  obtain ⟨o, s, e1, e2, e3⟩ := ilocAt_spec cfg hp hmr hmc known nan unnamed h hr hc hrs hcs hd
  exact ⟨s, e2, by rw [e1, Option.bind_some, e3.observe nan]⟩

/-- **C73**, by label.  `df.loc[r, c]` with labels, lists of labels, lists of booleans, `:` and slices of labels.  A label that is there
    once takes its axis away; a label that is there several times keeps all its rows (columns), so that `df.loc[x, y]` may be a value,
    a Series or a frame, as in pandas.  Slices are resolved by pandas' own `slice_indexer` (`P.slicer`).

    Partial: `LocKey.Proper` excludes slices with a step over labels that are numbers (`C73_slice_step`), slices that are empty or
    inverted (`C73_inverted_slice`), `range` objects (`C73_range_step`, `C73_range_missing`) and `RangeIndex` objects
    (`C73_range_index`), for which see `C73_default_labels_partial`. -/
theorem C73_loc_partial [DecidableEq L] (P : LabelOps L) (minus : L → Nat → L) (cfg : Cfg) (hp : 1 ≤ cfg.nPartitions)
    (hmr : 1 ≤ cfg.minRow) (hmc : 1 ≤ cfg.minCol) (known : Nat → Nat → Bool × Bool) (nan : α) (unnamed : L) (m : LFrame L L α)
    (df : Frame L L α) (h : m.Shows df) (r c : LocKey L) (p q : Pick) (hr : r.picked P df.index = some p)
    (hc : c.picked P df.columns = some q) (hrs : r.Proper P minus df.index) (hcs : c.Proper P minus df.columns)
    (hd : (∀ i j, known i j = (false, false)) ∨ (p.list.Nodup ∧ q.list.Nodup)) :
    ∃ s, df.locAt P r c = some s ∧ (m.locAt P minus cfg known nan unnamed r c).bind (Located.observe nan) = some s := by
  obtain ⟨o, s, e1, e2, e3⟩ := locAt_spec P minus cfg hp hmr hmc known nan unnamed h hr hc hrs hcs hd
  exact ⟨s, e2, by rw [e1, Option.bind_some, e3.observe nan]⟩

/-- **C73**, labels that are not there: `df.loc` raises when a row or a column is asked for by a label that the axis does not have, as
    pandas does; it never returns some other row. -/
theorem C73_missing_label [DecidableEq L] (P : LabelOps L) (minus : L → Nat → L) (cfg : Cfg) (known : Nat → Nat → Bool × Bool) (nan : α)
    (unnamed : L) (m : LFrame L L α) (df : Frame L L α) (h : m.Shows df) (r c : LocKey L)
    (hbad : (∃ x ∈ r.named, x ∉ df.index) ∨ (∃ x ∈ c.named, x ∉ df.columns)) :
    m.locAt P minus cfg known nan unnamed r c = none ∧ df.locAt P r c = none := by
  unfold LFrame.locAt Frame.locAt
  rw [h.getIndex, h.getColumns]
  rcases hbad with hbad | hbad
  · rw [LocKey.readLookup_missing P minus hbad, LocKey.picked_missing P hbad]
    exact ⟨rfl, rfl⟩
  · rw [LocKey.readLookup_missing P minus hbad, LocKey.picked_missing P hbad]
    constructor
    · cases r.readLookup P minus df.index <;> rfl
    · cases r.picked P df.index <;> rfl

/-- **C73**, `df[key]`: a column is a Series (a frame of all columns of that name, if there are several), a list of columns is a frame,
    and a slice selects rows by position.  Partial: the listed columns are distinct and the slice is not empty. -/
theorem C73_getitem_partial [DecidableEq L] (P : LabelOps L) (cfg : Cfg) (hp : 1 ≤ cfg.nPartitions) (hmr : 1 ≤ cfg.minRow)
    (hmc : 1 ≤ cfg.minCol) (known : Nat → Nat → Bool × Bool) (nan : α) (unnamed : L) (m : LFrame L L α) (df : Frame L L α) (h : m.Shows df)
    (key : ItemKey L) (s : Selected L α) (hs : df.itemAt P key = some s) (hd : ∀ xs, key = .columns xs → xs.Nodup)
    (hsl : ∀ a b, key = .rows a b → ∀ ps, (IKey.slice a b).addressed df.nrows = some ps → ps ≠ []) (hnc : 0 < df.ncols) :
    (m.itemAt cfg known nan unnamed key).bind (Located.observe nan) = some s := by
  obtain ⟨o, e1, e2⟩ := itemAt_spec P cfg hp hmr hmc known nan unnamed h hs hd hsl hnc
  rw [e1, Option.bind_some, e2.observe nan]

/-- **C73**, `df[key]` raises for a column that is not there. -/
theorem C73_getitem_missing [DecidableEq L] (cfg : Cfg) (known : Nat → Nat → Bool × Bool) (nan : α) (unnamed : L) (m : LFrame L L α)
    (df : Frame L L α) (h : m.Shows df) (x : L) (hx : x ∉ df.columns) (xs : List L) (hxs : x ∈ xs) :
    m.itemAt cfg known nan unnamed (.column x) = none ∧ m.itemAt cfg known nan unnamed (.columns xs) = none := by
  constructor
  · simp only [LFrame.itemAt]
    rw [h.getColumns, if_neg hx]
  · simp only [LFrame.itemAt]
    rw [h.getColumns, if_neg]
    intro hall
    rw [List.all_eq_true] at hall
    exact hx (by simpa using hall x hxs)

/-- **C73**, ranges of labels on rows with the default labels `0, 1, ...`: `df.loc[pandas.RangeIndex(a, b, s)]` and
    `df.loc[range(a, b)]` give the rows with these labels.  Partial: see `C73_range_index`, `C73_range_step` for other labels and
    steps. -/
theorem C73_default_labels_partial (cfg : Cfg) (hp : 1 ≤ cfg.nPartitions) (hmr : 1 ≤ cfg.minRow) (hmc : 1 ≤ cfg.minCol)
    (known : Nat → Nat → Bool × Bool) (nan : α) (unnamed : Int) (m : LFrame Int Int α) (df : Frame Int Int α) (h : m.Shows df)
    (hlab : df.index = (List.range df.nrows).map fun (i : Nat) => (i : Int)) (a b s : Nat) (hab : a < b) (hb : b ≤ df.nrows) (hs : 1 ≤ s)
    (r : LocKey Int) (hr : r = .rangeIndex a b s ∨ (s = 1 ∧ r = .range a b s)) :
    ∃ t, df.locAt intOps r (.key .all) = some t ∧
      (m.locAt intOps (fun x s => x - s) cfg known nan unnamed r (.key .all)).bind (Located.observe nan) = some t := by
  obtain ⟨o, t, e1, e2, e3⟩ := locAt_default cfg hp hmr hmc known nan unnamed h hlab hab hb hs hr
  exact ⟨t, e2, by rw [e1, Option.bind_some, e3.observe nan]⟩

/-- **C73**, a `pandas.Index` as key of `df.loc`: the rows with its labels, each of which is there once.  Partial: see
    `C73_index_key` for labels that are there several times. -/
theorem C73_index_key_partial [DecidableEq L] (P : LabelOps L) (minus : L → Nat → L) (cfg : Cfg) (hp : 1 ≤ cfg.nPartitions)
    (hmr : 1 ≤ cfg.minRow) (hmc : 1 ≤ cfg.minCol) (known : Nat → Nat → Bool × Bool) (nan : α) (unnamed : L) (m : LFrame L L α)
    (df : Frame L L α) (h : m.Shows df) (key : List L) (hin : ∀ x ∈ key, df.index.count x = 1)
    (hd : key.Nodup ∨ ∀ i j, known i j = (false, false)) :
    ∃ s, df.locAt P (.key (.list key)) (.key .all) = some s ∧
      (m.locIndex P minus cfg known nan unnamed key).bind (Located.observe nan) = some s := by
  obtain ⟨o, s, e1, e2, e3⟩ := locIndex_spec P minus cfg hp hmr hmc known nan unnamed h hin hd
  exact ⟨s, e2, by rw [e1, Option.bind_some, e3.observe nan]⟩

/-! ### a frame -/

/-- five rows and three columns with the given labels, in blocks of 3 + 2 rows and 2 + 1 columns -/
def lgFrame (index columns : List Int) : Frame Int Int Nat :=
  { index := index, columns := columns, rows := [[0, 1, 2], [10, 11, 12], [20, 21, 22], [30, 31, 32], [40, 41, 42]] }

def lgDemo (index columns : List Int) : LFrame Int Int Nat :=
  LFrame.mk (MFrame.mk ((lgFrame index columns).cut [3, 2] [2, 1]) (some index) (some columns) (some [3, 2]) (some [2, 1])) false false

theorem lgDemo_shows (a b c d e x y z : Int) : (lgDemo [a, b, c, d, e] [x, y, z]).Shows (lgFrame [a, b, c, d, e] [x, y, z]) := by
  refine ⟨⟨rfl, ?_⟩, ⟨lgFrame [a, b, c, d, e] [x, y, z], [3, 2], [2, 1], ⟨rfl, ?_⟩, rfl, rfl, ⟨by decide, by decide, rfl, rfl⟩, rfl,
    Or.inr rfl, Or.inr rfl, fun _ => rfl, fun _ => rfl⟩, Or.inr rfl, Or.inr rfl⟩ <;>
  · intro r hr
    simp only [lgFrame, List.mem_cons, List.not_mem_nil, or_false] at hr
    rcases hr with rfl | rfl | rfl | rfl | rfl <;> rfl

def lgKnown : Nat → Nat → Bool × Bool := fun _ _ => (true, true)

/-- what `df.loc[r, c]` shows on integer labels -/
def lgLoc (index columns : List Int) (r c : LocKey Int) : Option (Selected Int Nat) :=
  ((lgDemo index columns).locAt intOps (fun x s => x - s) ⟨4, 1, 1⟩ lgKnown 0 (-1) r c).bind (Located.observe 0)

/-- what `df.iloc[r, c]` shows -/
def lgIloc (index columns : List Int) (r c : IKey) : Option (Selected Int Nat) :=
  ((lgDemo index columns).ilocAt ⟨4, 1, 1⟩ lgKnown 0 (-1) r c).bind (Located.observe 0)

/-- hypotheses are met, `df.iloc[-1, 1:]`: the last row as a Series named by its label -/
example : lgIloc [0, 1, 2, 3, 4] [5, 6, 7] (.int (-1)) (.slice (some 1) none) = some (.series 4 [6, 7] [41, 42]) := by
  obtain ⟨s, e1, e2⟩ := C73_iloc_partial ⟨4, 1, 1⟩ (by decide) (by decide) (by decide) lgKnown 0 (-1) _ _ (lgDemo_shows 0 1 2 3 4 5 6 7)
    (.int (-1)) (.slice (some 1) none) (.one 4) (.many [1, 2]) (by decide) (by decide) (by decide) (by decide) (Or.inr (by decide))
  have : (lgFrame [0, 1, 2, 3, 4] [5, 6, 7]).ilocAt (.int (-1)) (.slice (some 1) none) = some (.series 4 [6, 7] [41, 42]) := by decide
  rw [this] at e1
  cases e1
  exact e2

/-- `df.loc[7, 1]` with two rows `7` and two columns `1` is a frame, with one row `3` a Series named `3` -/
example : lgLoc [7, 1, 7, 3, 4] [0, 1, 1] (.key (.label 7)) (.key (.label 1))
      = some (.frame { index := [7, 7], columns := [1, 1], rows := [[1, 2], [21, 22]] }) ∧
    lgLoc [7, 1, 7, 3, 4] [0, 1, 1] (.key (.label 3)) (.key (.label 1)) = some (.series 3 [1, 1] [31, 32]) ∧
    lgLoc [7, 1, 7, 3, 4] [0, 1, 1] (.key (.label 7)) (.key (.label 0)) = some (.series 0 [7, 7] [0, 20]) ∧
    lgLoc [7, 1, 7, 3, 4] [0, 1, 1] (.key (.label 3)) (.key (.label 0)) = some (.scalar 30) := by decide +kernel

/-- the hypotheses of `C73_loc_partial` are met by a label slice `df.loc[2:4, 1]` with two columns `1` -/
example : ∃ s, (lgFrame [1, 2, 3, 4, 5] [0, 1, 1]).locAt intOps (.slice (some 2) (some 4) none) (.key (.label 1)) = some s ∧
    lgLoc [1, 2, 3, 4, 5] [0, 1, 1] (.slice (some 2) (some 4) none) (.key (.label 1)) = some s := by
  have hs : ∀ e, intSlicer [1, 2, 3, 4, 5] (some 2) (some 4) = some e → e.1 < e.2 ∧ e.2 ≤ 5 := by
    rw [show intSlicer [1, 2, 3, 4, 5] (some 2) (some 4) = some (1, 4) by decide]
    intro e he
    cases he
    decide
  exact C73_loc_partial intOps (fun x s => x - s) ⟨4, 1, 1⟩ (by decide) (by decide) (by decide) lgKnown 0 (-1) _ _
    (lgDemo_shows 1 2 3 4 5 0 1 1) (.slice (some 2) (some 4) none) (.key (.label 1)) (.many [1, 2, 3]) (.many [1, 2]) (by decide) (by decide)
    ⟨by intro x hx; cases hx; rfl, by decide, fun _ => hs⟩ trivial (Or.inr (by decide))

/-- `df[1]` with two columns `1`, `df[[7, 5]]` and `df[-2:]` -/
example :
    ((lgDemo [0, 1, 2, 3, 4] [0, 1, 1]).itemAt ⟨4, 1, 1⟩ lgKnown 0 (-1) (.column 1)).bind (Located.observe 0)
      = some (.frame ((lgFrame [0, 1, 2, 3, 4] [0, 1, 1]).takeCols [1, 2])) ∧
    ((lgDemo [0, 1, 2, 3, 4] [5, 6, 7]).itemAt ⟨4, 1, 1⟩ lgKnown 0 (-1) (.columns [7, 5])).bind (Located.observe 0)
      = some (.frame ((lgFrame [0, 1, 2, 3, 4] [5, 6, 7]).takeCols [2, 0])) ∧
    ((lgDemo [0, 1, 2, 3, 4] [5, 6, 7]).itemAt ⟨4, 1, 1⟩ lgKnown 0 (-1) (.column 6)).bind (Located.observe 0)
      = some (.series 6 [0, 1, 2, 3, 4] [1, 11, 21, 31, 41]) ∧
    ((lgDemo [0, 1, 2, 3, 4] [5, 6, 7]).itemAt ⟨4, 1, 1⟩ lgKnown 0 (-1) (.rows (some (-2)) none)).bind (Located.observe 0)
      = some (.frame { index := [3, 4], columns := [5, 6, 7], rows := [[30, 31, 32], [40, 41, 42]] }) := by decide +kernel

/-- the hypotheses of `C73_default_labels_partial` are met -/
example : ∃ t, (lgFrame [0, 1, 2, 3, 4] [5, 6, 7]).locAt intOps (.rangeIndex 0 5 2) (.key .all) = some t ∧
    lgLoc [0, 1, 2, 3, 4] [5, 6, 7] (.rangeIndex 0 5 2) (.key .all) = some t :=
  C73_default_labels_partial ⟨4, 1, 1⟩ (by decide) (by decide) (by decide) lgKnown 0 (-1) _ _ (lgDemo_shows 0 1 2 3 4 5 6 7) (by decide)
    0 5 2 (by decide) (by decide) (by decide) _ (Or.inl rfl)

/-- the hypotheses of `C73_index_key_partial` are met -/
example : ∃ s, (lgFrame [7, 1, 7, 3, 4] [5, 6, 7]).locAt intOps (.key (.list [4, 1])) (.key .all) = some s ∧
    ((lgDemo [7, 1, 7, 3, 4] [5, 6, 7]).locIndex intOps (fun x s => x - s) ⟨4, 1, 1⟩ lgKnown 0 (-1) [4, 1]).bind (Located.observe 0) = some s :=
  C73_index_key_partial intOps (fun x s => x - s) ⟨4, 1, 1⟩ (by decide) (by decide) (by decide) lgKnown 0 (-1) _ _
    (lgDemo_shows 7 1 7 3 4 5 6 7) [4, 1] (by decide) (Or.inl (by decide))

/-! ### where the full statement fails -/

/-- **C73 fails for slices with a step over labels that are numbers.**  `df.loc[0:4:2]` on the labels `0..4` is the rows `0, 2, 4`; one
    step is taken off the end, as for a `range`, and row `4` is missing. -/
theorem C73_slice_step :
    (lgFrame [0, 1, 2, 3, 4] [5, 6, 7]).locAt intOps (.slice (some 0) (some 4) (some 2)) (.key .all)
      = some (.frame ((lgFrame [0, 1, 2, 3, 4] [5, 6, 7]).takeRows [0, 2, 4])) ∧
    lgLoc [0, 1, 2, 3, 4] [5, 6, 7] (.slice (some 0) (some 4) (some 2)) (.key .all)
      = some (.frame ((lgFrame [0, 1, 2, 3, 4] [5, 6, 7]).takeRows [0, 2])) := by decide +kernel

/-- **C73 fails for ranges with a step.**  `df.loc[range(0, 5, 2)]` is the rows `0, 2, 4`; the end is moved to `3` and row `4` is
    missing. -/
theorem C73_range_step :
    (lgFrame [0, 1, 2, 3, 4] [5, 6, 7]).locAt intOps (.range 0 5 2) (.key .all)
      = some (.frame ((lgFrame [0, 1, 2, 3, 4] [5, 6, 7]).takeRows [0, 2, 4])) ∧
    lgLoc [0, 1, 2, 3, 4] [5, 6, 7] (.range 0 5 2) (.key .all)
      = some (.frame ((lgFrame [0, 1, 2, 3, 4] [5, 6, 7]).takeRows [0, 2])) := by decide +kernel

/-- **C73 fails for ranges with labels that are not there.**  `df.loc[range(0, 9)]` raises `KeyError` in pandas; here the rows that are
    there are returned. -/
theorem C73_range_missing :
    (lgFrame [0, 1, 2, 3, 4] [5, 6, 7]).locAt intOps (.range 0 9 1) (.key .all) = none ∧
    lgLoc [0, 1, 2, 3, 4] [5, 6, 7] (.range 0 9 1) (.key .all) = some (.frame (lgFrame [0, 1, 2, 3, 4] [5, 6, 7])) := by decide +kernel

/-- **C73 fails for `RangeIndex` keys.**  `df.loc[pandas.RangeIndex(0, 2)]` on the labels `1, 2, 3, 4, 0` is the rows labelled `0` and
    `1`; the key is taken for positions and the rows labelled `1` and `2` are returned. -/
theorem C73_range_index :
    (lgFrame [1, 2, 3, 4, 0] [5, 6, 7]).locAt intOps (.rangeIndex 0 2 1) (.key .all)
      = some (.frame { index := [0, 1], columns := [5, 6, 7], rows := [[40, 41, 42], [0, 1, 2]] }) ∧
    lgLoc [1, 2, 3, 4, 0] [5, 6, 7] (.rangeIndex 0 2 1) (.key .all)
      = some (.frame { index := [1, 2], columns := [5, 6, 7], rows := [[0, 1, 2], [10, 11, 12]] }) := by decide +kernel

/-- **C73 fails for inverted slices of labels.**  `df.loc[3:1]` has no rows in pandas; here the result cannot be shown. -/
theorem C73_inverted_slice :
    (lgFrame [0, 1, 2, 3, 4] [5, 6, 7]).locAt intOps (.slice (some 3) (some 1) none) (.key .all)
      = some (.frame { index := [], columns := [5, 6, 7], rows := [] }) ∧
    lgLoc [0, 1, 2, 3, 4] [5, 6, 7] (.slice (some 3) (some 1) none) (.key .all) = none := by decide +kernel

/-- **C73 fails for an `Index` as key when a label is there several times.**  `df.loc[pandas.Index([7])]` is both rows `7`; here the
    key of length 1 is assigned as the labels of two rows, which raises. -/
theorem C73_index_key :
    (lgFrame [7, 1, 7, 3, 4] [5, 6, 7]).locAt intOps (.key (.list [7])) (.key .all)
      = some (.frame { index := [7, 7], columns := [5, 6, 7], rows := [[0, 1, 2], [20, 21, 22]] }) ∧
    ((lgDemo [7, 1, 7, 3, 4] [5, 6, 7]).locIndex intOps (fun x s => x - s) ⟨4, 1, 1⟩ lgKnown 0 (-1) [7]).bind (Located.observe 0) = none := by
  decide +kernel

/-- **C73 fails for masks of the wrong length.**  `df.iloc[[True, False]]` on five rows raises in pandas; here row 0 is returned. -/
theorem C73_mask_length :
    (lgFrame [0, 1, 2, 3, 4] [5, 6, 7]).ilocAt (.mask [true, false]) (.slice none none) = none ∧
    lgIloc [0, 1, 2, 3, 4] [5, 6, 7] (.mask [true, false]) (.slice none none)
      = some (.frame { index := [0], columns := [5, 6, 7], rows := [[0, 1, 2]] }) := by decide +kernel
