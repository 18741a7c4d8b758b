import Verif.Lemmas.Insert
import Verif.Props.Readers
/-
C42: `insert` and `df[key] = value`.
-/

variable {L α : Type}

/-- `value` is what pandas calls `v`: the same scalar, or a column with these labels and values, however it is divided -/
def MColValue.Stands : MColValue L α → ColValue L α → Prop
  | .scalar v, .scalar w => v = w
  | .column c, .series index vals => vals.length = index.length ∧ ∃ name, c.Shows (Frame.ofColumn index name vals)
  | _, _ => False

theorem setName_shows [DecidableEq L] {c : LFrame L L α} {index : List L} {name0 : L} {vals : List α}
    (h : c.Shows (Frame.ofColumn index name0 vals)) (name : L) :
    ∃ c', c.setColumns [name] = some c' ∧ c'.Shows (Frame.ofColumn index name vals) :=
  setColumns_shows h [name] (by simp [Frame.setColumns, Frame.ofColumn])

theorem along_some_cases [DecidableEq L] {nan : α} {labels index : List L} {vals vs : List α}
    (h : (ColValue.series index vals).along nan labels = some vs) : index = labels ∨ index.Nodup := by
  unfold ColValue.along at h
  simp only at h
  split at h
  · exact Or.inl ‹_›
  · split at h
    · exact Or.inr ‹_›
    · cases h

theorem positionsOf_length [DecidableEq L] (labels : List L) (x : L) : (positionsOf labels x).length = labels.count x := by
  unfold positionsOf
  induction labels with
  | nil => rfl
  | cons a l ih =>
    rw [List.length_cons, List.range_succ_eq_map, List.filter_cons, List.filter_map, List.count_cons]
    have hc : ((fun p => (a :: l)[p]? == some x) ∘ Nat.succ) = fun p => l[p]? == some x := by
      funext p; simp [Function.comp]
    rw [hc, ← ih]
    by_cases h : a = x <;> simp [h]

/-- **C42.** `df.insert(loc, name, value, allow_duplicates=dups)` is pandas' `insert`.  For every frame, every division of it
    into blocks (so the location may fall anywhere in a block or between two of them), known or unknown labels and lengths,
    pending labels or not, every location from 0 to the number of columns, and every scalar or column of labelled values,
    itself divided in any way: whenever pandas succeeds so does Modin, with pandas' frame as the result: the new column is at
    `loc`, all others keep their order and cells, and labelled values are found by their row label.  The value passed in keeps
    its labels and cells.

    Partial: for a scalar the name must be new, since with `allow_duplicates=True` Modin may raise
    (`C42_duplicate_scalar_raises`).  The value's name is overwritten (`C42_value_renamed`).  A value with repeated labels is
    sometimes accepted (`C42_repeated_labels_accepted`, `C42_raises`).  Before the last column, if row labels of the frame repeat,
    labelled values must have the frame's labels: otherwise it depends on the blocks (`C42_repeated_rows_wrong`).  Frames without rows or columns are built anew by the
    frontend and not modelled. -/
theorem C42_insert_partial [DecidableEq L] (cfg : Cfg) (hp : 1 ≤ cfg.nPartitions) (hmr : 1 ≤ cfg.minRow) (hmc : 1 ≤ cfg.minCol)
    (known : Nat → Nat → Bool × Bool) (knownG : Grid L L α → Bool) (nan : α) (dups : Bool) (loc : Nat) (name : L)
    (m : LFrame L L α) (df df' : Frame L L α) (h : m.Shows df) (_hr : 0 < df.nrows) (_hc : 0 < df.ncols)
    (value : MColValue L α) (v : ColValue L α) (hv : value.Stands v)
    (hs : ∀ x, v = .scalar x → name ∉ df.columns)
    (hd : ∀ index vals, v = .series index vals → df.index.Nodup ∨ index = df.index ∨ df.ncols ≤ loc)
    (hdf : df.insert nan dups loc name v = some df') :
    ∃ m' value', m.insert cfg nan known knownG dups loc name value = some (m', value') ∧
      m'.Shows df' ∧ m'.toPandas nan = some df' ∧ value'.Stands v := by
  unfold Frame.insert at hdf
  split at hdf
  · cases hdf
  rename_i hg
  have hg1 : loc ≤ df.ncols := by
    have := not_or.1 hg
    exact Nat.not_lt.1 this.1
  have hg2 : (!dups && m.getColumns.contains name) = false := by
    rw [h.getColumns]
    have := (not_or.1 hg).2
    cases dups with
    | true => rfl
    | false => simpa using this
  obtain ⟨vs, hvs, rfl⟩ := Option.map_eq_some_iff.1 hdf
  unfold LFrame.insert
  rw [hg2, if_neg (by simp), if_neg (by rw [h.getColumns]; exact Nat.not_lt.2 hg1)]
  cases value with
  | scalar x =>
    cases v with
    | series index vals => exact absurd hv (by simp [MColValue.Stands])
    | scalar y =>
      cases (show x = y from hv)
      simp only [ColValue.along, Option.some.injEq] at hvs
      subst hvs
      obtain ⟨m', e1, e2⟩ := operation_shows h (op := fun m1 => m1.insertScalar cfg loc name x)
        (fun m1 h1 => insertScalar_represents cfg h1 hg1 (hs x rfl) x)
      refine ⟨m', .scalar x, ?_, e2, (e2.observed nan).1, rfl⟩
      show (m.operation _).map _ = _
      rw [e1]
      rfl
  | column c =>
    cases v with
    | scalar y => exact absurd hv (by simp [MColValue.Stands])
    | series index vals =>
      obtain ⟨hlen, name0, hc0⟩ := hv
      obtain ⟨c', c1, c2⟩ := setName_shows hc0 name
      obtain ⟨r, vs', r1, r2, r3⟩ := insertItem_shows cfg hp hmr hmc nan known knownG h c2 hlen (along_some_cases hvs) hg1 false
        (by simp) (hd index vals rfl)
      rw [hvs] at r1
      cases r1
      refine ⟨r, .column c', ?_, r3, (r3.observed nan).1, hlen, name, c2⟩
      show (c.setColumns [name]).bind _ = _
      rw [c1, Option.bind_some, r2]
      rfl

/-- **C42, errors.** A location past the end, or a name that is taken without `allow_duplicates=True`, raises as in pandas. -/
theorem C42_raises [DecidableEq L] (cfg : Cfg) (known : Nat → Nat → Bool × Bool) (knownG : Grid L L α → Bool) (nan : α) (dups : Bool)
    (loc : Nat) (name : L) (m : LFrame L L α) (df : Frame L L α) (h : m.Shows df) (value : MColValue L α)
    (hbad : df.columns.length < loc ∨ (dups = false ∧ name ∈ df.columns)) :
    m.insert cfg nan known knownG dups loc name value = none ∧ ∀ v, df.insert nan dups loc name v = none := by
  refine ⟨?_, fun v => if_pos hbad⟩
  unfold LFrame.insert
  rw [h.getColumns]
  rcases hbad with hb | ⟨rfl, hb⟩
  · split
    · rfl
    · rfl
  · rw [if_pos (by simpa using hb)]

/-- **C42, assignment.** `df[key] = value` is pandas': every column called `key` gets the value, a new column goes to the end, and
    nothing else changes.  For every frame, division into blocks and state of its labels, as in `C42_insert_partial`.

    Partial: with labelled values `key` must not be a repeated column label (`C42_only_first_set`), and repeated row labels are
    restricted as in `C42_insert_partial`. -/
theorem C42_setitem_partial [DecidableEq L] (cfg : Cfg) (hp : 1 ≤ cfg.nPartitions) (hmr : 1 ≤ cfg.minRow) (hmc : 1 ≤ cfg.minCol)
    (known : Nat → Nat → Bool × Bool) (knownG : Grid L L α → Bool) (nan : α) (key : L)
    (m : LFrame L L α) (df df' : Frame L L α) (h : m.Shows df) (hr : 0 < df.nrows) (hc : 0 < df.ncols)
    (value : MColValue L α) (v : ColValue L α) (hv : value.Stands v)
    (hs : ∀ index vals, v = .series index vals → df.columns.count key ≤ 1)
    (hd : ∀ index vals, v = .series index vals → df.index.Nodup ∨ index = df.index ∨ key ∉ df.columns)
    (hdf : df.setItem nan key v = some df') :
    ∃ m' value', m.setItem cfg nan known knownG key value = some (m', value') ∧
      m'.Shows df' ∧ m'.toPandas nan = some df' ∧ value'.Stands v := by
  unfold Frame.setItem at hdf
  obtain ⟨vs, hvs, hdf⟩ := Option.map_eq_some_iff.1 hdf
  unfold LFrame.setItem
  rw [h.getColumns]
  by_cases hk : key ∈ df.columns
  · rw [if_pos (by simpa using hk)]
    rw [if_pos hk] at hdf
    subst hdf
    cases value with
    | scalar x =>
      cases v with
      | series index vals => exact absurd hv (by simp [MColValue.Stands])
      | scalar y =>
        cases (show x = y from hv)
        simp only [ColValue.along, Option.some.injEq] at hvs
        subst hvs
        obtain ⟨m', e1, e2⟩ := operation_shows h (op := fun m1 => m1.setScalar key x)
          (fun m1 h1 => setScalar_represents h1 hk x)
        refine ⟨m', .scalar x, ?_, e2, (e2.observed nan).1, rfl⟩
        simp only
        rw [e1]
        rfl
    | column c =>
      cases v with
      | scalar y => exact absurd hv (by simp [MColValue.Stands])
      | series index vals =>
        obtain ⟨hlen, name0, hc0⟩ := hv
        obtain ⟨c', c1, c2⟩ := setName_shows hc0 key
        have hcount : (positionsOf df.columns key).length = df.columns.count key := by
          rw [positionsOf_length]
        have h1 := positionsOf_pos hk
        have h2 := hs index vals rfl
        obtain ⟨p, hpos⟩ := List.length_eq_one_iff.1 (show (positionsOf df.columns key).length = 1 from by omega)
        have hpl : p < df.ncols := by
          have : p ∈ positionsOf df.columns key := by rw [hpos]; simp
          exact (List.getElem?_eq_some_iff.1 (mem_positionsOf.1 this)).1
        obtain ⟨r, vs', r1, r2, r3⟩ := insertItem_shows cfg hp hmr hmc nan known knownG h c2 hlen (along_some_cases hvs)
          (Nat.le_of_lt hpl) true (fun _ => hpl)
          ((hd index vals rfl).imp id fun h => h.imp id fun h => absurd hk h)
        rw [hvs] at r1
        cases r1
        simp only [↓reduceIte] at r3
        rw [splice_replace h.wf hpos] at r3
        refine ⟨r, .column c', ?_, r3, (r3.observed nan).1, hlen, key, c2⟩
        simp only
        rw [c1, Option.bind_some, getIndexerFor_one hk, hpos]
        simp only [List.map_cons, List.head?_cons, Option.bind_some, id]
        rw [r2]
        rfl
  · rw [if_neg (by simpa using hk)]
    rw [if_neg hk] at hdf
    refine C42_insert_partial cfg hp hmr hmc known knownG nan false df.columns.length key m df df' h hr hc value v hv (fun _ _ => hk)
      (fun _ _ _ => Or.inr (Or.inr (Nat.le_refl _))) ?_
    unfold Frame.insert
    rw [if_neg (by simp [hk]), hvs, ← hdf]
    rfl

/-! ### demonstrations -/

namespace InsertDemo

/-- a frame of 3 rows and 4 columns -/
def df : Frame Int Int Int := { index := [7, 5, 7], columns := [1, 2, 3, 2], rows := [[10, 20, 30, 40], [11, 21, 31, 41], [12, 22, 32, 42]] }

/-- divided into two bands of rows and two of columns, lengths and labels not known -/
def m : LFrame Int Int Int := ⟨⟨df.cut [2, 1] [2, 2], none, none, none, none⟩, false, false⟩

theorem m_shows : m.Shows df :=
  ⟨⟨by decide, by decide⟩, ⟨df, [2, 1], [2, 2], ⟨by decide, by decide⟩, rfl, rfl, ⟨by decide, by decide, by decide, by decide⟩, rfl,
    Or.inl rfl, Or.inl rfl, fun _ => rfl, fun _ => rfl⟩, Or.inl ⟨rfl, rfl⟩, Or.inl ⟨rfl, rfl⟩⟩

/-- `pandas.Series([50, 70], index=[5, 7], name=0)` in two blocks -/
def c : LFrame Int Int Int :=
  ⟨⟨(Frame.ofColumn [5, 7] 0 [50, 70] : Frame Int Int Int).cut [1, 1] [1], some [5, 7], some [0], some [1, 1], some [1]⟩, false, false⟩

theorem c_shows : c.Shows (Frame.ofColumn [5, 7] 0 [50, 70]) :=
  ⟨⟨by decide, by decide⟩, ⟨_, [1, 1], [1], ⟨by decide, by decide⟩, rfl, rfl, ⟨by decide, by decide, by decide, by decide⟩, rfl,
    Or.inr rfl, Or.inr rfl, fun _ => rfl, fun _ => rfl⟩, Or.inr rfl, Or.inr rfl⟩

/-- a column with the labels of the frame, in one block -/
def c3 : LFrame Int Int Int :=
  ⟨⟨(Frame.ofColumn [7, 5, 7] 0 [70, 50, 71] : Frame Int Int Int).cut [3] [1], some [7, 5, 7], some [0], some [3], some [1]⟩, false, false⟩

theorem c3_shows : c3.Shows (Frame.ofColumn [7, 5, 7] 0 [70, 50, 71]) :=
  ⟨⟨by decide, by decide⟩, ⟨_, [3], [1], ⟨by decide, by decide⟩, rfl, rfl, ⟨by decide, by decide, by decide, by decide⟩, rfl,
    Or.inr rfl, Or.inr rfl, fun _ => rfl, fun _ => rfl⟩, Or.inr rfl, Or.inr rfl⟩

def cfg : Cfg := ⟨4, 1, 1⟩
def no : Nat → Nat → Bool × Bool := fun _ _ => (false, false)

/-- a scalar between the two bands of columns -/
example : df.insert 0 false 2 9 (.scalar 5) =
    some { index := [7, 5, 7], columns := [1, 2, 9, 3, 2], rows := [[10, 20, 5, 30, 40], [11, 21, 5, 31, 41], [12, 22, 5, 32, 42]] } := by
  decide

example : ∃ m' value', m.insert cfg 0 no (fun _ => true) false 2 9 (.scalar 5) = some (m', value') ∧ m'.toPandas 0 =
    some { index := [7, 5, 7], columns := [1, 2, 9, 3, 2], rows := [[10, 20, 5, 30, 40], [11, 21, 5, 31, 41], [12, 22, 5, 32, 42]] } := by
  obtain ⟨a, b, e1, _, e2, _⟩ := C42_insert_partial cfg (by decide) (by decide) (by decide) no (fun _ => true) 0 false 2 9 m df _ m_shows
    (by decide) (by decide) (.scalar 5) (.scalar 5) rfl (fun _ _ => by decide) (by intro _ _ h; cases h)
    rfl
  exact ⟨a, b, e1, e2⟩

/-- labelled values, found by label -/
example : ∃ m' value', m.insert cfg 0 no (fun _ => true) true 4 2 (.column c) = some (m', value') ∧ m'.toPandas 0 =
    some { index := [7, 5, 7], columns := [1, 2, 3, 2, 2], rows := [[10, 20, 30, 40, 70], [11, 21, 31, 41, 50], [12, 22, 32, 42, 70]] } := by
  obtain ⟨a, b, e1, _, e2, _⟩ := C42_insert_partial cfg (by decide) (by decide) (by decide) no (fun _ => true) 0 true 4 2 m df _ m_shows
    (by decide) (by decide) (.column c) (.series [5, 7] [50, 70]) ⟨rfl, 0, c_shows⟩ (by intro x h; cases h)
    (fun _ _ _ => Or.inr (Or.inr (by decide))) rfl
  exact ⟨a, b, e1, e2⟩

/-- both columns called 2 are set, one in each band of columns -/
example : ∃ m' value', m.setItem cfg 0 no (fun _ => true) 2 (.scalar 5) = some (m', value') ∧ m'.toPandas 0 =
    some { index := [7, 5, 7], columns := [1, 2, 3, 2], rows := [[10, 5, 30, 5], [11, 5, 31, 5], [12, 5, 32, 5]] } := by
  obtain ⟨a, b, e1, _, e2, _⟩ := C42_setitem_partial cfg (by decide) (by decide) (by decide) no (fun _ => true) 0 2 m df _ m_shows
    (by decide) (by decide) (.scalar 5) (.scalar 5) rfl (by intro _ _ h; cases h)
    (by intro _ _ h; cases h) rfl
  exact ⟨a, b, e1, e2⟩

example : ∃ m' value', m.setItem cfg 0 no (fun _ => true) 3 (.column c3) = some (m', value') ∧ m'.toPandas 0 =
    some { index := [7, 5, 7], columns := [1, 2, 3, 2], rows := [[10, 20, 70, 40], [11, 21, 50, 41], [12, 22, 71, 42]] } := by
  obtain ⟨a, b, e1, _, e2, _⟩ := C42_setitem_partial cfg (by decide) (by decide) (by decide) no (fun _ => true) 0 3 m df _ m_shows
    (by decide) (by decide) (.column c3) (.series [7, 5, 7] [70, 50, 71]) ⟨rfl, 0, c3_shows⟩ (by intro _ _ _; decide)
    (fun _ _ h => Or.inr (Or.inl (by cases h; rfl))) rfl
  exact ⟨a, b, e1, e2⟩

/-- `pandas.Series([50, 60, 70], index=[5, 0, 0])` -/
def cr : LFrame Int Int Int :=
  ⟨⟨[[Frame.ofColumn [5, 0, 0] 0 [50, 60, 70]]], some [5, 0, 0], some [0], some [3], some [1]⟩, false, false⟩

end InsertDemo

/-- **C42, violated.** `df.insert(2, 2, 5, allow_duplicates=True)` with a scalar: the block at that place has a column called 2
    already, and inserting into it raises `ValueError`; pandas inserts the column. -/
theorem C42_duplicate_scalar_raises :
    InsertDemo.m.Shows InsertDemo.df ∧
    InsertDemo.df.insert 0 true 2 2 (.scalar 5) = some ⟨[7, 5, 7], [1, 2, 2, 3, 2],
      [[10, 20, 5, 30, 40], [11, 21, 5, 31, 41], [12, 22, 5, 32, 42]]⟩ ∧
    (InsertDemo.m.insert InsertDemo.cfg 0 InsertDemo.no (fun _ => true) true 2 2 (.scalar 5)).isNone :=
  ⟨InsertDemo.m_shows, by decide, by decide +kernel⟩

/-- **C42, violated.** `df.insert(0, 9, s)` renames the series `s` it was given: its name was 0, afterwards it is 9.  In pandas
    `s` is unchanged. -/
theorem C42_value_renamed :
    InsertDemo.c.getColumns = [0] ∧
    (InsertDemo.m.insert InsertDemo.cfg 0 InsertDemo.no (fun _ => true) false 0 9 (.column InsertDemo.c)).bind (fun r =>
      match r.2 with
      | .column c => some c.getColumns
      | .scalar _ => none) = some [9] :=
  ⟨by decide, by decide +kernel⟩

/-- **C42, violated.** `df[2] = s` where two columns are called 2: pandas sets both, Modin only the first. -/
theorem C42_only_first_set :
    InsertDemo.m.Shows InsertDemo.df ∧
    InsertDemo.df.setItem 0 2 (.series [5, 7] [50, 70]) = some ⟨[7, 5, 7], [1, 2, 3, 2],
      [[10, 70, 30, 70], [11, 50, 31, 50], [12, 70, 32, 70]]⟩ ∧
    (InsertDemo.m.setItem InsertDemo.cfg 0 InsertDemo.no (fun _ => true) 2 (.column InsertDemo.c)).bind (fun r => r.1.toPandas 0) =
      some { index := [7, 5, 7], columns := [1, 2, 3, 2], rows := [[10, 70, 30, 40], [11, 50, 31, 41], [12, 70, 32, 42]] } :=
  ⟨InsertDemo.m_shows, by decide, by decide +kernel⟩

/-- **C42, violated.** `df.insert(4, 9, s)` where a row label of `s` is repeated: pandas raises `ValueError`, Modin inserts a column
    if the frame does not have that label. -/
theorem C42_repeated_labels_accepted :
    InsertDemo.m.Shows InsertDemo.df ∧
    InsertDemo.df.insert 0 false 4 9 (.series [5, 0, 0] [50, 60, 70]) = none ∧
    (InsertDemo.m.insert InsertDemo.cfg (-1) InsertDemo.no (fun _ => true) false 4 9 (.column InsertDemo.cr)).bind (fun r => r.1.toPandas 0) =
      some { index := [7, 5, 7], columns := [1, 2, 3, 2, 9], rows := [[10, 20, 30, 40, -1], [11, 21, 31, 41, 50], [12, 22, 32, 42, -1]] } :=
  ⟨InsertDemo.m_shows, by decide, by decide +kernel⟩

/-- **C42, violated.** A frame whose row label 7 is repeated, with a block of rows left empty (as a filter leaves it), and a Series
    with the labels 5, 7.  Assigned to the first column: the columns behind it are divided differently from the (empty) ones before
    it, so they are divided anew, and on the way their repeated labels are looked up one by one: Modin fails. -/
theorem C42_repeated_rows_wrong :
    let m : LFrame Int Int Int := ⟨⟨InsertDemo.df.cut [2, 0, 1] [2, 2], some [7, 5, 7], some [1, 2, 3, 2], some [2, 0, 1], some [2, 2]⟩, false, false⟩
    m.Shows InsertDemo.df ∧
    InsertDemo.df.setItem 0 1 (.series [5, 7] [50, 70]) = some ⟨[7, 5, 7], [1, 2, 3, 2],
      [[70, 20, 30, 40], [50, 21, 31, 41], [70, 22, 32, 42]]⟩ ∧
    m.setItem InsertDemo.cfg 0 InsertDemo.no (fun _ => true) 1 (.column InsertDemo.c) = none :=
  ⟨⟨⟨by decide, by decide⟩, ⟨InsertDemo.df, [2, 0, 1], [2, 2], ⟨by decide, by decide⟩, rfl, rfl,
      ⟨by decide, by decide, by decide, by decide⟩, rfl, Or.inr rfl, Or.inr rfl, fun _ => rfl, fun _ => rfl⟩, Or.inr rfl, Or.inr rfl⟩,
    by decide, by decide +kernel⟩
