import Verif.Lemmas.Relabel
import Verif.Props.Readers
/-
C32: `reset_index` and `set_index`.  C34: `drop`.
-/

variable {ι κ α : Type}

theorem resetLabel_fromLabelsName [DecidableEq κ] (indexName levelName : κ) (name : Option κ) (columns : List κ) :
    resetLabel indexName levelName name columns = fromLabelsName indexName levelName name columns := by
  unfold resetLabel fromLabelsName
  cases name with
  | some n => rfl
  | none => by_cases h : indexName ∈ columns <;> simp [h]

/-- the frontend's early error applies -/
theorem reset_guard [DecidableEq κ] {m : LFrame ι κ α} {df : Frame ι κ α} (h : m.Shows df) (indexName levelName : κ) (drop : Bool) :
    (!drop && !(m.columns.isNone || m.index.isNone) && [levelName, indexName].all (m.getColumns.contains ·)) = true ↔
    (drop = false ∧ m.columns.isSome ∧ m.index.isSome ∧ levelName ∈ df.columns ∧ indexName ∈ df.columns) := by
  rw [h.getColumns]
  cases drop <;> cases m.columns <;> cases m.index <;> simp

/-- **C32.** `reset_index` is pandas' `reset_index`.  For every frame, with or without pending labels, every division of it
    into blocks (empty ones included) and every combination of known and unknown labels and lengths: whenever pandas'
    `df.reset_index(drop=drop)` succeeds Modin's does, its row labels are 0, 1, 2, ..., the old labels are the cells of the
    first column (unless dropped), each in its own row, and the materialised result is pandas' frame.

    Partial: a frame with a *named* index and columns called both `"level_0"` and `"index"` is rejected by Modin although
    pandas accepts it (`C32_named_index_rejected`); a frame without columns is not stood for by a frame in the sense of
    `Shows` (`C32_no_columns_raises`); a taken name is not always reported (`C32_taken_name_accepted`, `C32_raises`).
    `level`, `names`, `allow_duplicates` and several levels are not modelled. -/
theorem C32_reset_index_partial [DecidableEq ι] [DecidableEq κ] (cfg : Cfg) (hmc : 1 ≤ cfg.minCol) (num : Nat → ι) (cell : ι → α)
    (indexName levelName : κ) (name : Option κ) (drop namesKnown : Bool) (nan : α) (m : LFrame ι κ α) (df df' : Frame ι κ α)
    (h : m.Shows df) (hdf : df.resetIndex num cell indexName levelName name drop = some df')
    (hname : drop = false → name.isSome → ¬ (levelName ∈ df.columns ∧ indexName ∈ df.columns)) :
    ∃ m', m.resetIndex cfg num cell indexName levelName name drop namesKnown = some m' ∧ m'.toPandas nan = some df' ∧
      m'.getIndex = df'.index ∧ m'.getColumns = df'.columns ∧ (m.defColumns = false ∨ m.index = none ∨ drop = true → m'.Shows df') := by
  unfold LFrame.resetIndex
  by_cases hg : (!drop && !(m.columns.isNone || m.index.isNone) && [levelName, indexName].all (m.getColumns.contains ·)) = true
  · exfalso
    obtain ⟨rfl, _, _, h1, h2⟩ := (reset_guard h indexName levelName drop).1 hg
    cases name with
    | some n => exact hname rfl rfl ⟨h1, h2⟩
    | none =>
      simp [Frame.resetIndex, resetLabel, h1, h2] at hdf
  · rw [if_neg hg]
    by_cases hi : m.index.isNone
    · rw [if_pos hi]
      obtain ⟨m', e1, e2⟩ := (resetIndexLazy_spec cfg hmc num cell indexName levelName name drop namesKnown h).1 df' hdf
      obtain ⟨a, b, c⟩ := e2.observed nan
      exact ⟨m', e1, a, b, c, fun _ => e2⟩
    · rw [if_neg hi]
      cases drop with
      | false =>
        rw [if_pos (by rfl)]
        simp only [Frame.resetIndex, Bool.false_eq_true, ↓reduceIte] at hdf
        split at hdf
        · cases hdf
        · rename_i hn
          rw [Option.some.injEq] at hdf
          obtain ⟨m', e1, e2, e3, ⟨m1, e4, e5⟩, e6⟩ := fromLabels_spec num cell indexName levelName name h
            (resetLabel_fromLabelsName indexName levelName name df.columns) (target := df') hdf.symm
          refine ⟨m', e1, ?_, e2, e3, ?_⟩
          · unfold LFrame.toPandas
            rw [e4, Option.bind_some]
            exact e5.toPandas nan
          · rintro (hd | hd | hd)
            · exact e6 hd hn
            · simp [hd] at hi
            · cases hd
      | true =>
        rw [if_neg (by simp)]
        simp only [Frame.resetIndex, ↓reduceIte, Option.some.injEq] at hdf
        obtain ⟨c, c1, c2⟩ := copy_shows h
        have hrl : c.getRowLens.sum = df.index.length := by
          obtain ⟨df0, rl, cw, hwf0, hrows, hcolsl, hc, hp, hrl, _⟩ := c2.blocks
          have e : c.toMFrame.getRowLens = rl := getRowLens_cut hc hp hrl
          rw [e, hc.rl_sum, Frame.nrows, ← hwf0.rows_len, ← h.wf.rows_len, hrows]
        rw [c1, Option.bind_some, hrl]
        obtain ⟨m', e1, e2⟩ := setIndex_shows c2 (df' := df') ((List.range df.index.length).map num) (by
          unfold Frame.setIndex
          rw [if_pos (by simp), ← hdf])
        obtain ⟨a, b, c⟩ := e2.observed nan
        exact ⟨m', e1, a, b, c, fun _ => e2⟩

/-- **C32.** When pandas' `reset_index` raises because the new column's label is taken, so does Modin's, provided the row
    labels are not known, or they have no name and the column labels are known.  (Otherwise: `C32_taken_name_accepted`.) -/
theorem C32_raises [DecidableEq ι] [DecidableEq κ] (cfg : Cfg) (hmc : 1 ≤ cfg.minCol) (num : Nat → ι) (cell : ι → α)
    (indexName levelName : κ) (name : Option κ) (drop namesKnown : Bool) (m : LFrame ι κ α) (df : Frame ι κ α)
    (h : m.Shows df) (hdf : df.resetIndex num cell indexName levelName name drop = none)
    (hk : m.index = none ∨ (name = none ∧ m.columns.isSome)) :
    m.resetIndex cfg num cell indexName levelName name drop namesKnown = none := by
  unfold LFrame.resetIndex
  split
  · rfl
  · rename_i hg
    cases hi : m.index with
    | none =>
      simp only [Option.isNone_none, ↓reduceIte]
      exact (resetIndexLazy_spec cfg hmc num cell indexName levelName name drop namesKnown h).2 hdf
    | some i =>
      exfalso
      rcases hk with hk | ⟨hk, hc⟩
      · rw [hi] at hk; cases hk
      · subst hk
        apply hg
        rw [reset_guard h]
        cases drop with
        | true => simp [Frame.resetIndex] at hdf
        | false =>
          simp only [Frame.resetIndex, Bool.false_eq_true, ↓reduceIte] at hdf
          split at hdf
          · rename_i hx
            refine ⟨rfl, hc, by simp [hi], ?_⟩
            unfold resetLabel at hx
            simp only at hx
            split at hx
            · rename_i hy; exact ⟨hx, hy⟩
            · rename_i hy; exact absurd hx hy
          · cases hdf

/-- **C32.** `set_index(keys, drop=drop)` is pandas' `set_index`: for every frame, division and list of distinct keys it
    succeeds exactly when every key names one column, and then the row labels are made of the key columns' cells, each row
    keeping its cells.

    Partial: the other column labels must not repeat (`C32_set_index_multiplies`); repeated keys, `append` and arrays as keys
    are not modelled. -/
theorem C32_set_index_partial [DecidableEq ι] [DecidableEq κ] (cfg : Cfg) (hp : 1 ≤ cfg.nPartitions) (hmr : 1 ≤ cfg.minRow)
    (hmc : 1 ≤ cfg.minCol) (known : Nat → Nat → Bool × Bool) (nan : α) (lab : List α → ι) (m : LFrame ι κ α) (df : Frame ι κ α)
    (h : m.Shows df) (keys : List κ) (hk : keys.Nodup) (hrest : (df.columns.filter (· ∉ keys)).Nodup) (drop : Bool) :
    (∀ df', df.setIndexFrom lab keys drop = some df' →
      ∃ m', m.setIndexFrom cfg known nan lab keys drop = some m' ∧ m'.Shows df' ∧ m'.toPandas nan = some df') ∧
    (df.setIndexFrom lab keys drop = none → m.setIndexFrom cfg known nan lab keys drop = none) := by
  obtain ⟨h1, h2⟩ := setIndexFrom_shows cfg hp hmr hmc known nan lab h keys hk hrest drop
  refine ⟨?_, h2⟩
  intro df' hd
  obtain ⟨m', e1, e2⟩ := h1 df' hd
  exact ⟨m', e1, e2, (e2.observed nan).1⟩

theorem reset_then_set [DecidableEq κ] (num : Nat → ι) (cell : ι → α) (lab : List α → ι) (hlab : ∀ i, lab [cell i] = i)
    (indexName levelName : κ) (name : Option κ) {df df' : Frame ι κ α} (hwf : df.WF)
    (hdf : df.resetIndex num cell indexName levelName name false = some df') :
    df'.setIndexFrom lab [resetLabel indexName levelName name df.columns] true = some df := by
  simp only [Frame.resetIndex, Bool.false_eq_true, ↓reduceIte] at hdf
  split at hdf
  · cases hdf
  · rename_i hn
    cases hdf
    generalize resetLabel indexName levelName name df.columns = new at hn
    have hpos : onlyPosition (new :: df.columns) new = some 0 := by
      unfold onlyPosition
      rw [filter_range_one (i := 0)]
      · simp
      · simp
      · intro j hj hq
        cases j with
        | zero => rfl
        | succ j =>
          exfalso
          simp only [List.getElem?_cons_succ, beq_iff_eq] at hq
          exact hn (List.mem_of_getElem? hq)
    unfold Frame.setIndexFrom
    simp only [List.mapM_cons, hpos, List.mapM_nil, Option.bind_eq_bind, Option.bind_some, Option.pure_def, Option.map_some,
      ↓reduceIte, Option.some.injEq]
    have hkept : (List.range (Frame.mk ((List.range df.index.length).map num) (new :: df.columns)
        (List.zipWith (fun i r => cell i :: r) df.index df.rows)).ncols).filter (fun j => decide (j ∉ [0])) =
        (List.range df.columns.length).map (· + 1) := by
      simp only [Frame.ncols, List.length_cons, List.range_succ_eq_map, List.filter_cons]
      simp only [List.mem_singleton, not_true_eq_false, decide_false, Bool.false_eq_true, ↓reduceIte]
      rw [List.filter_eq_self.2]
      · intro j hj
        rw [List.mem_map] at hj
        obtain ⟨k, _, rfl⟩ := hj
        simp
    rw [hkept]
    have hshift : ∀ {τ : Type} (x : τ) (l : List τ) (n : Nat), takeList (x :: l) ((List.range n).map (· + 1)) = takeList l (List.range n) := by
      intro τ x l n
      unfold takeList
      rw [List.filterMap_map]
      rfl
    unfold Frame.takeCols
    simp only
    have hidx : (List.zipWith (fun i r => cell i :: r) df.index df.rows).map (fun r => lab (takeList r [0])) = df.index := by
      rw [List.map_zipWith]
      simp only [takeList, List.filterMap_cons, List.getElem?_cons_zero, List.filterMap_nil, hlab]
      apply List.ext_getElem
      · simp [hwf.rows_len]
      · intro k _ _; simp
    have hrows : (List.zipWith (fun i r => cell i :: r) df.index df.rows).map
        (fun r => takeList r ((List.range df.columns.length).map (· + 1))) = df.rows := by
      rw [List.map_zipWith]
      apply List.ext_getElem
      · simp [hwf.rows_len]
      · intro k h1 h2
        rw [List.getElem_zipWith, hshift]
        have hw := hwf.row_width df.rows[k] (List.getElem_mem h2)
        have : takeList df.rows[k] (List.range df.rows[k].length) = df.rows[k] := takeList_range _
        rw [hw] at this
        exact this
    rw [hidx, hrows, hshift, takeList_range]

/-- **C32.** The round trip: whenever pandas' `reset_index` succeeds, Modin's `df.reset_index().set_index(name)` gives back
    the original frame, for every division into blocks, provided the column labels do not repeat and none are pending. -/
theorem C32_round_trip_partial [DecidableEq ι] [DecidableEq κ] (cfg : Cfg) (hp : 1 ≤ cfg.nPartitions) (hmr : 1 ≤ cfg.minRow)
    (hmc : 1 ≤ cfg.minCol) (known : Nat → Nat → Bool × Bool) (nan : α) (num : Nat → ι) (cell : ι → α) (lab : List α → ι)
    (hlab : ∀ i, lab [cell i] = i) (indexName levelName : κ) (name : Option κ) (namesKnown : Bool)
    (m : LFrame ι κ α) (df df' : Frame ι κ α) (h : m.Shows df) (hpend : m.defColumns = false) (hn : df.columns.Nodup)
    (hdf : df.resetIndex num cell indexName levelName name false = some df')
    (hname : name.isSome → ¬ (levelName ∈ df.columns ∧ indexName ∈ df.columns)) :
    ∃ m1 m2, m.resetIndex cfg num cell indexName levelName name false namesKnown = some m1 ∧
      m1.setIndexFrom cfg known nan lab [resetLabel indexName levelName name df.columns] true = some m2 ∧
      m2.toPandas nan = some df := by
  obtain ⟨m1, e1, _, _, _, e2⟩ := C32_reset_index_partial cfg hmc num cell indexName levelName name false namesKnown nan m df df' h hdf (fun _ => hname)
  have e2 := e2 (Or.inl hpend)
  have hs := reset_then_set num cell lab hlab indexName levelName name h.wf hdf
  obtain ⟨m2, e3, _, e4⟩ := (C32_set_index_partial cfg hp hmr hmc known nan lab m1 df' e2
    [resetLabel indexName levelName name df.columns] (by simp) (by
      simp only [Frame.resetIndex, Bool.false_eq_true, ↓reduceIte] at hdf
      split at hdf
      · cases hdf
      · cases hdf
        simp only [List.filter_cons, List.mem_singleton, not_true_eq_false, decide_false, Bool.false_eq_true, ↓reduceIte]
        exact hn.filter _) true).1 df hs
  exact ⟨m1, m2, e1, e3, e4⟩

/-! ### concrete cases -/

namespace RelabelDemo

/-- a cell that is either a label or a number -/
def demo : Frame Int String Int := { index := [7, 5, 7], columns := ["a", "b"], rows := [[1, 2], [3, 4], [5, 6]] }

/-- in two row blocks and two column blocks, row labels not known -/
def demoLazy : LFrame Int String Int :=
  { parts := demo.cut [2, 1] [1, 1], index := none, columns := some ["a", "b"], rowLens := none, colWidths := none,
    defIndex := false, defColumns := false }

/-- the row labels pending -/
def demoPending : LFrame Int String Int :=
  { parts := ({ demo with index := [0, 1, 2] } : Frame Int String Int).cut [2, 1] [1, 1], index := some [7, 5, 7], columns := none,
    rowLens := some [2, 1], colWidths := some [1, 1], defIndex := true, defColumns := false }

theorem demo_wf : demo.WF := ⟨by decide, by decide⟩

theorem demoLazy_shows : demoLazy.Shows demo :=
  ⟨demo_wf, ⟨demo, [2, 1], [1, 1], demo_wf, rfl, rfl, ⟨by decide, by decide, by decide, by decide⟩, rfl, Or.inl rfl, Or.inl rfl,
    fun _ => rfl, fun _ => rfl⟩, Or.inl ⟨rfl, rfl⟩, Or.inr rfl⟩

theorem demoPending_shows : demoPending.Shows demo :=
  ⟨demo_wf, ⟨{ demo with index := [0, 1, 2] }, [2, 1], [1, 1], ⟨by decide, by decide⟩, rfl, rfl,
    ⟨by decide, by decide, by decide, by decide⟩, rfl, Or.inr rfl, Or.inr rfl, (by intro h; cases h), fun _ => rfl⟩,
    Or.inr rfl, Or.inl ⟨rfl, rfl⟩⟩

def demoReset : Frame Int String Int :=
  { index := [0, 1, 2], columns := ["index", "a", "b"], rows := [[7, 1, 2], [5, 3, 4], [7, 5, 6]] }

example : demo.resetIndex Int.ofNat id "index" "level_0" none false = some demoReset := by decide

example : ∃ m', demoLazy.resetIndex ⟨4, 1, 1⟩ Int.ofNat id "index" "level_0" none false true = some m' ∧
    m'.toPandas 0 = some demoReset := by
  obtain ⟨m', a, b, _⟩ := C32_reset_index_partial ⟨4, 1, 1⟩ (by decide) Int.ofNat id "index" "level_0" none false true 0
    demoLazy demo demoReset demoLazy_shows (by decide) (by simp)
  exact ⟨m', a, b⟩

example : (demoPending.resetIndex ⟨4, 1, 1⟩ Int.ofNat id "index" "level_0" none false true).bind (·.toPandas 0) = some demoReset := by
  decide +kernel

example : ∃ m1 m2, demoPending.resetIndex ⟨4, 1, 1⟩ Int.ofNat id "index" "level_0" none false true = some m1 ∧
    m1.setIndexFrom ⟨4, 1, 1⟩ (fun _ _ => (true, false)) 0 (fun r => r.headD 0) ["index"] true = some m2 ∧ m2.toPandas 0 = some demo :=
  C32_round_trip_partial ⟨4, 1, 1⟩ (by decide) (by decide) (by decide) _ 0 Int.ofNat id (fun r => r.headD 0) (by simp) "index" "level_0"
    none true demoPending demo demoReset demoPending_shows rfl (by decide) (by decide) (by simp)

/-- a key out of two columns, in another order than the columns -/
example : demo.setIndexFrom (fun r => r.foldl (fun a x => 10 * a + x) 0) ["b", "a"] true =
    some { index := [21, 43, 65], columns := [], rows := [[], [], []] } := by decide

/-- pandas raises for a taken label -/
example : ({ demo with columns := ["index", "level_0"] } : Frame Int String Int).resetIndex Int.ofNat id "index" "level_0" none false = none := by
  decide

end RelabelDemo

/-- **C32, violated.** The row labels are called `"a"` and so is a column: pandas' `reset_index` raises `ValueError`, Modin
    returns a frame with two columns `"a"`. -/
theorem C32_taken_name_accepted :
    RelabelDemo.demoPending.Shows RelabelDemo.demo ∧
    RelabelDemo.demo.resetIndex Int.ofNat id "index" "level_0" (some "a") false = none ∧
    (RelabelDemo.demoPending.resetIndex ⟨4, 1, 1⟩ Int.ofNat id "index" "level_0" (some "a") false true).bind (·.toPandas 0) =
      some { index := [0, 1, 2], columns := ["a", "a", "b"], rows := [[7, 1, 2], [5, 3, 4], [7, 5, 6]] } :=
  ⟨RelabelDemo.demoPending_shows, by decide, by decide +kernel⟩

/-- **C32, violated.** The row labels are called `"x"`, the columns `"level_0"` and `"index"`: pandas inserts a column `"x"`,
    Modin raises `ValueError`. -/
theorem C32_named_index_rejected :
    let df : Frame Int String Int := { RelabelDemo.demo with columns := ["level_0", "index"] }
    ∃ m, fromPandas ⟨4, 1, 1⟩ df = some m ∧
      LFrame.resetIndex ⟨4, 1, 1⟩ Int.ofNat id "index" "level_0" (some "x") false true { m with defIndex := false, defColumns := false } = none ∧
      df.resetIndex Int.ofNat id "index" "level_0" (some "x") false =
        some { index := [0, 1, 2], columns := ["x", "level_0", "index"], rows := [[7, 1, 2], [5, 3, 4], [7, 5, 6]] } := by
  exact ⟨⟨(Frame.mk [7, 5, 7] ["level_0", "index"] [[1, 2], [3, 4], [5, 6]] : Frame Int String Int).cut [1, 1, 1] [1, 1], some [7, 5, 7],
    some ["level_0", "index"], some [1, 1, 1], some [1, 1]⟩, by decide +kernel, by decide +kernel, by decide⟩

/-- **C32, violated.** `pd.DataFrame(index=[7, 5]).reset_index()` raises `IndexError` in Modin (no column widths are
    recorded); pandas makes a frame of one column. -/
theorem C32_no_columns_raises :
    let df : Frame Int String Int := { index := [7, 5], columns := [], rows := [[], []] }
    ∃ m, fromPandas ⟨4, 1, 1⟩ df = some m ∧
      LFrame.resetIndex ⟨4, 1, 1⟩ Int.ofNat id "index" "level_0" none false true { m with defIndex := false, defColumns := false } = none ∧
      df.resetIndex Int.ofNat id "index" "level_0" none false =
        some { index := [0, 1], columns := ["index"], rows := [[7], [5]] } := by
  exact ⟨⟨[[⟨[7], [], [[]]⟩], [⟨[5], [], [[]]⟩]], some [7, 5], some [], some [1, 1], some []⟩, by decide +kernel, by decide +kernel,
    by decide⟩

/-- **C32, violated.** With two columns called `"b"`, `df.set_index("a")` has four of them in Modin: each of the two labels is
    looked up and found twice. -/
theorem C32_set_index_multiplies :
    let df : Frame Int String Int := { index := [0, 1], columns := ["a", "b", "b"], rows := [[1, 2, 3], [4, 5, 6]] }
    let m : LFrame Int String Int := ⟨⟨[[df]], some [0, 1], some ["a", "b", "b"], some [2], some [3]⟩, false, false⟩
    df.setIndexFrom (fun r => r.headD 0) ["a"] true = some { index := [1, 4], columns := ["b", "b"], rows := [[2, 3], [5, 6]] } ∧
    (m.setIndexFrom ⟨4, 1, 1⟩ (fun _ _ => (false, false)) 0 (fun r => r.headD 0) ["a"] true).bind (·.toPandas 0) =
      some { index := [1, 4], columns := ["b", "b", "b", "b"], rows := [[2, 3, 2, 3], [5, 6, 5, 6]] } :=
  ⟨by decide, by decide +kernel⟩

/-! ### C34 -/

theorem dropLabels_congr [DecidableEq ι] [DecidableEq κ] {rows rows' : Option (List ι)} {cols cols' : Option (List κ)}
    (df : Frame ι κ α) (hr : ∀ x ∈ df.index, notListed rows x = notListed rows' x)
    (hc : ∀ x ∈ df.columns, notListed cols x = notListed cols' x) : df.dropLabels rows cols = df.dropLabels rows' cols' := by
  unfold Frame.dropLabels
  have e1 : ((df.index.zip df.rows).filter fun p => notListed rows p.1) = ((df.index.zip df.rows).filter fun p => notListed rows' p.1) := by
    apply List.filter_congr
    rintro ⟨i, r⟩ hp
    exact hr i (List.of_mem_zip hp).1
  rw [List.filter_congr hr, List.filter_congr hc, e1]
  congr 1
  apply List.map_congr_left
  rintro ⟨i, r⟩ _
  congr 1
  apply List.filter_congr
  rintro ⟨k, v⟩ hq
  exact hc k (List.of_mem_zip hq).1

theorem dropChecked_spec {τ : Type} [DecidableEq τ] (raising lazily : Bool) (index : List τ) (labels : Option (List τ))
    (hok : raising = true → ∀ l, labels = some l → ∀ x ∈ l, x ∈ index) :
    ∃ l, dropChecked raising lazily index labels = some l ∧ ∀ x ∈ index, notListed l x = notListed labels x := by
  unfold dropChecked
  cases labels with
  | none => exact ⟨none, rfl, fun _ _ => rfl⟩
  | some l =>
    simp only
    split
    · exact ⟨some l, rfl, fun _ _ => rfl⟩
    · cases raising with
      | true =>
        have : l.all (index.contains ·) = true := by simpa using hok rfl l rfl
        rw [if_pos rfl, if_pos this]
        exact ⟨some l, rfl, fun _ _ => rfl⟩
      | false =>
        rw [if_neg (by simp)]
        refine ⟨_, rfl, ?_⟩
        intro x hx
        split
        · rename_i he
          simp only [notListed]
          symm
          rw [decide_eq_true_eq]
          intro hxl
          rw [List.isEmpty_iff, List.filter_eq_nil_iff] at he
          exact he x hxl (by simpa using hx)
        · simp [notListed, hx]

/-- **C34.** `drop` keeps exactly the rows and columns whose label is not listed, in their order, however often labels repeat
    on either axis and in the list, for every division into blocks and every state of the labels (known, unknown, pending);
    with `errors="ignore"` absent labels do not matter, with `errors="raise"` an absent one is reported.

    Partial: an absent label is not reported along an axis whose labels are not known (`C34_absent_accepted`). Several levels
    of labels and `level` are not modelled. -/
theorem C34_drop_partial [DecidableEq ι] [DecidableEq κ] (cfg : Cfg) (hp : 1 ≤ cfg.nPartitions) (hmr : 1 ≤ cfg.minRow)
    (hmc : 1 ≤ cfg.minCol) (known : Nat → Nat → Bool × Bool) (nan : α) (raising : Bool) (rows : Option (List ι)) (cols : Option (List κ))
    (m : LFrame ι κ α) (df : Frame ι κ α) (h : m.Shows df) :
    (∀ df', df.drop raising rows cols = some df' →
      ∃ m', m.drop cfg known raising rows cols = some m' ∧ m'.Shows df' ∧ m'.toPandas nan = some df') ∧
    (df.drop raising rows cols = none → (rows.isSome → m.index.isSome) → (cols.isSome → m.columns.isSome) →
      m.drop cfg known raising rows cols = none) := by
  constructor
  · intro df' hd
    unfold Frame.drop at hd
    split at hd
    · cases hd
    · rename_i hok
      have hok' : raising = true → (∀ l, rows = some l → ∀ x ∈ l, x ∈ df.index) ∧ (∀ l, cols = some l → ∀ x ∈ l, x ∈ df.columns) := by
        intro hr
        exact Classical.byContradiction fun hn => hok ⟨hr, hn⟩
      obtain ⟨r, r1, r2⟩ := dropChecked_spec raising m.index.isNone df.index rows fun hr => (hok' hr).1
      obtain ⟨c, c1, c2⟩ := dropChecked_spec raising m.columns.isNone df.columns cols fun hr => (hok' hr).2
      unfold LFrame.drop
      rw [h.getIndex, h.getColumns, r1, Option.bind_some, c1, Option.bind_some]
      obtain ⟨m', e1, e2⟩ := dropCompiled_shows cfg hp hmr hmc known h r c
      rw [dropLabels_congr df r2 c2, Option.some.inj hd] at e2
      exact ⟨m', e1, e2, (e2.observed nan).1⟩
  · intro hd hi hc
    unfold Frame.drop at hd
    split at hd
    · rename_i hbad
      obtain ⟨hr, hbad⟩ := hbad
      subst hr
      unfold LFrame.drop
      rw [h.getIndex, h.getColumns]
      have key : ∀ {τ : Type} [DecidableEq τ] (cache : Option (List τ)) (index : List τ) (labels : Option (List τ)),
          (labels.isSome → cache.isSome) → ¬ (∀ l, labels = some l → ∀ x ∈ l, x ∈ index) →
          dropChecked true cache.isNone index labels = none := by
        intro τ _ cache index labels hs hb
        unfold dropChecked
        cases labels with
        | none => exact absurd (by simp) hb
        | some l =>
          have := hs rfl
          cases cache with
          | none => cases this
          | some _ =>
            simp only [Option.isNone_some, Bool.false_eq_true, ↓reduceIte, ite_eq_right_iff, reduceCtorEq, imp_false]
            intro hall
            exact hb (by intro l' hl'; cases hl'; simpa using hall)
      by_cases hrow : ∀ l, rows = some l → ∀ x ∈ l, x ∈ df.index
      · have hcol : ¬ (∀ l, cols = some l → ∀ x ∈ l, x ∈ df.columns) := fun hcol => hbad ⟨hrow, hcol⟩
        cases dropChecked true m.index.isNone df.index rows with
        | none => rfl
        | some r => rw [Option.bind_some, key m.columns df.columns cols hc hcol]; rfl
      · rw [key m.index df.index rows hi hrow]; rfl
    · cases hd

/-- **C34, stated on rows.** What remains after `drop` is, pair by pair, what was there with an unlisted label. -/
theorem C34_kept [DecidableEq ι] [DecidableEq κ] (df : Frame ι κ α) (hwf : df.WF) (rows : List ι) :
    ((df.dropLabels (some rows) none).index.zip (df.dropLabels (some rows) none).rows) =
      (df.index.zip df.rows).filter (fun p => decide (p.1 ∉ rows)) ∧ (df.dropLabels (some rows) none).columns = df.columns := by
  unfold Frame.dropLabels
  have hcols : ∀ r ∈ df.rows, (((df.columns.zip r).filter fun q => notListed none q.1).map (·.2)) = r := by
    intro r hr
    have : ((df.columns.zip r).filter fun q => notListed (none : Option (List κ)) q.1) = df.columns.zip r :=
      List.filter_eq_self.2 fun _ _ => rfl
    rw [this, List.map_snd_zip (by rw [hwf.row_width r hr]; exact Nat.le_refl _)]
  refine ⟨?_, List.filter_eq_self.2 fun _ _ => rfl⟩
  simp only
  have h1 : ((df.index.zip df.rows).filter fun p => notListed (some rows) p.1).map (fun p =>
      ((df.columns.zip p.2).filter fun q => notListed none q.1).map (·.2)) =
      ((df.index.zip df.rows).filter fun p => notListed (some rows) p.1).map (·.2) := by
    apply List.map_congr_left
    rintro ⟨i, r⟩ hp
    exact hcols r (List.of_mem_zip (List.mem_filter.1 hp).1).2
  have h2 : df.index.filter (notListed (some rows)) = ((df.index.zip df.rows).filter fun p => notListed (some rows) p.1).map (·.1) := by
    have h3 : df.index = (df.index.zip df.rows).map (·.1) := by
      rw [List.map_fst_zip (by rw [hwf.rows_len]; exact Nat.le_refl _)]
    conv => lhs; rw [h3, List.filter_map]
    rfl
  rw [h1, h2, List.zip_map', List.map_id'']
  · rfl
  · intro _; rfl

namespace RelabelDemo

/-- a repeated label is dropped wherever it is -/
example : (demoLazy.drop ⟨4, 1, 1⟩ (fun _ _ => (true, true)) true (some [7, 7]) (some ["b"])).bind (·.toPandas 0) =
    some { index := [5], columns := ["a"], rows := [[3]] } := by decide +kernel

example : demo.drop true (some [7]) none = some { index := [5], columns := ["a", "b"], rows := [[3, 4]] } := by decide
example : demo.drop true (some [8]) none = none := by decide
example : demo.drop false (some [8]) (some ["a", "z"]) = some { index := [7, 5, 7], columns := ["b"], rows := [[2], [4], [6]] } := by decide

end RelabelDemo

/-- **C34, violated.** `df.drop(index=[8])`: pandas raises `KeyError`; on a frame whose row labels are not known yet Modin
    returns the frame unchanged. -/
theorem C34_absent_accepted :
    RelabelDemo.demoLazy.Shows RelabelDemo.demo ∧ RelabelDemo.demo.drop true (some [8]) none = none ∧
    (RelabelDemo.demoLazy.drop ⟨4, 1, 1⟩ (fun _ _ => (false, false)) true (some [8]) none).bind (·.toPandas 0) = some RelabelDemo.demo :=
  ⟨RelabelDemo.demoLazy_shows, by decide, by decide +kernel⟩
