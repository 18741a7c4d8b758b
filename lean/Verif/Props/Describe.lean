import Verif.Lemmas.Describe
/-
C80: `select_dtypes` and `describe`.  C81: `apply` with a list or a dictionary of functions.
-/

variable {ι κ L α K S : Type}

/-- **C80 (`select_dtypes`).**  For every frame, however cut and whatever labels are still to be written, and every condition on
    dtypes: the columns with a wanted dtype, in their order, with the frame's rows.  Missing (hence `_partial`): columns of the same
    label of which one is wanted and another is not - the last one decides for both (`C80_repeated_label`). -/
theorem C80_select_dtypes_partial [DecidableEq ι] [DecidableEq κ] (cfg : Cfg) (hp : 1 ≤ cfg.nPartitions) (hr : 1 ≤ cfg.minRow)
    (hc : 1 ≤ cfg.minCol) (nan : α) (known : Nat → Nat → Bool × Bool) (keep : K → Bool) (kinds : List K) (m : LFrame ι κ α)
    (df : Frame ι κ α) (h : m.Shows df) (hk : kinds.length = df.ncols)
    (hs : ∀ e ∈ df.columns.zip kinds, ∀ e' ∈ df.columns.zip kinds, e.1 = e'.1 → keep e.2 = keep e'.2) :
    ∃ m', m.selectDtypes cfg known keep kinds = some (m', kinds.filter keep) ∧ m'.toPandas nan = some (df.selectKinds keep kinds) := by
  obtain ⟨m', e1, e2⟩ := selectDtypes_shows cfg hp hr hc known keep h hk hs
  exact ⟨m', e1, (e2.observed nan).1⟩

/-- **C80 (`describe`).**  For every frame with distinct column labels and at least one row, however cut and whatever labels are
    still to be written, every dtype of its columns and every choice of columns: `describe` gives pandas' table - the statistics of
    all columns, in pandas' order, a column that lacks one having a missing value there - although every block column is described
    for itself; and it raises when pandas does.  Missing (hence `_partial`): a frame without rows, which is refused
    (`C80_no_rows_refused`); repeated column labels (`C80_repeated_columns`). -/
theorem C80_describe_partial [DecidableEq ι] [DecidableEq κ] [DecidableEq S] (cfg : Cfg) (hp : 1 ≤ cfg.nPartitions)
    (hr : 1 ≤ cfg.minRow) (hc : 1 ≤ cfg.minCol) (nan : α) (known : Nat → Nat → Bool × Bool) (D : Describer K S α)
    (isDefault : K → Bool) (of : DescribeOf K) (kinds : List K) (m : LFrame ι κ α) (df : Frame ι κ α) (h : m.Shows df)
    (hk : kinds.length = df.ncols) (hn : df.columns.Nodup) (hrows : df.index ≠ []) :
    (∀ r, df.describe nan D isDefault of kinds = some r →
      ∃ m', m.describe cfg nan known D isDefault of kinds = some m' ∧ m'.toPandas nan = some r) ∧
    (df.describe nan D isDefault of kinds = none → m.describe cfg nan known D isDefault of kinds = none) := by
  obtain ⟨m', e1, e2⟩ := describeData_shows cfg hp hr hc known isDefault of h hk hn
  have hidx : (df.selectKinds (of.keeps isDefault kinds) kinds).index = df.index := rfl
  have hm : m.describe cfg nan known D isDefault of kinds =
      if (df.selectKinds (of.keeps isDefault kinds) kinds).columns = [] then none
      else m'.describeCompiled cfg nan D (kinds.filter (of.keeps isDefault kinds)) := by
    unfold LFrame.describe
    rw [e1, Option.bind_some]
    simp only [e2.getIndex, e2.getColumns, hidx, hrows, false_or]
  rw [hm]
  unfold Frame.describe
  by_cases hcol : (df.selectKinds (of.keeps isDefault kinds) kinds).columns = []
  · rw [if_pos hcol]
    unfold Frame.describeAll
    rw [if_pos hcol]
    exact ⟨fun r hr => by simp at hr, fun _ => rfl⟩
  · rw [if_neg hcol]
    obtain ⟨m2, r, e3, e4, e5⟩ := describeCompiled_shows cfg hr nan D e2 (selectKinds_ncols hk) (selectKinds_nodup hk hn) hcol
    rw [e4]
    refine ⟨fun r' hr' => ?_, fun h0 => by simp at h0⟩
    simp only [Option.some.injEq] at hr'
    subst hr'
    exact ⟨m2, e3, (e5.observed nan).1⟩

/-- **C81 (a list of reductions).**  For every frame, however cut and whatever labels are still to be written, and every list of
    functions of different names that make one value of a column: `apply` (and `agg`) give the table with a row for each function.
    Missing (hence `_partial`): functions that make a column (`C81_list_of_transformations`). -/
theorem C81_apply_list_partial [DecidableEq L] (cfg : Cfg) (hp : 1 ≤ cfg.nPartitions) (hr : 1 ≤ cfg.minRow) (nan : α)
    (pair : L → L → L) (gs : List (L × (List α → α))) (hne : gs ≠ []) (hn : (gs.map (·.1)).Nodup) (m : LFrame L L α)
    (df : Frame L L α) (h : m.Shows df) :
    ∃ m' r, m.applyList cfg pair (gs.map fun g => (g.1, .reduces g.2)) = some m' ∧
      df.applyList pair (gs.map fun g => (g.1, .reduces g.2)) = some r ∧ m'.toPandas nan = some r := by
  obtain ⟨m', e1, e2⟩ := applyList_shows cfg hp hr pair hne hn h
  exact ⟨m', _, e1, applyList_reduces pair hne hn df, (e2.observed nan).1⟩

/-- **C81 (a list pandas refuses).**  No function, two functions of one name, or functions of both sorts: an exception here too. -/
theorem C81_apply_list_refused [DecidableEq L] (cfg : Cfg) (pair : L → L → L) (fns : List (L × ColFn α)) (m : LFrame L L α)
    (df : Frame L L α) (h : m.Shows df) (hno : df.applyList pair fns = none) : m.applyList cfg pair fns = none := by
  refine applyFullColumns_none cfg h ?_ _ _
  intro b
  unfold Frame.applyList at hno ⊢
  split at hno
  · rename_i hc
    rw [if_pos hc]
  · rename_i hc
    rw [if_neg hc]
    split at hno
    · cases hno
    · rw [Option.map_eq_none_iff] at hno
      rename_i h1
      simp only [h1, hno, Option.map_none]

/-- **C81 (a list of functions of rows).**  `apply([f, g, ...], axis=1)` gives, for every frame however cut, the table with a column
    for each function; a list pandas refuses is refused. -/
theorem C81_apply_list_rows [DecidableEq L] (cfg : Cfg) (hp : 1 ≤ cfg.nPartitions) (hc : 1 ≤ cfg.minCol) (nan : α)
    (gs : List (L × (List α → α))) (m : LFrame L L α) (df : Frame L L α) (h : m.Shows df) :
    (∀ r, df.applyListRows gs = some r → ∃ m', m.applyListRows cfg gs = some m' ∧ m'.toPandas nan = some r) ∧
    (df.applyListRows gs = none → m.applyListRows cfg gs = none) := by
  by_cases hok : gs = [] ∨ ¬ (gs.map (·.1)).Nodup
  · have hf : ∀ f : Frame L L α, f.applyListRows gs = none := by
      intro f
      unfold Frame.applyListRows
      rw [if_pos (by simpa using hok)]
    refine ⟨fun r hr => ?_, fun _ => applyFullLines_none cfg h hf _ _⟩
    rw [hf] at hr
    cases hr
  · obtain ⟨m', r, e1, e2, e3⟩ := applyListRows_shows cfg hp hc (gs := gs) (fun e => hok (Or.inl e))
      (Classical.byContradiction fun e => hok (Or.inr e)) h
    rw [e2]
    refine ⟨fun r' hr' => ?_, fun h0 => by cases h0⟩
    simp only [Option.some.injEq] at hr'
    subst hr'
    exact ⟨m', e1, (e3.observed nan).1⟩

/-- All the labels are among those of one block column of the frame, once labels still to be written have been written. -/
def InOneBlock [DecidableEq L] (m : LFrame L L α) (keys : List L) : Prop :=
  ∃ m1, m.synced = some m1 ∧ ∃ b ∈ m1.parts.headD [], ∀ k ∈ keys, k ∈ b.columns

/-- **C81 (a dictionary of functions).**  For every frame with distinct column labels and every dictionary of functions that make a
    column, whose keys are columns held in one block column: `apply` gives the columns named by the dictionary, in its order.
    Missing (hence `_partial`): keys in different block columns, which are always refused (`C81_dict_across_blocks`); functions that
    make one value (`C81_dict_of_reductions`). -/
theorem C81_apply_dict_partial [DecidableEq L] (cfg : Cfg) (hr : 1 ≤ cfg.minRow) (nan : α) (zero : L)
    (gs : List (L × (List α → List α))) (hne : gs ≠ []) (hg : ∀ g ∈ gs, ∀ l, (g.2 l).length = l.length) (m : LFrame L L α)
    (df : Frame L L α) (h : m.Shows df) (hn : df.columns.Nodup) (hone : InOneBlock m (gs.map (·.1))) :
    ∃ m' r, m.applyDict cfg zero (gs.map fun g => (g.1, .keeps g.2)) = some m' ∧
      df.applyDict zero (gs.map fun g => (g.1, .keeps g.2)) = some r ∧ m'.toPandas nan = some r := by
  obtain ⟨m1, e1, b, hb, hbk⟩ := hone
  obtain ⟨m1', e1', h1⟩ := synced_spec h
  obtain rfl : m1 = m1' := by simpa [e1] using e1'
  obtain ⟨m', e2, e3⟩ := applyDict_represents cfg hr zero hne hg h1 hn
    ⟨b, hb, fun g hgm => hbk _ (List.mem_map_of_mem hgm)⟩
  refine ⟨_, _, ?_, applyDict_keeps zero hne ?_, ((represents_shows e3).observed nan).1⟩
  · unfold LFrame.applyDict LFrame.operation
    rw [e1, Option.bind_some]
    show Option.map _ (m1.toMFrame.applyFullSelect _ _ _ _ _) = _
    rw [e2]
    rfl
  · intro g hgm
    have := hbk _ (List.mem_map_of_mem hgm)
    obtain ⟨rl, cw, hc, hp, _⟩ := h1.blocks
    rw [hp] at hb
    unfold Frame.cut at hb
    obtain ⟨q, t, hq⟩ := List.exists_cons_of_ne_nil (sliceBounds_ne_nil hc.rl_ne)
    rw [hq, List.map_cons, List.headD_cons, List.mem_map] at hb
    obtain ⟨r, _, rfl⟩ := hb
    exact List.mem_of_mem_drop (List.mem_of_mem_take this)

/-- **C81 (fault: a dictionary across block columns).**  Whenever the keys are not all in one block column, `apply` raises, whatever
    the functions: each block column is given the whole dictionary.  Whether `apply({...})` works depends on how the frame is cut. -/
theorem C81_dict_across_blocks [DecidableEq L] (cfg : Cfg) (zero : L) (d : List (L × ColFn α)) (hne : d ≠ []) (m : LFrame L L α)
    (df : Frame L L α) (h : m.Shows df) (hone : ¬ InOneBlock m (d.map (·.1))) : m.applyDict cfg zero d = none := by
  obtain ⟨m1, e1, h1⟩ := synced_spec h
  unfold LFrame.applyDict LFrame.operation
  rw [e1, Option.bind_some]
  show Option.map _ (m1.toMFrame.applyFullSelect _ _ _ _ _) = _
  rw [applyDict_refused cfg zero hne h1]
  · rfl
  · rintro ⟨b, hb, hbk⟩
    refine hone ⟨m1, e1, b, hb, fun k hk => ?_⟩
    obtain ⟨e, he, rfl⟩ := List.mem_map.1 hk
    exact hbk e he

namespace DescribeDemo

def cfg : Cfg := ⟨4, 1, 1⟩
def known : Nat → Nat → Bool × Bool := fun _ _ => (true, true)
/-- dtype 0: a number (statistics 10, 11); dtype 1: text (10, 12, 13) -/
def D : Describer Int Int Int :=
  ⟨fun k => if k = 0 then [10, 11] else [10, 12, 13], fun _ s l => s * 100 + l.foldl (· + ·) 0⟩
def isNum : Int → Bool := (· == 0)
def df : Frame Int Int Int := { index := [1, 2, 3], columns := [7, 8, 9], rows := [[1, 5, 2], [3, 6, 4], [2, 7, 6]] }
def kinds : List Int := [0, 1, 0]
def m : LFrame Int Int Int := ⟨⟨df.cut [2, 1] [1, 2], none, none, none, none⟩, false, false⟩

theorem shows : m.Shows df := represents_shows (m := ⟨df.cut [2, 1] [1, 2], none, none, none, none⟩)
  ⟨by constructor <;> decide, ⟨[2, 1], [1, 2], by constructor <;> decide, rfl, Or.inl rfl, Or.inl rfl⟩, Or.inl rfl, Or.inl rfl⟩

/-- the numbers, picked from two block columns -/
example : ∃ m', m.selectDtypes cfg known isNum kinds = some (m', [0, 0]) ∧ m'.toPandas 0 =
    some { index := [1, 2, 3], columns := [7, 9], rows := [[1, 2], [3, 4], [2, 6]] } :=
  C80_select_dtypes_partial cfg (by decide) (by decide) (by decide) 0 known isNum kinds m df shows rfl (by decide)

/-- all columns described, dtypes mixed within a block and across blocks -/
example : ∃ m', m.describe cfg 0 known D isNum .all kinds = some m' ∧ m'.toPandas 0 =
    some { index := [10, 11, 12, 13], columns := [7, 8, 9],
           rows := [[1006, 1018, 1012], [1106, 0, 1112], [0, 1218, 0], [0, 1318, 0]] } :=
  (C80_describe_partial cfg (by decide) (by decide) (by decide) 0 known D isNum .all kinds m df shows rfl (by decide) (by decide)).1 _ rfl

/-- by default the numbers only -/
example : ∃ m', m.describe cfg 0 known D isNum .byDefault kinds = some m' ∧ m'.toPandas 0 =
    some { index := [10, 11], columns := [7, 9], rows := [[1006, 1012], [1106, 1112]] } :=
  (C80_describe_partial cfg (by decide) (by decide) (by decide) 0 known D isNum .byDefault kinds m df shows rfl (by decide) (by decide)).1 _ rfl

/-- nothing to describe: refused -/
example : m.describe cfg 0 known D isNum (.those fun _ => false) kinds = none :=
  (C80_describe_partial cfg (by decide) (by decide) (by decide) 0 known D isNum (.those fun _ => false) kinds m df shows rfl (by decide)
    (by decide)).2 rfl

/-- **Fault.**  A frame without rows: pandas describes it, Modin raises. -/
theorem C80_no_rows_refused :
    let df0 : Frame Int Int Int := { index := [], columns := [7, 8], rows := [] }
    let m0 : LFrame Int Int Int := ⟨⟨df0.cut [0] [1, 1], none, none, none, none⟩, false, false⟩
    m0.describe cfg 0 known D isNum .all [0, 0] = none ∧ (df0.describe 0 D isNum .all [0, 0]).isSome := by decide +kernel

/-- **Fault.**  Two columns of one label: each is described twice, while two labels are recorded; the result cannot be read. -/
theorem C80_repeated_columns :
    let df0 : Frame Int Int Int := { index := [1, 2], columns := [7, 7], rows := [[1, 5], [3, 6]] }
    let m0 : LFrame Int Int Int := ⟨⟨df0.cut [2] [1, 1], none, none, none, none⟩, false, false⟩
    (m0.describe cfg 0 known D isNum .all [0, 0]).bind (·.toPandas 0) = none ∧
      (df0.describe 0 D isNum .all [0, 0]).isSome := by decide +kernel

/-- **Fault.**  Two columns of one label, the first a number, the second text: the numbers are not selected. -/
theorem C80_repeated_label :
    let df0 : Frame Int Int Int := { index := [1, 2], columns := [7, 7], rows := [[1, 5], [3, 6]] }
    let m0 : LFrame Int Int Int := ⟨⟨df0.cut [2] [1, 1], none, none, none, none⟩, false, false⟩
    (m0.selectDtypes cfg known isNum [0, 1]).bind (·.1.toPandas 0) = some { index := [1, 2], columns := [], rows := [[], []] } ∧
      df0.selectKinds isNum [0, 1] = { index := [1, 2], columns := [7], rows := [[1], [3]] } := by decide +kernel

def total : List Int → Int := fun l => l.foldl (· + ·) 0
def count : List Int → Int := fun l => l.length
def neg : List Int → List Int := fun l => l.map (- ·)
def twice : List Int → List Int := fun l => l.map (2 * ·)
def pair (a b : Int) : Int := 100 * a + b

/-- `df.apply(["sum", "count"])` -/
example : ∃ m' r, m.applyList cfg pair ([(20, total), (21, count)].map fun g => (g.1, .reduces g.2)) = some m' ∧
    df.applyList pair ([(20, total), (21, count)].map fun g => (g.1, .reduces g.2)) = some r ∧ m'.toPandas 0 = some r :=
  C81_apply_list_partial cfg (by decide) (by decide) 0 pair [(20, total), (21, count)] (by decide) (by decide) m df shows

example : df.applyList pair ([(20, total), (21, count)].map fun g => (g.1, .reduces g.2)) =
    some { index := [20, 21], columns := [7, 8, 9], rows := [[6, 18, 12], [3, 3, 3]] } := by decide

/-- functions of both sorts -/
example : m.applyList cfg pair [(20, .reduces total), (22, .keeps neg)] = none :=
  C81_apply_list_refused cfg pair _ m df shows (by decide)

/-- `df.apply(["sum", "count"], axis=1)` -/
example : ∃ m', m.applyListRows cfg [(20, total), (21, count)] = some m' ∧ m'.toPandas 0 =
    some { index := [1, 2, 3], columns := [20, 21], rows := [[8, 3], [13, 3], [15, 3]] } :=
  (C81_apply_list_rows cfg (by decide) (by decide) 0 [(20, total), (21, count)] m df shows).1 _ rfl

/-- a dictionary whose keys are in the second block column, in another order -/
example : ∃ m' r, m.applyDict cfg 0 ([(9, neg), (8, twice)].map fun g => (g.1, .keeps g.2)) = some m' ∧
    df.applyDict 0 ([(9, neg), (8, twice)].map fun g => (g.1, .keeps g.2)) = some r ∧ m'.toPandas 0 = some r :=
  C81_apply_dict_partial cfg (by decide) 0 0 [(9, neg), (8, twice)] (by decide)
    (by simp [neg, twice]) m df shows (by decide)
    ⟨m, rfl, (df.ilocRows 0 2).ilocCols 1 3, by decide, by decide⟩

example : df.applyDict 0 ([(9, neg), (8, twice)].map fun g => (g.1, .keeps g.2)) =
    some { index := [1, 2, 3], columns := [9, 8], rows := [[-2, 10], [-4, 12], [-6, 14]] } := by decide

/-- **Fault.**  Keys in two block columns: pandas answers, Modin raises `KeyError`. -/
theorem C81_dict_two_blocks : m.applyDict cfg 0 [(7, .keeps neg), (8, .keeps twice)] = none ∧
    df.applyDict 0 [(7, .keeps neg), (8, .keeps twice)] =
      some { index := [1, 2, 3], columns := [7, 8], rows := [[-1, 10], [-3, 12], [-2, 14]] } := by
  refine ⟨C81_dict_across_blocks cfg 0 _ (by decide) m df shows ?_, by decide⟩
  rintro ⟨m1, e1, b, hb, hbk⟩
  obtain rfl : m = m1 := Option.some.inj e1
  have : ∀ b ∈ m.parts.headD [], ¬ ∀ k ∈ [7, 8], k ∈ b.columns := by decide
  exact this b hb hbk

/-- **Fault.**  Functions that make one value: the blocks hold a column of results, the frame records the keys as its column labels;
    the result cannot be read, where pandas gives a Series. -/
theorem C81_dict_of_reductions : (m.applyDict cfg 0 [(8, .reduces total), (9, .reduces total)]).bind (·.toPandas 0) = none ∧
    df.applyDict 0 [(8, .reduces total), (9, .reduces total)] = some { index := [8, 9], columns := [0], rows := [[18], [12]] } := by
  decide +kernel

/-- **Fault.**  A list of functions that make columns: the frame records the names of the functions as row labels and the columns
    as they were; the result cannot be read. -/
theorem C81_list_of_transformations : (m.applyList cfg pair [(22, .keeps neg), (23, .keeps twice)]).bind (·.toPandas 0) = none ∧
    (df.applyList pair [(22, .keeps neg), (23, .keeps twice)]).isSome := by decide +kernel

end DescribeDemo
