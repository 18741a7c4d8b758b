import Verif.Lemmas.PivotTable
/-
C88: `pivot_table`.
-/

variable {ι κ α β δ : Type}

/-- The `values` argument names columns of the frame other than the two used as labels, each once, and at least one. -/
structure PivotValues.Given [DecidableEq κ] (i c : κ) (all : List κ) (values : PivotValues κ) : Prop where
  there : ∀ v ∈ values.labels i c all, v ∈ all ∧ v ≠ i ∧ v ≠ c
  once : (values.labels i c all).Nodup
  some_one : values.labels i c all ≠ []

/-- With `dropna`: each value of the column `i` that stands in a row with both keys has, in some such row's group, a value of `h` in some
    column; so the table has no row without any value. -/
def Frame.NoEmptyRow [DecidableEq κ] [DecidableEq α] (isna : α → Bool) (h : List α → Option δ) (i c : κ) (vs : List κ) (df : Frame ι κ α) : Prop :=
  ∀ k ∈ (df.cellsOf i).zip (df.cellsOf c), ¬(isna k.1 ∨ isna k.2) → ∃ b, ∃ v ∈ vs, (k.1, b) ∈ (df.cellsOf i).zip (df.cellsOf c) ∧ ¬isna b ∧
    (h (cellsAt (k.1, b) ((df.cellsOf i).zip (df.cellsOf c)) (df.cellsOf v))).isSome

/-- When the table is right: without `dropna` no key is missing; with it no row is without any value, and there is no `fill_value`
    if there are several columns. -/
structure PivotRegular [DecidableEq κ] [DecidableEq α] (isna : α → Bool) (h : List α → Option δ) (i c : κ) (values : PivotValues κ)
    (dropna : Bool) (fill : Option δ) (df : Frame ι κ α) : Prop where
  keys : dropna = false → ∀ k ∈ (df.cellsOf i).zip (df.cellsOf c), ¬(isna k.1 ∨ isna k.2)
  rows : dropna = true → df.NoEmptyRow isna h i c (values.labels i c df.columns)
  filled : dropna = true → fill.isSome → (values.labels i c df.columns).length ≤ 1

/-- **C88 (the cells).**  For every frame with distinct column labels, however cut, every two of its columns as row and column labels
    of the table, other columns to aggregate and every aggregation with a map and a reduce phase: `pivot_table` gives pandas' table, except
    that the columns aggregated stand in the frame's order.  Missing (hence `_partial`): see `C88_pivot_table_partial`. -/
theorem C88_pivot_cells_partial [DecidableEq ι] [DecidableEq κ] [DecidableEq α] (cfg : Cfg) (hp : 1 ≤ cfg.nPartitions) (hmr : 1 ≤ cfg.minRow)
    (hmc : 1 ≤ cfg.minCol) (known : Nat → Nat → Bool × Bool) (G : Grouping (List α)) (hG : G.Ordered) (isna : α → Bool)
    (hdrop : ∀ k, G.dropped k = k.any isna) (le : α → α → Bool) (hle : TotalOrder le) (na : α) (op : TreeOp α β (Option δ))
    (h : List α → Option δ)
    (hlaw : ∀ bs : List (List α), bs ≠ [] → (∀ b ∈ bs, b ≠ []) → op.reduce (bs.map op.map) = h bs.flatten)
    (m : MFrame ι κ α) (df : Frame ι κ α) (hm : m.Represents df) (hn : df.columns.Nodup) (hrows : ∀ rl, m.rowLens = some rl → 0 ∉ rl)
    (hne : df.index ≠ []) (i c : κ) (hi : i ∈ df.columns) (hc : c ∈ df.columns) (hic : i ≠ c) (values : PivotValues κ)
    (hv : values.Given i c df.columns) (dropna : Bool) (fill : Option δ) (hreg : PivotRegular isna h i c values dropna fill df) :
    ∃ m' r, pivotTable cfg known G le op na i c values dropna fill m = some m' ∧ m'.Represents r ∧
      df.pivotTableOf le isna h i c values.tableLabel (df.columns.filter fun k => decide (k ∈ values.labels i c df.columns)) dropna fill
        = some r := by
  have hf : (df.columns.filter fun k => decide (k ∈ values.labels i c df.columns)) =
      df.columns.filter fun k => (values.labels i c df.columns).contains k := by
    apply List.filter_congr
    intro k _
    rw [Bool.eq_iff_iff]
    simp
  have hlen : (df.columns.filter fun k => (values.labels i c df.columns).contains k).length ≤ (values.labels i c df.columns).length := by
    refine nodup_length_le (hn.sublist List.filter_sublist) fun k hk => ?_
    simpa using (List.mem_filter.1 hk).2
  obtain ⟨m', e1, e2⟩ := pivotTable_core cfg hp hmr hmc known G hG isna hdrop hle na op h hlaw hm hn hrows hi hc hic values hv.there
    hv.some_one hne dropna fill hreg.keys hreg.rows (fun h1 h2 => Nat.le_trans hlen (hreg.filled h1 h2))
  refine ⟨m', _, e1, e2, ?_⟩
  unfold Frame.pivotTableOf
  rw [(onlyColumn_cellsOf hn hi).1, (onlyColumn_cellsOf hn hc).1, Option.bind_some, Option.bind_some, hf,
    mapM_onlyColumn hn (fun v hv' => (List.mem_filter.1 hv').1), Option.map_some]

/-- **C88.**  If besides the columns to aggregate stand in the frame in the order of their labels, `pivot_table` gives pandas' table.
    Missing (hence `_partial`): columns in another order (`C88_column_order`); unknown labels, which pandas refuses (`C88_unknown_value`,
    `C88_unknown_key`); with `dropna` rows without any value, which are kept (`C88_empty_row`), and a `fill_value` with several columns
    (`C88_fill`); without `dropna` missing keys (`C88_missing_keys`). -/
theorem C88_pivot_table_partial [DecidableEq ι] [DecidableEq κ] [DecidableEq α] (cfg : Cfg) (hp : 1 ≤ cfg.nPartitions) (hmr : 1 ≤ cfg.minRow)
    (hmc : 1 ≤ cfg.minCol) (known : Nat → Nat → Bool × Bool) (G : Grouping (List α)) (hG : G.Ordered) (isna : α → Bool)
    (hdrop : ∀ k, G.dropped k = k.any isna) (le : α → α → Bool) (hle : TotalOrder le) (leK : κ → κ → Bool) (hleK : TotalOrder leK) (na : α)
    (op : TreeOp α β (Option δ)) (h : List α → Option δ)
    (hlaw : ∀ bs : List (List α), bs ≠ [] → (∀ b ∈ bs, b ≠ []) → op.reduce (bs.map op.map) = h bs.flatten)
    (m : MFrame ι κ α) (df : Frame ι κ α) (hm : m.Represents df) (hn : df.columns.Nodup) (hrows : ∀ rl, m.rowLens = some rl → 0 ∉ rl)
    (hne : df.index ≠ []) (i c : κ) (hi : i ∈ df.columns) (hc : c ∈ df.columns) (hic : i ≠ c) (values : PivotValues κ)
    (hv : values.Given i c df.columns) (dropna : Bool) (fill : Option δ) (hreg : PivotRegular isna h i c values dropna fill df)
    (hord : (df.columns.filter fun k => decide (k ∈ values.labels i c df.columns)).Pairwise fun a b => leK a b) :
    ∃ m' r, pivotTable cfg known G le op na i c values dropna fill m = some m' ∧ m'.Represents r ∧
      df.pivotTable leK le isna h i c values dropna fill = some r := by
  obtain ⟨m', r, e1, e2, e3⟩ := C88_pivot_cells_partial cfg hp hmr hmc known G hG isna hdrop le hle na op h hlaw m df hm hn hrows hne i c
    hi hc hic values hv dropna fill hreg
  refine ⟨m', r, e1, e2, ?_⟩
  unfold Frame.pivotTable
  rw [← e3]
  congr 1
  refine sorted_unique hleK (sortBy_nodup hv.once) (hn.sublist List.filter_sublist) (sortBy_pairwise hleK.trans hleK.total _) hord ?_
  intro k
  rw [(sortBy_perm leK _).mem_iff, List.mem_filter, decide_eq_true_eq]
  exact ⟨fun hk => ⟨(hv.there k hk).1, hk⟩, fun hk => hk.2⟩

theorem cellLe_order : TotalOrder cellLe :=
  ⟨fun _ _ _ => cellLe_trans, cellLe_total, fun _ _ => cellLe_antisymm⟩

/-- **C88 (the default aggregation).**  `pivot_table(index=i, columns=c, values=...)` with `aggfunc="mean"`, for cells that are numbers or
    missing: the means of the cells that are not missing.  Missing as above (hence `_partial`). -/
theorem C88_mean_partial [DecidableEq ι] (cfg : Cfg) (hp : 1 ≤ cfg.nPartitions) (hmr : 1 ≤ cfg.minRow) (hmc : 1 ≤ cfg.minCol)
    (known : Nat → Nat → Bool × Bool) (sort : Bool) (m : MFrame ι Int (Option Int)) (df : Frame ι Int (Option Int)) (hm : m.Represents df)
    (hn : df.columns.Nodup) (hrows : ∀ rl, m.rowLens = some rl → 0 ∉ rl) (hne : df.index ≠ []) (i c : Int) (hi : i ∈ df.columns)
    (hc : c ∈ df.columns) (hic : i ≠ c) (values : PivotValues Int) (hv : values.Given i c df.columns) (dropna : Bool) (fill : Option Rat)
    (hreg : PivotRegular Option.isNone (Pandas.mean true) i c values dropna fill df)
    (hord : (df.columns.filter fun k => decide (k ∈ values.labels i c df.columns)).Pairwise (· ≤ ·)) :
    ∃ m' r, pivotTable cfg known (pandasGrouping sort true) cellLe gbMean none i c values dropna fill m = some m' ∧ m'.Represents r ∧
      df.pivotTable (fun a b => decide (a ≤ b)) cellLe Option.isNone (Pandas.mean true) i c values dropna fill = some r :=
  C88_pivot_table_partial cfg hp hmr hmc known _ (pandasGrouping_ordered sort true) Option.isNone (by
      intro k
      show (true && k.contains none) = _
      rw [Bool.true_and, Bool.eq_iff_iff]
      simp) cellLe cellLe_order _ ⟨by intro a b c h1 h2; simp at *; omega, by intro a b; simp; omega, by intro a b h1 h2; simp at *; omega⟩
    none gbMean _ (fun bs _ _ => gbMean_law bs) m df hm hn hrows hne i c hi hc hic values hv dropna fill hreg
    (hord.imp fun h => by simpa using h)

namespace PivotTableDemo

def cfg : Cfg := ⟨4, 1, 1⟩
def known : Nat → Nat → Bool × Bool := fun _ _ => (false, false)
def leI : Int → Int → Bool := fun a b => decide (a ≤ b)

/-- column 1 labels the rows, column 0 the columns; 2 and 3 are aggregated; the last row lacks a key -/
def df : Frame Int Int (Option Int) :=
  ⟨[10, 11, 12, 13, 14], [0, 1, 2, 3], [[some 7, some 1, some 5, none], [some 8, some 2, some 6, some 1], [some 7, some 1, some 8, none],
    [some 8, some 1, some 9, some 4], [none, some 2, some 3, some 3]]⟩
def m : MFrame Int Int (Option Int) := ⟨df.cut [2, 3] [1, 2, 1], none, none, none, none⟩
theorem hm : m.Represents df :=
  ⟨⟨by decide, by decide⟩, ⟨[2, 3], [1, 2, 1], ⟨by decide, by decide, by decide, by decide⟩, rfl, Or.inl rfl, Or.inl rfl⟩,
    Or.inl rfl, Or.inl rfl⟩

theorem given : PivotValues.Given 1 0 df.columns (.columns [3, 2]) := ⟨by decide, by decide, by decide⟩
theorem regular : PivotRegular Option.isNone (Pandas.maxCounted 0) 1 0 (.columns [3, 2]) true none df := by
  refine ⟨by decide, fun _ k hk hna => ⟨some 8, 2, by decide, ?_⟩, by decide⟩
  revert k
  decide

/-- the hypotheses hold -/
example := C88_pivot_table_partial cfg (by decide) (by decide) (by decide) known (pandasGrouping true true) (pandasGrouping_ordered true true)
  Option.isNone (by intro k; show (true && k.contains none) = _; rw [Bool.true_and, Bool.eq_iff_iff]; simp) cellLe cellLe_order leI
  ⟨by intro a b c h1 h2; simp [leI] at *; omega, by intro a b; simp [leI]; omega, by intro a b h1 h2; simp [leI] at *; omega⟩
  none (gbMax 0) (Pandas.maxCounted 0) (fun bs _ _ => by unfold gbMax; rw [maxCounted_eq (by decide)]; exact maxOp_law (Or.inl rfl) bs rfl)
  m df hm (by decide) (by intro rl h; cases h) (by decide) 1 0 (by decide) (by decide) (by decide) (.columns [3, 2]) given true none regular
  (by decide)

example := C88_mean_partial cfg (by decide) (by decide) (by decide) known true m df hm (by decide) (by intro rl h; cases h) (by decide) 1 0
  (by decide) (by decide) (by decide) (.column 2) ⟨by decide, by decide, by decide⟩ true (some 0)
  (by
    refine ⟨by decide, fun _ k hk hna => ⟨some 8, 2, by decide, ?_⟩, by decide⟩
    revert k
    decide +kernel) (by decide)

/-- The table: no cell for the key 2 and the column of key 7; for key 1 and the column of key 7, the larger of the cells of two blocks.
    The column of 3 and key 7 has no value and is left out. -/
example : df.pivotTable leI cellLe Option.isNone (Pandas.maxCounted 0) 1 0 (.columns [3, 2]) true none =
    some ⟨[some 1, some 2], [(some 2, some (some 7)), (some 2, some (some 8)), (some 3, some (some 8))],
      [[some 8, some 9, some 4], [none, some 6, some 1]]⟩ := by decide +kernel

/-- what `to_pandas` puts together -/
def shown (r : Option (MFrame (Option Int) (Option Int × Option (Option Int)) (Option Int))) :
    Option (Frame (Option Int) (Option Int × Option (Option Int)) (Option Int)) :=
  r.bind fun m => (m.parts.mapM fun row => Frame.hcat row).bind Frame.vcat

/-- `df.pivot_table(...)` by modin and by pandas, with `aggfunc="max"` -/
def modin (df : Frame Int Int (Option Int)) (i c : Int) (values : PivotValues Int) (dropna : Bool) (fill : Option Int) :=
  shown (pivotTable cfg known (pandasGrouping true true) cellLe (gbMax 0) none i c values dropna fill
    ⟨df.cut [2, df.nrows - 2] [1, df.ncols - 1], none, none, none, none⟩)
def pandas (df : Frame Int Int (Option Int)) (i c : Int) (values : PivotValues Int) (dropna : Bool) (fill : Option Int) :=
  df.pivotTable leI cellLe Option.isNone (Pandas.maxCounted 0) i c values dropna fill

example : modin df 1 0 (.columns [3, 2]) true none = pandas df 1 0 (.columns [3, 2]) true none := by decide +kernel

/-- **C88 is violated.**  The columns stand in the frame's order, pandas sorts them. -/
theorem C88_column_order :
    (modin ⟨[10, 11], [0, 1, 3, 2], [[some 7, some 1, some 5, some 6], [some 7, some 2, some 8, some 9]]⟩ 1 0 .missing true none).map (·.columns) =
      some [(some 3, some (some 7)), (some 2, some (some 7))] ∧
    (pandas ⟨[10, 11], [0, 1, 3, 2], [[some 7, some 1, some 5, some 6], [some 7, some 2, some 8, some 9]]⟩ 1 0 .missing true none).map (·.columns) =
      some [(some 2, some (some 7)), (some 3, some (some 7))] := by decide +kernel

/-- **C88 is violated.**  A value label that does not exist is passed over, pandas raises `KeyError`. -/
theorem C88_unknown_value :
    modin df 1 0 (.columns [2, 99]) true none = pandas df 1 0 (.columns [2]) true none ∧
    (pandas df 1 0 (.columns [2]) true none).isSome = true ∧ pandas df 1 0 (.columns [2, 99]) true none = none := by decide +kernel

/-- **C88 is violated.**  An `index` label that does not exist is passed over: the answer is the plain `groupby` of `columns`; pandas
    raises `KeyError`. -/
theorem C88_unknown_key :
    modin df 99 0 (.columns [2, 3]) true none = some ⟨[some 7, some 8], [(some 2, none), (some 3, none)], [[some 8, none], [some 9, some 4]]⟩ ∧
    pandas df 99 0 (.columns [2, 3]) true none = none := by decide +kernel

/-- a frame in which the group of key 2 has no value -/
def dfe : Frame Int Int (Option Int) :=
  ⟨[10, 11, 12], [0, 1, 2, 3], [[some 7, some 1, some 5, none], [some 8, some 2, none, none], [some 8, some 1, some 8, some 4]]⟩

/-- **C88 is violated.**  With `dropna=True` a row without any value is kept, pandas leaves it out. -/
theorem C88_empty_row :
    (modin dfe 1 0 (.column 2) true none).map (·.index) = some [some 1, some 2] ∧
    (pandas dfe 1 0 (.column 2) true none).map (·.index) = some [some 1] := by decide +kernel

/-- **C88 is violated.**  With a `fill_value` and several columns, a column without any value is left out before it is filled, pandas
    fills it. -/
theorem C88_fill :
    (modin df 1 0 (.columns [2, 3]) true (some 0)).map (·.columns.length) = some 3 ∧
    (pandas df 1 0 (.columns [2, 3]) true (some 0)).map (·.columns.length) = some 4 := by decide +kernel

/-- **C88 is violated.**  With `dropna=False` rows with a missing key are left out all the same, pandas keeps them. -/
theorem C88_missing_keys :
    (modin df 1 0 (.column 2) false none).map (·.columns) = some [(none, some (some 7)), (none, some (some 8))] ∧
    (pandas df 1 0 (.column 2) false none).map (·.columns) = some [(none, some (some 7)), (none, some (some 8)), (none, some none)] := by
  decide +kernel

end PivotTableDemo
