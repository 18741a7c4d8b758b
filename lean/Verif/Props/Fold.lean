import Verif.Lemmas.Fold

variable {ι κ α : Type}

/-- **C59.** `df.cumsum(axis, skipna)`, `cumprod`, `cummax`, `cummin`: pandas' function of every whole column (row), under the old
    labels, whatever the partitioning and the state of the cached labels. -/
theorem C59_cumulative [DecidableEq ι] [DecidableEq κ] (cfg : Cfg) (hp : 1 ≤ cfg.nPartitions) (hmr : 1 ≤ cfg.minRow) (hmc : 1 ≤ cfg.minCol)
    (nan : α) (isna : α → Bool) (op : α → α → α) (axis0 skipna : Bool) (m : LFrame ι κ α) (df : Frame ι κ α) (h : m.Shows df) :
    ∃ m', m.cumulative cfg isna op axis0 skipna = some m' ∧
      m'.Shows (df.along axis0 (cumulate (fun x => skipna && isna x) op none)) ∧
      m'.toPandas nan = some (df.along axis0 (cumulate (fun x => skipna && isna x) op none)) := by
  obtain ⟨m', e1, e2⟩ := fold_along_shows cfg hp hmr hmc h axis0 (f := cumulate (fun x => skipna && isna x) op none)
    (cumulate_length _ _ _)
  exact ⟨m', e1, e2, (e2.observed nan).1⟩

/-- **C59.** What that is, cell by cell: a missing cell stays missing (`skipna=True`), any other becomes the total of the cells
    that are not missing, from the first cell of its column down to it. -/
theorem C59_cumulative_cells [DecidableEq ι] [DecidableEq κ] (cfg : Cfg) (hp : 1 ≤ cfg.nPartitions) (hmr : 1 ≤ cfg.minRow) (hmc : 1 ≤ cfg.minCol)
    (nan : α) (isna : α → Bool) (op : α → α → α) (m : LFrame ι κ α) (df : Frame ι κ α) (h : m.Shows df) :
    ∃ m' out, m.cumulative cfg isna op true true = some m' ∧ m'.toPandas nan = some out ∧ out.index = df.index ∧ out.columns = df.columns ∧
      ∀ i j x, i < df.nrows → j < df.ncols → (df.column j)[i]? = some x →
        ((out.rows[i]?).bind fun r => r[j]?) =
          if isna x then some x else totalOf op (((df.column j).take (i + 1)).filter fun y => !isna y) := by
  obtain ⟨m', e1, e2, e3⟩ := C59_cumulative cfg hp hmr hmc nan isna op true true m df h
  refine ⟨m', _, e1, e3, rfl, rfl, ?_⟩
  intro i j x hi hj hx
  rw [(along_cell h.wf (cumulate_length _ _ _) hi hj).1]
  exact cumulate_from isna op [] _ i x hx

/-- **C59.** `df.diff(periods, axis)`: every cell minus the cell `periods` before it in its whole column (row). -/
theorem C59_diff [DecidableEq ι] [DecidableEq κ] (cfg : Cfg) (hp : 1 ≤ cfg.nPartitions) (hmr : 1 ≤ cfg.minRow) (hmc : 1 ≤ cfg.minCol)
    (nan : α) (sub : α → α → α) (periods : Int) (axis0 : Bool) (m : LFrame ι κ α) (df : Frame ι κ α) (h : m.Shows df) :
    ∃ m', m.diff cfg sub nan periods axis0 = some m' ∧ m'.Shows (df.along axis0 (diffBy sub nan periods)) ∧
      m'.toPandas nan = some (df.along axis0 (diffBy sub nan periods)) := by
  obtain ⟨m', e1, e2⟩ := fold_along_shows cfg hp hmr hmc h axis0 (f := diffBy sub nan periods) (diffBy_length _ _ _)
  exact ⟨m', e1, e2, (e2.observed nan).1⟩

/-- **C59.** `df.ffill(axis, limit)` and `df.fillna(method="ffill", ...)`; likewise `bfill`.  A limit below 1 raises, as in
    pandas. -/
theorem C59_fill_method [DecidableEq ι] [DecidableEq κ] (cfg : Cfg) (hp : 1 ≤ cfg.nPartitions) (hmr : 1 ≤ cfg.minRow) (hmc : 1 ≤ cfg.minCol)
    (nan : α) (isna : α → Bool) (limit : Option Int) (axis0 : Bool) (m : LFrame ι κ α) (df : Frame ι κ α) (h : m.Shows df) :
    ((∃ n, limit = some n ∧ n ≤ 0) → m.fillMethod cfg isna .ffill limit axis0 = none ∧ m.fillMethod cfg isna .bfill limit axis0 = none) ∧
    ((∀ n, limit = some n → 0 < n) →
      (∃ m', m.fillMethod cfg isna .ffill limit axis0 = some m' ∧
        m'.Shows (df.along axis0 (forwardFill isna (limit.map Int.toNat) none 0)) ∧
        m'.toPandas nan = some (df.along axis0 (forwardFill isna (limit.map Int.toNat) none 0))) ∧
      (∃ m', m.fillMethod cfg isna .bfill limit axis0 = some m' ∧
        m'.Shows (df.along axis0 (backwardFill isna (limit.map Int.toNat))) ∧
        m'.toPandas nan = some (df.along axis0 (backwardFill isna (limit.map Int.toNat))))) := by
  refine ⟨?_, ?_⟩
  · rintro ⟨n, rfl, hn⟩
    simp [LFrame.fillMethod, hn]
  · intro hl
    have hg : ¬ ((limit.map fun n => decide (n ≤ 0)).getD false) = true := by
      cases limit with
      | none => simp
      | some n => have := hl n rfl; simp; omega
    constructor
    · obtain ⟨m', e1, e2⟩ := fold_along_shows cfg hp hmr hmc h axis0 (f := FillMethod.run isna (limit.map Int.toNat) .ffill)
        (fillMethod_length _ _ _)
      exact ⟨m', by unfold LFrame.fillMethod; rw [if_neg (by simp), if_neg hg]; exact e1, e2, (e2.observed nan).1⟩
    · obtain ⟨m', e1, e2⟩ := fold_along_shows cfg hp hmr hmc h axis0 (f := FillMethod.run isna (limit.map Int.toNat) .bfill)
        (fillMethod_length _ _ _)
      exact ⟨m', by unfold LFrame.fillMethod; rw [if_neg (by simp), if_neg hg]; exact e1, e2, (e2.observed nan).1⟩

/-- **C59.** What `ffill` is, cell by cell: only missing cells change; such a cell takes the last value above it in the whole
    column (or stays if there is none), provided the gap it is in has fewer than `limit` cells above it. -/
theorem C59_ffill_cells [DecidableEq ι] [DecidableEq κ] (cfg : Cfg) (hp : 1 ≤ cfg.nPartitions) (hmr : 1 ≤ cfg.minRow) (hmc : 1 ≤ cfg.minCol)
    (nan : α) (isna : α → Bool) (limit : Option Int) (hl : ∀ n, limit = some n → 0 < n) (m : LFrame ι κ α) (df : Frame ι κ α)
    (h : m.Shows df) :
    ∃ m' out, m.fillMethod cfg isna .ffill limit true = some m' ∧ m'.toPandas nan = some out ∧ out.index = df.index ∧
      out.columns = df.columns ∧ ∀ i j x, i < df.nrows → j < df.ncols → (df.column j)[i]? = some x →
        ((out.rows[i]?).bind fun r => r[j]?) = some (
          if isna x ∧ ∀ n : Int, limit = some n → (((df.column j).take i).reverse.takeWhile isna).length < n
          then ((((df.column j).take i).filter fun y => !isna y).getLast?).getD x else x) := by
  obtain ⟨m', e1, e2, e3⟩ := ((C59_fill_method cfg hp hmr hmc nan isna limit true m df h).2 hl).1
  refine ⟨m', _, e1, e3, rfl, rfl, ?_⟩
  intro i j x hi hj hx
  rw [(along_cell h.wf (forwardFill_length _ _ _ _) hi hj).1]
  rw [show (none : Option α) = (([] : List α).filter fun y => !isna y).getLast? from rfl,
    show (0 : Nat) = (([] : List α).reverse.takeWhile isna).length from rfl, forwardFill_from isna _ [] _ i x hx]
  cases limit with
  | none => simp
  | some n =>
    have := hl n rfl
    have hiff : ∀ k : Nat, k < n.toNat ↔ (k : Int) < n := fun k => by omega
    simp [hiff]

/-- **C59.** `df.rolling(n, axis=...).agg(f)` and `df.expanding(k, axis=...).agg(f)` for any function `f` of a window. -/
theorem C59_windows [DecidableEq ι] [DecidableEq κ] (cfg : Cfg) (hp : 1 ≤ cfg.nPartitions) (hmr : 1 ≤ cfg.minRow) (hmc : 1 ≤ cfg.minCol)
    (nan : α) (n : Nat) (f : List α → α) (axis0 : Bool) (m : LFrame ι κ α) (df : Frame ι κ α) (h : m.Shows df) :
    (∃ m', m.rolling cfg nan n f axis0 = some m' ∧ m'.Shows (df.along axis0 (rollingBy nan n f)) ∧
      m'.toPandas nan = some (df.along axis0 (rollingBy nan n f))) ∧
    (∃ m', m.expanding cfg nan n f axis0 = some m' ∧ m'.Shows (df.along axis0 (expandingBy nan n f)) ∧
      m'.toPandas nan = some (df.along axis0 (expandingBy nan n f))) := by
  constructor
  · obtain ⟨m', e1, e2⟩ := fold_along_shows cfg hp hmr hmc h axis0 (f := rollingBy nan n f) (rollingBy_length _ _ _)
    exact ⟨m', e1, e2, (e2.observed nan).1⟩
  · obtain ⟨m', e1, e2⟩ := fold_along_shows cfg hp hmr hmc h axis0 (f := expandingBy nan n f) (expandingBy_length _ _ _)
    exact ⟨m', e1, e2, (e2.observed nan).1⟩

/-- **C59.** `df.rolling(n, on=key).agg(f)` on a frame held in one column of blocks: as in pandas, an error exactly if there is no
    such column.  Partial: not for a frame held in several columns of blocks (see `C59_rolling_on_raises`). -/
theorem C59_rolling_on_partial [DecidableEq ι] [DecidableEq κ] (cfg : Cfg) (nan : α) (key : κ) (f : List α → List α → List α)
    (hf : ∀ k c, (f k c).length = c.length) (m : LFrame ι κ α) (df : Frame ι κ α) (h : m.Shows df) (hw : gridWidth m.parts ≤ 1) :
    match df.rollingOn key f with
    | none => m.rollingOn cfg key f = none
    | some df' => ∃ m', m.rollingOn cfg key f = some m' ∧ m'.Shows df' ∧ m'.toPandas nan = some df' := by
  cases e : df.rollingOn key f with
  | none =>
    obtain ⟨m1, rl, w, e1, hc, hpp, hrl⟩ := synced_single h hw
    obtain rfl : w = df.ncols := by simpa using hc.cw_sum
    show LFrame.fold cfg true _ m = none
    unfold LFrame.fold LFrame.operation
    rw [e1, Option.bind_some]
    simp only
    rw [hpp, mapAxis_rows_fails cfg h.wf hc true none none (q := (0, df.ncols)) (by rw [sliceBounds_single]; simp)
      (by simp only; rw [Frame.ilocCols_all h.wf]; exact e)]
    rfl
  | some df' =>
    obtain ⟨hwf', hi, hcl⟩ := rollingOn_wf hf h.wf e
    have hnr : df'.nrows = df.nrows := by unfold Frame.nrows; rw [hi]
    have hnc : df'.ncols = df.ncols := by unfold Frame.ncols; rw [hcl]
    obtain ⟨m1, e1, h1⟩ := synced_spec h
    obtain ⟨m2, rl, w, e2, hc, hpp, _⟩ := synced_single h hw
    obtain rfl : m1 = m2 := by rw [e1] at e2; exact Option.some.inj e2
    obtain ⟨rl', cw', hc', hpp', hrl, hcw⟩ := h1.blocks
    have hcw1 : cw'.length = 1 := by
      have : gridWidth m1.parts = 1 := by rw [hpp, gridWidth_cut hc.rl_ne]; rfl
      rwa [hpp', gridWidth_cut hc'.rl_ne] at this
    match cw', hcw1, hc', hpp', hcw with
    | [w'], _, hc', hpp', hcw =>
      have hR : MFrame.Represents ⟨df'.cut rl' [w'], m1.index, m1.columns, m1.rowLens, m1.colWidths⟩ df' :=
        ⟨hwf', ⟨rl', [w'], ⟨hc'.rl_ne, by simp, by rw [hc'.rl_sum, hnr], by rw [hc'.cw_sum, hnc]⟩, rfl, hrl, hcw⟩,
          by rw [hi]; exact h1.index, by rw [hcl]; exact h1.columns⟩
      obtain ⟨r, e3, e4⟩ := represents_mk' hR
      refine ⟨⟨r, false, false⟩, ?_, represents_shows e4, ((represents_shows e4).observed nan).1⟩
      unfold LFrame.rollingOn LFrame.fold LFrame.operation
      rw [e1, Option.bind_some]
      simp only
      rw [hpp', mapAxis_rows_single cfg h.wf hwf' hnr hnc e hc', Option.bind_some, e3]
      rfl

/-- **C59 does not hold for `rolling(on=...)` on wide frames.** With two columns of blocks or more the call raises: a column
    partition without the column `on` has nothing to make the windows from. -/
theorem C59_rolling_on_raises [DecidableEq ι] [DecidableEq κ] (cfg : Cfg) (key : κ) (f : List α → List α → List α)
    (m : LFrame ι κ α) (df : Frame ι κ α) (h : m.Shows df) (hf : m.defIndex = false ∧ m.defColumns = false) (hn : df.columns.Nodup)
    (hw : 2 ≤ gridWidth m.parts) : m.rollingOn cfg key f = none := by
  obtain ⟨df0, rl, cw, hwf0, hrows, hcl, hc, hpp, hrl, hcw, hdi, hdc⟩ := h.blocks
  obtain rfl : df0 = df := by
    cases df0; cases df; simp only [Frame.mk.injEq]; exact ⟨hdi hf.1, hdc hf.2, hrows⟩
  have hs : m.synced = some m := by unfold LFrame.synced; rw [hf.1, hf.2]; rfl
  unfold LFrame.rollingOn LFrame.fold LFrame.operation
  rw [hs, Option.bind_some]
  simp only
  rw [hpp]
  rw [hpp, gridWidth_cut hc.rl_ne] at hw
  match cw, hw, hc with
  | a :: b :: t, _, hc =>
    have hb : sliceBounds (a :: b :: t) = (0, a) :: (a, a + b) :: (sliceBounds t).map (fun q => (q.1 + b + a, q.2 + b + a)) := by
      rw [sliceBounds_cons', sliceBounds_cons']
      simp [Nat.add_comm, Nat.add_left_comm]
    have hnone : ∀ c d, key ∉ pySlice df0.columns c d → (df0.ilocCols c d).rollingOn key f = none := by
      intro c d hc
      unfold Frame.rollingOn
      exact if_neg hc
    by_cases h1 : key ∈ pySlice df0.columns 0 a
    · rw [mapAxis_rows_fails cfg hwf0 hc true none none (q := (a, a + b)) (by rw [hb]; simp)
        (hnone _ _ fun h2 => nodup_slices hn h1 h2)]
      rfl
    · rw [mapAxis_rows_fails cfg hwf0 hc true none none (q := (0, a)) (by rw [hb]; simp) (hnone _ _ h1)]
      rfl

namespace FoldDemo

/-- a frame of 4 rows and 3 columns; 0 stands for a missing cell -/
def df : Frame Int Int Int := { index := [7, 5, 9, 5], columns := [3, 1, 2], rows := [[10, 0, 30], [11, 0, 31], [0, 22, 32], [0, 23, 0]] }

def m : LFrame Int Int Int := ⟨⟨df.cut [2, 2] [2, 1], none, none, none, none⟩, false, false⟩

theorem m_shows : m.Shows df :=
  represents_shows (m := ⟨df.cut [2, 2] [2, 1], none, none, none, none⟩) ⟨by constructor <;> decide, ⟨[2, 2], [2, 1],
    by constructor <;> decide, rfl, Or.inl rfl, Or.inl rfl⟩, Or.inl rfl, Or.inl rfl⟩

def n : LFrame Int Int Int := ⟨⟨df.cut [2, 2] [3], none, none, none, none⟩, false, false⟩

theorem n_shows : n.Shows df :=
  represents_shows (m := ⟨df.cut [2, 2] [3], none, none, none, none⟩) ⟨by constructor <;> decide, ⟨[2, 2], [3],
    by constructor <;> decide, rfl, Or.inl rfl, Or.inl rfl⟩, Or.inl rfl, Or.inl rfl⟩

def cfg : Cfg := ⟨4, 1, 1⟩
def isna (x : Int) : Bool := x == 0

-- `cumsum()` does not start anew in the second block
example : ∃ m', m.cumulative cfg isna (· + ·) true true = some m' ∧ m'.toPandas 0 = some
    ⟨[7, 5, 9, 5], [3, 1, 2], [[10, 0, 30], [21, 0, 61], [0, 22, 93], [0, 45, 0]]⟩ := by
  obtain ⟨m', e1, _, e3⟩ := C59_cumulative cfg (by decide) (by decide) (by decide) 0 isna (· + ·) true true m df m_shows
  exact ⟨m', e1, by rw [e3]; decide +kernel⟩

-- `cumsum(axis=1)`
example : ∃ m', m.cumulative cfg isna (· + ·) false true = some m' ∧ m'.toPandas 0 = some
    ⟨[7, 5, 9, 5], [3, 1, 2], [[10, 0, 40], [11, 0, 42], [0, 22, 54], [0, 23, 0]]⟩ := by
  obtain ⟨m', e1, _, e3⟩ := C59_cumulative cfg (by decide) (by decide) (by decide) 0 isna (· + ·) false true m df m_shows
  exact ⟨m', e1, by rw [e3]; decide +kernel⟩

-- a cell of the third row: the total of the cells above it that are not missing
example : totalOf (· + ·) (((df.column 2).take 3).filter fun y => !isna y) = some 93 := by decide

-- `diff(2)` and `diff(-1)` look into the other block
example : ∃ m', m.diff cfg (· - ·) 0 2 true = some m' ∧ m'.toPandas 0 = some
    ⟨[7, 5, 9, 5], [3, 1, 2], [[0, 0, 0], [0, 0, 0], [-10, 22, 2], [-11, 23, -31]]⟩ := by
  obtain ⟨m', e1, _, e3⟩ := C59_diff cfg (by decide) (by decide) (by decide) 0 (· - ·) 2 true m df m_shows
  exact ⟨m', e1, by rw [e3]; decide +kernel⟩

example : ∃ m', m.diff cfg (· - ·) 0 (-1) true = some m' ∧ m'.toPandas 0 = some
    ⟨[7, 5, 9, 5], [3, 1, 2], [[-1, 0, -1], [11, -22, -1], [0, -1, 32], [0, 0, 0]]⟩ := by
  obtain ⟨m', e1, _, e3⟩ := C59_diff cfg (by decide) (by decide) (by decide) 0 (· - ·) (-1) true m df m_shows
  exact ⟨m', e1, by rw [e3]; decide +kernel⟩

-- `ffill(limit=1)` and `bfill()`
example : ∃ m', m.fillMethod cfg isna .ffill (some 1) true = some m' ∧ m'.toPandas 0 = some
    ⟨[7, 5, 9, 5], [3, 1, 2], [[10, 0, 30], [11, 0, 31], [11, 22, 32], [0, 23, 32]]⟩ := by
  obtain ⟨m', e1, _, e3⟩ := ((C59_fill_method cfg (by decide) (by decide) (by decide) 0 isna (some 1) true m df m_shows).2
    (by rintro n ⟨⟩; decide)).1
  exact ⟨m', e1, by rw [e3]; decide +kernel⟩

example : ∃ m', m.fillMethod cfg isna .bfill none true = some m' ∧ m'.toPandas 0 = some
    ⟨[7, 5, 9, 5], [3, 1, 2], [[10, 22, 30], [11, 22, 31], [0, 22, 32], [0, 23, 0]]⟩ := by
  obtain ⟨m', e1, _, e3⟩ := ((C59_fill_method cfg (by decide) (by decide) (by decide) 0 isna none true m df m_shows).2
    (by simp)).2
  exact ⟨m', e1, by rw [e3]; decide +kernel⟩

example : m.fillMethod cfg isna .ffill (some 0) true = none :=
  ((C59_fill_method cfg (by decide) (by decide) (by decide) 0 isna (some 0) true m df m_shows).1 ⟨0, rfl, by decide⟩).1

-- `rolling(2).sum()` and `expanding(2).max()`
example : ∃ m', m.rolling cfg 0 2 List.sum true = some m' ∧ m'.toPandas 0 = some
    ⟨[7, 5, 9, 5], [3, 1, 2], [[0, 0, 0], [21, 0, 61], [11, 22, 63], [0, 45, 32]]⟩ := by
  obtain ⟨m', e1, _, e3⟩ := (C59_windows cfg (by decide) (by decide) (by decide) 0 2 List.sum true m df m_shows).1
  exact ⟨m', e1, by rw [e3]; decide +kernel⟩

example : ∃ m', m.expanding cfg 0 2 (fun c => c.foldl max 0) true = some m' ∧ m'.toPandas 0 = some
    ⟨[7, 5, 9, 5], [3, 1, 2], [[0, 0, 0], [11, 0, 31], [11, 22, 32], [11, 23, 32]]⟩ := by
  obtain ⟨m', e1, _, e3⟩ := (C59_windows cfg (by decide) (by decide) (by decide) 0 2 (fun c => c.foldl max 0) true m df m_shows).2
  exact ⟨m', e1, by rw [e3]; decide +kernel⟩

/-- `rolling(window, on=key).sum()`: the sum of the cells above a cell whose key is at most 12 smaller -/
def near (k c : List Int) : List Int :=
  c.mapIdx fun i _ => (((k.zip c).take (i + 1)).filter fun p => decide ((k[i]?.getD 0) - p.1 ≤ 12)).foldl (fun s p => s + p.2) 0

example : ∃ m', n.rollingOn cfg 1 near = some m' ∧ m'.toPandas 0 = some
    ⟨[7, 5, 9, 5], [3, 1, 2], [[10, 0, 30], [21, 0, 61], [0, 22, 32], [0, 23, 32]]⟩ := by
  have := C59_rolling_on_partial cfg 0 1 near (by simp [near]) n df n_shows (by decide)
  rw [show df.rollingOn 1 near = some ⟨[7, 5, 9, 5], [3, 1, 2], [[10, 0, 30], [21, 0, 61], [0, 22, 32], [0, 23, 32]]⟩ by decide +kernel] at this
  obtain ⟨m', e1, _, e3⟩ := this
  exact ⟨m', e1, e3⟩

example : n.rollingOn cfg 8 near = none := by
  have := C59_rolling_on_partial cfg 0 8 near (by simp [near]) n df n_shows (by decide)
  rw [show df.rollingOn 8 near = none by decide +kernel] at this
  exact this

-- the same frame in two columns of blocks
example : m.rollingOn cfg 1 near = none ∧ (df.rollingOn 1 near).isSome :=
  ⟨C59_rolling_on_raises cfg 1 near m df m_shows ⟨rfl, rfl⟩ (by decide) (by decide), by decide +kernel⟩

end FoldDemo
