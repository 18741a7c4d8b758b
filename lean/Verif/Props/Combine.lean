import Verif.Lemmas.Combine

/-! C90: `update`, `combine_first` and `compare` -/

variable {ι κ α L : Type}

/-- **C90.** `df.update(other, ...)`: `df` is afterwards what pandas makes of it: each cell is updated with the cell of `other` under the same
    labels, whatever the two partitionings; with `errors="raise"` the call fails exactly if some cell has a value in both.
    There is one missing value.
    Missing: an `other` with repeated row labels other than those of `df` (`C90_update_repeats`), where pandas raises; row bands without
    rows as in `C13_nary_partial`. -/
theorem C90_update_partial [DecidableEq L] (cfg : Cfg) (hp : 1 ≤ cfg.nPartitions) (hr : 1 ≤ cfg.minRow) (hc : 1 ≤ cfg.minCol)
    (nan : α) (isna : α → Bool) (hna : ∀ x, isna x = true ↔ x = nan) (args : UpdateArgs α)
    (m other : MFrame L L α) (df o : Frame L L α) (hm : m.Represents df) (ho : other.Represents o)
    (hi : o.index = df.index ∨ o.index.Nodup) (hk : df.columns.Nodup ∧ o.columns.Nodup)
    (hb : (m.colWidths = none ∧ other.colWidths = none) ∨ (0 ∉ m.getRowLens ∧ 0 ∉ other.getRowLens ∧
      ((m.colWidths.isSome ∧ other.colWidths.isSome ∧ df.columns ≠ [] ∧ o.columns ≠ []) ∨ o.index = df.index))) :
    (df.update isna args o = none → m.update cfg nan isna args other = none) ∧
    ∀ r, df.update isna args o = some r →
      ∃ m', m.update cfg nan isna args other = some m' ∧ m'.Represents r ∧ m'.toPandas nan = some r := by
  rw [update_joined isna nan hna args hm.wf hi]
  have key := nAry_joined leftJoin leftJoin_good rfl cfg hp hr hc nan (fun v os => updateCell isna args v os.head?) m other df o hm ho
    (Or.inr hk) (leftJoin_keeps true hi) (leftJoin_keeps false (Or.inr hk.2)) (Or.inl rfl) hi (by
      rcases hb with h | ⟨h1, h2, h⟩
      · exact Or.inl h
      · refine Or.inr ⟨h1, h2, ?_⟩
        rcases h with ⟨g1, g2, g3, g4⟩ | h
        · exact Or.inl ⟨g3, g1, g2, g3, g4⟩
        · exact Or.inr h)
  refine ⟨key.1, fun r h => ?_⟩
  obtain ⟨m', e1, e2⟩ := key.2 r h
  exact ⟨m', e1, e2, e2.toPandas nan⟩

/-- what `update` says, cell by cell -/
theorem C90_update_meaning [DecidableEq ι] [DecidableEq κ] (isna : α → Bool) (args : UpdateArgs α) (df o r : Frame ι κ α)
    (h : df.update isna args o = some r) :
    r.index = df.index ∧ r.columns = df.columns ∧ ∀ x y v, df.cell x y = some v →
      ∃ w, r.cell x y = some w ∧ updateCell isna args v (o.alignedCell df.index df.columns x y) = some w := by
  unfold Frame.update at h
  split at h
  · cases h
  · have hs := Frame.allSome_some h
    refine ⟨(congrArg Frame.index hs).symm, (congrArg Frame.columns hs).symm, ?_⟩
    intro x y v hv
    have hrows := congrArg (fun f : Frame ι κ (Option α) => f.cell x y) hs
    unfold Frame.cell at hv hrows ⊢
    obtain ⟨row, hrow, hv⟩ := Option.bind_eq_some_iff.1 hv
    simp only [List.getElem?_mapIdx, hrow, Option.map_some, Option.bind_some, hv, Frame.mapCells, List.getElem?_map] at hrows
    cases hx : r.rows[x]? with
    | none => rw [hx] at hrows; cases hrows
    | some rr =>
      rw [hx] at hrows
      simp only [Option.map_some, Option.bind_some, List.getElem?_map] at hrows
      cases hy : rr[y]? with
      | none => rw [hy] at hrows; cases hrows
      | some w =>
        rw [hy] at hrows
        simp only [Option.map_some, Option.some.injEq] at hrows
        exact ⟨w, by simp [hy], hrows⟩

/-- **C90.** `a.combine_first(b)`: under the joined labels each cell is that of `a`, or if it is missing there that of `b`, whatever the two
    partitionings.  `P` is pandas' `Index.join(how="outer", sort=...)`.
    Missing: repeated labels, unless they are the same in both; row bands without rows as in `C13_nary_partial`; two series with different
    names (`C90_series_combine_first_names`). -/
theorem C90_combine_first_partial [DecidableEq L] (P : JoinOps L) (hP : P.Good) (hf : P.first = false) (cfg : Cfg) (hp : 1 ≤ cfg.nPartitions)
    (hr : 1 ≤ cfg.minRow) (hc : 1 ≤ cfg.minCol) (nan : α) (isna : α → Bool)
    (m other : MFrame L L α) (a b : Frame L L α) (hm : m.Represents a) (ho : other.Represents b)
    (hi : b.index = a.index ∨ (a.index.Nodup ∧ b.index.Nodup)) (hk : b.columns = a.columns ∨ (a.columns.Nodup ∧ b.columns.Nodup))
    (hb : (m.colWidths = none ∧ other.colWidths = none) ∨ (0 ∉ m.getRowLens ∧ 0 ∉ other.getRowLens ∧
      ((joinedLabels P false a.columns [b.columns] ≠ [] ∧ m.colWidths.isSome ∧ other.colWidths.isSome ∧ a.columns ≠ [] ∧ b.columns ≠ []) ∨
        b.index = a.index))) :
    ∃ m', m.combineFirst P cfg nan isna other = some m' ∧
      m'.Represents (a.combineFirst isna nan (joinedLabels P true a.index [b.index]) (joinedLabels P false a.columns [b.columns]) b) ∧
      m'.toPandas nan =
        some (a.combineFirst isna nan (joinedLabels P true a.index [b.index]) (joinedLabels P false a.columns [b.columns]) b) := by
  have hia : a.index = joinedLabels P true a.index [b.index] ∨ a.index.Nodup := by
    rcases hi with h | h
    · left; rw [h]; simp [joinedLabels, allSame]
    · exact Or.inr h.1
  have hib : b.index = joinedLabels P true a.index [b.index] ∨ b.index.Nodup := by
    rcases hi with h | h
    · left; rw [h]; simp [joinedLabels, allSame]
    · exact Or.inr h.2
  have key := nAry_joined P hP hf cfg hp hr hc nan (fun v os => some (firstPresent isna nan v os)) m other a b hm ho hk rfl rfl hia hib hb
  rw [cellwiseBlock_total] at key
  have hs : (joinedCells nan (fun v os => some (firstPresent isna nan v os)) (joinedLabels P true a.index [b.index])
      (joinedLabels P false a.columns [b.columns]) a b).allSome =
      some (a.combineFirst isna nan (joinedLabels P true a.index [b.index]) (joinedLabels P false a.columns [b.columns]) b) := by
    rw [← Frame.allSome_mapCells (a.combineFirst isna nan _ _ b)]
    congr 1
    unfold joinedCells Frame.combineFirst Frame.mapCells
    simp only [List.map_map, Function.comp_def, firstPresent, List.head?_cons, Option.getD_some]
  obtain ⟨m', e1, e2⟩ := key.2 _ hs
  exact ⟨m', e1, e2, e2.toPandas nan⟩

/-- what `combine_first` says: a value of `a` stays, and one of `b` is there if `a` has none under its labels -/
theorem C90_combine_first_meaning [DecidableEq L] (isna : α → Bool) (nan : α) (hna : isna nan = true) (J K : List L) (a b : Frame L L α)
    (x y : Nat) (hx : x < J.length) (hy : y < K.length) :
    (∀ v, a.alignedCell J K x y = some v → isna v = false → (a.combineFirst isna nan J K b).cell x y = some v) ∧
    ((∀ v, a.alignedCell J K x y = some v → isna v = true) →
      (a.combineFirst isna nan J K b).cell x y = some ((b.alignedCell J K x y).getD nan)) := by
  have : (a.combineFirst isna nan J K b).cell x y = some (if isna ((a.alignedCell J K x y).getD nan) then (b.alignedCell J K x y).getD nan
      else (a.alignedCell J K x y).getD nan) := by
    unfold Frame.combineFirst Frame.cell
    simp [List.getElem?_map, List.getElem?_range hx, List.getElem?_range hy]
  rw [this]
  constructor
  · intro v hv hn
    simp [hv, hn]
  · intro h
    cases hv : a.alignedCell J K x y with
    | none => simp [hna]
    | some v => simp [h v hv]

/-- **C90.** `a.compare(b, ...)` is pandas' result, or raises as pandas does, if the blocks of `a` divide only its rows.
    Missing: several block columns, where the call always raises (`C90_compare_wide_raises`). -/
theorem C90_compare_partial [DecidableEq ι] [DecidableEq κ] (cfg : Cfg) (hmr : 1 ≤ cfg.minRow) (same : α → α → Bool) (nan : α)
    (args : CompareArgs) (m other : MFrame ι κ α) (a b : Frame ι κ α) (hm : m.Represents a) (ho : other.Represents b) (hb : 0 < b.ncols)
    (hw : gridWidth m.parts = 1) :
    (a.compareWith same nan args b = none → m.compare cfg same nan args other = none) ∧
    ∀ c, a.compareWith same nan args b = some c →
      ∃ m', m.compare cfg same nan args other = some m' ∧ m'.Represents c ∧ ∀ nan', m'.toPandas nan' = some c := by
  refine ⟨(compare_one_band cfg hmr same nan args hm ho hb hw).1, fun c h => ?_⟩
  obtain ⟨m', e1, e2⟩ := (compare_one_band cfg hmr same nan args hm ho hb hw).2 c h
  exact ⟨m', e1, e2, fun nan' => e2.toPandas nan'⟩

/-- **C90, violated.** With two or more block columns `compare` raises for every frame with the same columns, though pandas has a result:
    each block column is compared with all of the other frame, and their columns differ. -/
theorem C90_compare_wide_raises [DecidableEq ι] [DecidableEq κ] (cfg : Cfg) (same : α → α → Bool) (nan : α)
    (args : CompareArgs) (m other : MFrame ι κ α) (a b : Frame ι κ α) (hm : m.Represents a) (ho : other.Represents b) (hb : 0 < b.ncols)
    (hi : b.index = a.index) (hcols : b.columns = a.columns) (hw : 2 ≤ gridWidth m.parts) :
    m.compare cfg same nan args other = none ∧ (a.compareWith same nan args b).isSome := by
  refine ⟨compare_two_bands cfg same nan args hm ho hb hcols hw, ?_⟩
  unfold Frame.compareWith
  rw [if_neg (by simp [hi, hcols])]
  dsimp only
  split <;> rfl

namespace CombineDemo

def cfg : Cfg := ⟨4, 32, 32⟩

/-- missing is 0 -/
def isna (x : Nat) : Bool := x == 0

def a : Frame Nat Nat Nat := ⟨[3, 1, 1], [10, 11], [[1, 0], [2, 5], [0, 6]]⟩
def b : Frame Nat Nat Nat := ⟨[1, 7], [11, 12], [[50, 60], [70, 80]]⟩
def ma : MFrame Nat Nat Nat := { parts := a.cut [1, 2] [1, 1], index := none, columns := none, rowLens := none, colWidths := none }
def mb : MFrame Nat Nat Nat := { parts := b.cut [2] [2], index := some [1, 7], columns := none, rowLens := none, colWidths := none }

theorem a_ok : ma.Represents a :=
  ⟨⟨by decide, by decide⟩, ⟨[1, 2], [1, 1], ⟨by decide, by decide, by decide, by decide⟩, rfl, Or.inl rfl, Or.inl rfl⟩,
    Or.inl rfl, Or.inl rfl⟩
theorem b_ok : mb.Represents b :=
  ⟨⟨by decide, by decide⟩, ⟨[2], [2], ⟨by decide, by decide, by decide, by decide⟩, rfl, Or.inl rfl, Or.inl rfl⟩,
    Or.inr rfl, Or.inl rfl⟩

/-- a series with rows 1 and 2 -/
def ser (name : Nat) (vs : List Nat) : MFrame Nat Nat Nat :=
  { parts := (Frame.mk [1, 2] [name] (vs.map fun v => [v])).cut [2] [1], index := none, columns := none, rowLens := none, colWidths := none }

/-- the rows of the frame are not sorted and repeat a label; only the column 11 and the rows labelled 1 are updated -/
example : a.update isna ⟨true, none, false⟩ b = some ⟨[3, 1, 1], [10, 11], [[1, 0], [2, 50], [0, 50]]⟩ := by decide +kernel

example : ∃ m', ma.update cfg 0 isna ⟨true, none, false⟩ mb = some m' ∧
    m'.toPandas 0 = some ⟨[3, 1, 1], [10, 11], [[1, 0], [2, 50], [0, 50]]⟩ :=
  let ⟨m', h1, _, h2⟩ := (C90_update_partial cfg (by decide) (by decide) (by decide) 0 isna (by simp [isna]) ⟨true, none, false⟩ ma mb a b a_ok b_ok
    (Or.inr (by decide)) ⟨by decide, by decide⟩ (Or.inl ⟨rfl, rfl⟩)).2 _ (by decide +kernel)
  ⟨m', h1, h2⟩

/-- with `errors="raise"` the same call fails -/
example : ma.update cfg 0 isna ⟨true, none, true⟩ mb = none :=
  (C90_update_partial cfg (by decide) (by decide) (by decide) 0 isna (by simp [isna]) ⟨true, none, true⟩ ma mb a b a_ok b_ok
    (Or.inr (by decide)) ⟨by decide, by decide⟩ (Or.inl ⟨rfl, rfl⟩)).1 (by decide +kernel)

/-- **C90, violated.** An `other` with a repeated row label multiplies the rows of the frame updated in place; pandas raises. -/
theorem C90_update_repeats :
    let f : Frame Nat Nat Nat := ⟨[1, 2], [10], [[5], [6]]⟩
    let g : Frame Nat Nat Nat := ⟨[1, 1], [10], [[7], [8]]⟩
    let m : MFrame Nat Nat Nat := { parts := f.cut [2] [1], index := none, columns := none, rowLens := none, colWidths := none }
    let o : MFrame Nat Nat Nat := { parts := g.cut [2] [1], index := none, columns := none, rowLens := none, colWidths := none }
    f.update isna ⟨true, none, false⟩ g = none ∧
    (m.update cfg 0 isna ⟨true, none, false⟩ o).bind (·.toPandas 0) = some ⟨[1, 1, 2], [10], [[7], [8], [6]]⟩ := by decide +kernel

/-- **C90, violated.** `s.update(t)` with a series of another name changes nothing; with the same name it does.  pandas ignores names. -/
theorem C90_series_update_names :
    ((ser 10 [5, 6]).seriesUpdate cfg 0 isna (ser 11 [7, 8])).bind (·.toPandas 0) = some ⟨[1, 2], [10], [[5], [6]]⟩ ∧
    ((ser 10 [5, 6]).seriesUpdate cfg 0 isna (ser 10 [7, 8])).bind (·.toPandas 0) = some ⟨[1, 2], [10], [[7], [8]]⟩ := by decide +kernel

open C11Example in
/-- **C90, violated.** `s.combine_first(t)` of two series with different names has two columns. -/
theorem C90_series_combine_first_names :
    ((ser 10 [5, 0]).combineFirst P C11Example.cfg 0 isna (ser 11 [7, 8])).bind (·.toPandas 0) = some ⟨[1, 2], [10, 11], [[5, 7], [0, 8]]⟩ ∧
    ((ser 10 [5, 0]).combineFirst P C11Example.cfg 0 isna (ser 10 [7, 8])).bind (·.toPandas 0) = some ⟨[1, 2], [10], [[5], [8]]⟩ := by
  decide +kernel

open C11Example in
example : ∃ m', C11Example.ma.combineFirst P C11Example.cfg 0 isna { C11Example.mb with colWidths := none } = some m' ∧
    m'.toPandas 0 = some ⟨[0, 1, 2, 5], [7, 8, 9], [[1, 2, 20], [3, 4, 0], [5, 6, 0], [0, 30, 40]]⟩ :=
  let ⟨m', h1, _, h2⟩ := C90_combine_first_partial P good rfl C11Example.cfg (by decide) (by decide) (by decide) 0 isna C11Example.ma
    { C11Example.mb with colWidths := none } C11Example.a C11Example.b C11Example.a_ok
    ⟨⟨by decide, by decide⟩, ⟨[2], [2], ⟨by decide, by decide, by decide, by decide⟩, rfl, Or.inr rfl, Or.inl rfl⟩, Or.inr rfl, Or.inr rfl⟩
    (Or.inr ⟨by decide, by decide⟩) (Or.inr ⟨by decide, by decide⟩) (Or.inl ⟨rfl, rfl⟩)
  ⟨m', h1, h2.trans (by decide +kernel)⟩

def c : Frame Nat Nat Nat := ⟨[3, 1, 1], [10, 11], [[1, 9], [2, 5], [4, 6]]⟩
def ma1 : MFrame Nat Nat Nat := { parts := a.cut [1, 2] [2], index := none, columns := none, rowLens := none, colWidths := none }
def mc : MFrame Nat Nat Nat := { parts := c.cut [2, 1] [1, 1], index := none, columns := none, rowLens := none, colWidths := none }
theorem a1_ok : ma1.Represents a :=
  ⟨⟨by decide, by decide⟩, ⟨[1, 2], [2], ⟨by decide, by decide, by decide, by decide⟩, rfl, Or.inl rfl, Or.inl rfl⟩,
    Or.inl rfl, Or.inl rfl⟩
theorem c_ok : mc.Represents c :=
  ⟨⟨by decide, by decide⟩, ⟨[2, 1], [1, 1], ⟨by decide, by decide, by decide, by decide⟩, rfl, Or.inl rfl, Or.inl rfl⟩,
    Or.inl rfl, Or.inl rfl⟩

/-- two of the three rows differ, in different columns -/
example : a.compareWith (· == ·) 0 ⟨true, false, false⟩ c = some ⟨[(3, none), (1, none)],
    [(10, some .self), (10, some .other), (11, some .self), (11, some .other)], [[0, 0, 0, 9], [0, 4, 0, 0]]⟩ := by decide +kernel

example : ∃ m', ma1.compare cfg (· == ·) 0 ⟨true, false, false⟩ mc = some m' :=
  let ⟨m', h, _⟩ := (C90_compare_partial cfg (by decide) (· == ·) 0 ⟨true, false, false⟩ ma1 mc a c a1_ok c_ok (by decide) rfl).2 _ rfl
  ⟨m', h⟩

example : ma.compare cfg (· == ·) 0 ⟨true, false, false⟩ mc = none :=
  (C90_compare_wide_raises cfg (· == ·) 0 ⟨true, false, false⟩ ma mc a c a_ok c_ok (by decide) rfl rfl (by decide)).1

/-- **C90, violated.** `s.compare(t)` of two series with different names raises: their frames have different columns.  pandas ignores names. -/
theorem C90_series_compare_names :
    (ser 10 [5, 6]).compare cfg (· == ·) 0 ⟨true, false, false⟩ (ser 11 [5, 7]) = none ∧
    ((ser 10 [5, 6]).compare cfg (· == ·) 0 ⟨true, false, false⟩ (ser 10 [5, 7])).bind (·.toPandas 0) =
      some ⟨[(2, none)], [(10, some .self), (10, some .other)], [[6, 7]]⟩ := by decide +kernel

end CombineDemo
