import Verif.Lemmas.Ranks

variable {ι κ α β Q : Type}

/-- **C62.** `df.mode(dropna=...)`: the modes of every column, whatever the division into blocks.
    Missing: with `dropna=False`, rows of the result in which every mode is the missing value are lost
    (`C62_mode_loses_missing`); with `dropna=True` there are none, see `C62_mode`. -/
theorem C62_mode_partial [DecidableEq ι] [DecidableEq κ] [DecidableEq α] (cfg : Cfg) (hp : 1 ≤ cfg.nPartitions) (hmr : 1 ≤ cfg.minRow)
    (hmc : 1 ≤ cfg.minCol) (nan : α) (le : α → α → Bool) (isna : α → Bool) (hnan : isna nan = true) (dropna : Bool)
    (m : LFrame ι κ α) (df : Frame ι κ α) (h : m.Shows df)
    (hrow : ∀ i, i < df.modeRows (modesOf le isna dropna) →
      ∃ c ∈ df.cols, ∃ v, (modesOf le isna dropna c)[i]? = some v ∧ isna v = false) :
    ∃ m', m.mode cfg nan le isna dropna = some m' ∧ m'.Shows (df.mode nan (modesOf le isna dropna)) ∧
      m'.toPandas nan = some (df.mode nan (modesOf le isna dropna)) := by
  have hmd := modesOf_length le isna dropna
  unfold LFrame.mode
  rw [h.getIndex, h.getColumns]
  obtain ⟨m1, e1, s1⟩ := applyFullColumns_shows cfg hp hmr h (F := fun f => f.modePadded nan (modesOf le isna dropna))
    (func := modeBuilder nan (modesOf le isna dropna)) (modePadded_local nan _)
    (fun a b => h.wf.mapColumns_ilocCols _ _ (fun idx c e => by rw [padTo_length, List.length_range, e]) a b)
    (fun a b => modeBuilder_eq (h.wf.ilocCols a b) nan hmd) rfl
  have e1' : m.applyFullColumns cfg (modeBuilder nan (modesOf le isna dropna)) (some (List.range df.index.length)) (some df.columns) = some m1 := e1
  rw [e1', Option.bind_some]
  unfold LFrame.dropnaRowsCompiled
  obtain ⟨m2, e2, s2⟩ := operation_shows s1 fun m1 h1 => filterRows_spec cfg hmc isna (.how .all) none h1 (by intro l e; cases e)
  rw [modePadded_pick h.wf nan isna hnan hmd hrow] at s2
  exact ⟨m2, e2, s2, (s2.observed nan).1⟩

/-- **C62.** `df.mode()` (`dropna=True`): exactly pandas' answer. -/
theorem C62_mode [DecidableEq ι] [DecidableEq κ] [DecidableEq α] (cfg : Cfg) (hp : 1 ≤ cfg.nPartitions) (hmr : 1 ≤ cfg.minRow)
    (hmc : 1 ≤ cfg.minCol) (nan : α) (le : α → α → Bool) (isna : α → Bool) (hnan : isna nan = true)
    (m : LFrame ι κ α) (df : Frame ι κ α) (h : m.Shows df) :
    ∃ m', m.mode cfg nan le isna true = some m' ∧ m'.Shows (df.mode nan (modesOf le isna true)) ∧
      m'.toPandas nan = some (df.mode nan (modesOf le isna true)) := by
  refine C62_mode_partial cfg hp hmr hmc nan le isna hnan true m df h ?_
  intro i hi
  unfold Frame.modeRows at hi
  have := foldr_max_attained (Nat.lt_of_le_of_lt (Nat.zero_le i) hi)
  obtain ⟨c, hc, e⟩ := List.mem_map.1 this
  have hl : i < (modesOf le isna true c).length := by omega
  exact ⟨c, hc, _, List.getElem?_eq_getElem hl, modesOf_notna le isna (List.getElem_mem hl)⟩

/-- **C62** fails for `mode(dropna=False)`: `pd.DataFrame({"a": [nan, nan, 1]}).mode(dropna=False)` is one missing value; Modin drops the
    row again. -/
theorem C62_mode_loses_missing :
    let df : Frame Nat String (Option Int) := ⟨[0, 1, 2], ["a"], [[none], [none], [some 1]]⟩
    let m : LFrame Nat String (Option Int) := ⟨⟨df.cut [3] [1], none, none, none, none⟩, false, false⟩
    let le := fun (a b : Option Int) => match a, b with
      | some a, some b => decide (a ≤ b)
      | none, some _ => false
      | _, none => true
    df.mode none (modesOf le (·.isNone) false) = ⟨[0], ["a"], [[none]]⟩ ∧
    ((m.mode ⟨4, 32, 32⟩ none le (·.isNone) false).bind (·.toPandas none)) = some ⟨[], ["a"], []⟩ := by
  decide +kernel

/-- **C62.** `df.quantile([q, ...])`: for each quantile the quantile of every whole column; a quantile outside of 0 to 1 raises. -/
theorem C62_quantiles_columns [DecidableEq ι] [DecidableEq κ] [DecidableEq Q] (cfg : Cfg) (hp : 1 ≤ cfg.nPartitions) (hmr : 1 ≤ cfg.minRow)
    (nan : β) (valid : Q → Bool) (quant : List α → Q → β) (qs : List Q) (m : LFrame ι κ α) (df : Frame ι κ α) (h : m.Shows df) :
    match df.quantiles0 valid quant qs with
    | none => m.quantiles0 cfg valid quant qs = none
    | some r => ∃ m', m.quantiles0 cfg valid quant qs = some m' ∧ m'.Shows r ∧ m'.toPandas nan = some r := by
  have hE : ∀ b : Frame ι κ α, qs.all valid = true →
      b.quantiles0 valid quant qs = some (b.mapColumns (fun _ => qs) fun c => qs.map (quant c)) := by
    intro b hq
    unfold Frame.quantiles0 Frame.mapColumns
    rw [if_pos hq, Option.some.injEq]
    congr 1
    apply List.ext_getElem (by simp)
    intro i h1 h2
    simp only [List.getElem_map, List.getElem_range]
    have hi : i < qs.length := by simpa using h1
    rw [← List.filterMap_eq_map]
    apply filterMap_congr'
    intro c _
    simp [hi]
  unfold LFrame.quantiles0
  cases hq : qs.all valid with
  | false =>
    unfold Frame.quantiles0
    rw [hq]
    simp
  | true =>
    rw [hE df hq]
    simp only [↓reduceIte]
    have hl : ∀ (idx : List ι) (c : List α), c.length = idx.length → (qs.map (quant c)).length = ((fun _ => qs) idx).length :=
      fun _ _ _ => List.length_map _
    obtain ⟨m', e, s⟩ := applyFullColumns_shows cfg hp hmr h (F := fun f => f.mapColumns (fun _ => qs) fun c => qs.map (quant c))
      (func := fun b => b.quantiles0 valid quant qs) (columnLocal_mapColumns _ _ hl) (fun a b => h.wf.mapColumns_ilocCols _ _ hl a b)
      (fun a b => hE _ hq) rfl
    refine ⟨m', ?_, s, (s.observed nan).1⟩
    rw [h.getColumns]
    exact e

/-- **C62.** `df.quantile([q, ...], axis=1)`: for each quantile the quantile of every whole row. -/
theorem C62_quantiles_rows [DecidableEq ι] [DecidableEq κ] [DecidableEq Q] (cfg : Cfg) (hp : 1 ≤ cfg.nPartitions) (hmc : 1 ≤ cfg.minCol)
    (nan : β) (valid : Q → Bool) (quant : List α → Q → β) (qs : List Q) (m : LFrame ι κ α) (df : Frame ι κ α) (h : m.Shows df) :
    match df.quantiles1 valid quant qs with
    | none => m.quantiles1 cfg valid quant qs = none
    | some r => ∃ m', m.quantiles1 cfg valid quant qs = some m' ∧ m'.Shows r ∧ m'.toPandas nan = some r := by
  have hl : ∀ (cs : List κ) (c : List α), c.length = cs.length → (qs.map (quant c)).length = ((fun _ => qs) cs).length :=
    fun _ _ _ => List.length_map _
  have hT : ∀ b : Frame ι κ α, (b.mapRows (fun _ => qs) fun c => qs.map (quant c)).transpose =
      ⟨qs, b.index, qs.map fun q => b.rows.map fun r => quant r q⟩ := by
    intro b
    unfold Frame.transpose Frame.mapRows Frame.ncols
    simp only
    congr 1
    apply List.ext_getElem (by simp)
    intro i h1 h2
    have hi : i < qs.length := by simpa using h1
    simp only [List.getElem_map, List.getElem_range, List.filterMap_map]
    rw [← List.filterMap_eq_map]
    apply filterMap_congr'
    intro c _
    simp [hi]
  have hE : ∀ b : Frame ι κ α, b.WF → qs.all valid = true →
      (b.quantiles1 valid quant qs).map Frame.transpose = some (b.mapRows (fun _ => qs) fun c => qs.map (quant c)) := by
    intro b hb hq
    have hw : (b.mapRows (fun _ => qs) fun c => qs.map (quant c)).WF := (rowLocal_mapRows _ _ hl).1 b hb
    unfold Frame.quantiles1
    rw [if_pos hq, ← hT b, Option.map_some, transpose_transpose hw]
  unfold LFrame.quantiles1
  cases hq : qs.all valid with
  | false =>
    unfold Frame.quantiles1
    rw [hq]
    simp
  | true =>
    unfold Frame.quantiles1
    rw [hq]
    simp only [↓reduceIte]
    obtain ⟨m', e, s⟩ := applyFullLines_shows cfg hp hmc h (F := fun f => f.mapRows (fun _ => qs) fun c => qs.map (quant c))
      (func := fun b => (b.quantiles1 valid quant qs).map Frame.transpose) (rowLocal_mapRows _ _ hl) (fun a b => Frame.mapRows_ilocRows _ _ _ a b)
      (fun a b => hE _ (h.wf.ilocRows a b) hq) rfl
    obtain ⟨m2, e2, s2⟩ := transpose_shows s
    rw [hT df] at s2
    refine ⟨m2, ?_, s2, (s2.observed nan).1⟩
    rw [h.getIndex]
    have e' : m.applyFullLines cfg (fun b => (b.quantiles1 valid quant qs).map Frame.transpose) (some df.index) (some qs) = some m' := e
    unfold Frame.quantiles1 at e'
    simp only [hq, ↓reduceIte] at e'
    rw [e', Option.bind_some, e2]

theorem rankLine_length (lt : α → α → Bool) (isna : α → Bool) (method : RankMethod) (pct : Bool) (c : List α) :
    (rankLine lt isna method pct c).length = c.length := by
  simp [rankLine]

/-- **C62.** `df.rank(axis, method, numeric_only, ascending, pct)`: every cell has its rank among all cells of its whole column (row). -/
theorem C62_rank [DecidableEq ι] [DecidableEq κ] (cfg : Cfg) (hp : 1 ≤ cfg.nPartitions) (hmr : 1 ≤ cfg.minRow) (hmc : 1 ≤ cfg.minCol)
    (axis0 numericOnly : Bool) (lt : α → α → Bool) (isna : α → Bool) (method : RankMethod) (ascending pct : Bool)
    (m : LFrame ι κ α) (df : Frame ι κ α) (h : m.Shows df) :
    ∃ m', m.rank cfg axis0 numericOnly lt isna method ascending pct = some m' ∧
      m'.Shows (df.along axis0 (rankLine (if ascending then lt else fun x y => lt y x) isna method pct)) ∧
      m'.toPandas none = some (df.along axis0 (rankLine (if ascending then lt else fun x y => lt y x) isna method pct)) := by
  suffices ∃ m', m.rank cfg axis0 numericOnly lt isna method ascending pct = some m' ∧
      m'.Shows (df.along axis0 (rankLine (if ascending then lt else fun x y => lt y x) isna method pct)) by
    obtain ⟨m', e1, e2⟩ := this
    exact ⟨m', e1, e2, (e2.observed none).1⟩
  have hf := rankLine_length (if ascending then lt else fun x y => lt y x) isna method pct
  have hi : m.index = none ∨ m.index = some df.index := h.index.imp And.left id
  have hk : (if !axis0 || numericOnly then none else m.columns) = none ∨ (if !axis0 || numericOnly then none else m.columns) = some df.columns := by
    split
    · exact Or.inl rfl
    · exact h.columns.imp And.left id
  unfold LFrame.rank
  generalize rankLine (if ascending then lt else fun x y => lt y x) isna method pct = g at hf ⊢
  cases axis0
  · exact unsynced_lines_shows cfg hp hmc h (F := fun b => b.mapRows id g) (func := fun b => some (b.mapRows id g)) (rowLocal_mapRows id g fun cs r e => by rw [hf, e]; rfl)
      (fun a b => Frame.mapRows_ilocRows _ _ _ _ _) (fun a b => rfl) rfl hi hk
  · exact unsynced_rows_shows cfg hp hmr h (F := fun b => b.mapColumns id g) (func := fun b => some (b.mapColumns id g))
      (columnLocal_mapColumns id g fun cs r e => by rw [hf, e]; rfl)
      (fun a b => h.wf.mapColumns_ilocCols _ _ (fun cs r e => by rw [hf, e]; rfl) _ _) (fun a b => rfl) rfl hi hk

/-! the hypotheses are met: a frame in two row bands and two column bands, new column labels pending -/
namespace C62Example

def df : Frame Nat String (Option Int) := ⟨[0, 1, 2], ["a", "b"], [[some 3, some 1], [some 3, none], [some 1, some 2]]⟩
def df0 : Frame Nat String (Option Int) := { df with columns := ["x", "y"] }
def m : LFrame Nat String (Option Int) := ⟨⟨df0.cut [2, 1] [1, 1], none, some ["a", "b"], some [2, 1], none⟩, false, true⟩
theorem ok : m.Shows df := by
  refine ⟨⟨by decide, by decide⟩, ⟨df0, [2, 1], [1, 1], ⟨by decide, by decide⟩, rfl, rfl, ⟨by decide, by decide, by decide, by decide⟩, rfl,
    Or.inr rfl, Or.inl rfl, fun _ => rfl, fun e => ?_⟩, Or.inl ⟨rfl, rfl⟩, Or.inr rfl⟩
  simp [m] at e
def le (a b : Option Int) : Bool := match a, b with
  | some a, some b => decide (a ≤ b)
  | none, some _ => false
  | _, none => true
def lt (a b : Option Int) : Bool := match a, b with
  | some a, some b => decide (a < b)
  | _, _ => false

example := C62_mode ⟨4, 32, 32⟩ (by decide) (by decide) (by decide) none le (·.isNone) rfl m df ok
example : df.mode none (modesOf le (·.isNone) true) = ⟨[0, 1], ["a", "b"], [[some 3, some 1], [none, some 2]]⟩ := by decide +kernel
def df2 : Frame Nat String (Option Int) := ⟨[0, 1, 2], ["a", "b"], [[some 3, some 1], [some 3, none], [some 1, none]]⟩
example : ∀ i, i < df2.modeRows (modesOf le (·.isNone) false) →
    ∃ c ∈ df2.cols, ∃ v, (modesOf le (·.isNone) false c)[i]? = some v ∧ v.isNone = false := by decide +kernel
example := C62_rank ⟨4, 32, 32⟩ (by decide) (by decide) (by decide) true false lt (·.isNone) .average true false m df ok
example : (df.along true (rankLine lt (·.isNone) .average false)).rows = [[some (5 / 2), some 1], [some (5 / 2), none], [some 1, some 2]] := by
  decide +kernel
example : rankLine lt (·.isNone) .first false [some 3, none, some 3, some 1] = [some 2, none, some 3, some 1] := by decide +kernel
example : rankLine lt (·.isNone) .dense true [some 3, none, some 3, some 1] = [some 1, none, some 1, some (1 / 2)] := by decide +kernel
/-- with `quant c q` the cell at the position `q` of the sorted column -/
example := C62_quantiles_columns ⟨4, 32, 32⟩ (by decide) (by decide) (none : Option Int) (fun q : Nat => decide (q ≤ 2))
  (fun c q => ((sortBy le c)[q]?).join) [0, 2] m df ok
example := C62_quantiles_rows ⟨4, 32, 32⟩ (by decide) (by decide) (none : Option Int) (fun q : Nat => decide (q ≤ 2))
  (fun c q => ((sortBy le c)[q]?).join) [0, 2] m df ok
example : df.quantiles1 (fun q : Nat => decide (q ≤ 2)) (fun c q => ((sortBy le c)[q]?).join) [0, 1] =
    some ⟨[0, 1], [0, 1, 2], [[some 1, some 3, some 1], [some 3, none, some 2]]⟩ := by decide +kernel

end C62Example
