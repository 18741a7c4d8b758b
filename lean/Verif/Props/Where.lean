import Verif.Lemmas.Where
import Verif.Model.Mask

variable {ι κ α L : Type}

/-- **C61.** `df.where(cond, w)`: every cell stays where the condition under its labels holds and is replaced by `w` elsewhere,
    whatever the two partitionings.  `P` is pandas' `Index.join(how="left", sort=True)`.
    Missing: if the labels differ, those of `df` must be sorted (`C61_where_reorders`) and no label may repeat; row bands without rows
    as in `C13_nary_partial`. -/
theorem C61_where_scalar_partial [DecidableEq L] (le : L → L → Bool) (P : JoinOps L) (hP : P.Good) (hm : P.merge = fun l _ => sortBy le l)
    (cfg : Cfg) (hp : 1 ≤ cfg.nPartitions) (hr : 1 ≤ cfg.minRow) (hc : 1 ≤ cfg.minCol) (nan w : α) (truth : α → Bool) (ht : truth nan = false)
    (m cond : MFrame L L α) (df c : Frame L L α) (h : m.Represents df) (hcond : cond.Represents c)
    (hi : c.index = df.index ∨ (df.index.Pairwise (le · ·) ∧ df.index.Nodup ∧ c.index.Nodup))
    (hk : c.columns = df.columns ∨ (df.columns.Pairwise (le · ·) ∧ df.columns.Nodup ∧ c.columns.Nodup))
    (hb : (m.colWidths = none ∧ cond.colWidths = none) ∨ (0 ∉ m.getRowLens ∧ 0 ∉ cond.getRowLens ∧ c.index = df.index)) :
    ∃ m', m.whereScalar P cfg nan truth cond w = some m' ∧ m'.Represents (df.whereBy truth c fun _ _ => w) ∧
      m'.toPandas nan = some (df.whereBy truth c fun _ _ => w) := by
  have hi' : c.index = df.index ∨ c.index.Nodup := hi.imp id (·.2.2)
  have hk' : c.columns = df.columns ∨ c.columns.Nodup := hk.imp id (·.2.2)
  have hj : ∀ axis0 (l r : List L), (r = l ∨ (l.Pairwise (le · ·) ∧ l.Nodup ∧ r.Nodup)) → Joinable { P with first := false } axis0 l [r] := by
    intro axis0 l r h
    rcases h with rfl | ⟨_, h1, h2⟩
    · exact Or.inl (by simp)
    · exact Or.inr (Or.inl (by simp [h1, h2]))
  obtain ⟨m', e1, e2⟩ := nAry_aligned { P with first := false } hP cfg hp hr hc nan (whereScalarCell truth w) m df [(cond, c)] (by simp)
    (by
      simp only [List.mem_cons, List.not_mem_nil, or_false]
      rintro e (rfl | rfl)
      · exact h
      · exact hcond)
    (hj true _ _ hi) (fun h => nomatch h) (hj false _ _ hk)
    (by
      rcases hb with ⟨h1, h2⟩ | ⟨h1, h2, h3⟩
      · left; simp [h1, h2]
      · right; simp [h1, h2, h3])
    (sortedJoin_labels (P := { P with first := false }) hm true hi) (sortedJoin_labels (P := { P with first := false }) hm false hk)
    (by simp [hi', hk'])
  have : df.whereBy truth c (fun _ _ => w) = ⟨df.index, df.columns, df.rows.mapIdx fun x row => row.mapIdx fun y v =>
        whereScalarCell truth w v ([(cond, c)].map fun e => (e.2.alignedCell df.index df.columns x y).getD nan)⟩ := by
    unfold Frame.whereBy
    congr 2
    funext x row
    congr 1
    funext y v
    simp only [List.map_cons, List.map_nil, whereScalarCell]
    cases c.alignedCell df.index df.columns x y with
    | none => simp [ht]
    | some b => simp
  rw [← this] at e2
  exact ⟨m', e1, e2, e2.toPandas nan⟩

/-- **C61.** `df.where(cond, other)` with a frame `other`: elsewhere the cell of `other` under the same labels, missing if there is
    none.  The labels of `df` stay in their order, sorted or not.
    Missing: repeated row labels of `df` if only one of the others has the same labels, and in other blocks
    (`C61_where_repeated_rows_wrong`); row bands without rows as in `C13_nary_partial`. -/
theorem C61_where_frame_partial [DecidableEq L] (P : JoinOps L) (hP : P.Good)
    (cfg : Cfg) (hp : 1 ≤ cfg.nPartitions) (hr : 1 ≤ cfg.minRow) (hc : 1 ≤ cfg.minCol) (nan : α) (truth : α → Bool) (ht : truth nan = false)
    (m cond other : MFrame L L α) (df c o : Frame L L α) (h : m.Represents df) (hcond : cond.Represents c) (hother : other.Represents o)
    (hi : (c.index = df.index ∨ c.index.Nodup) ∧ (o.index = df.index ∨ o.index.Nodup))
    (hd : df.index.Nodup ∨ (c.index = df.index ∧ o.index = df.index) ∨
      ((c.index = df.index → cond.getRowLens = m.getRowLens) ∧ (o.index = df.index → other.getRowLens = m.getRowLens)))
    (hk : (c.columns = df.columns ∨ c.columns.Nodup) ∧ (o.columns = df.columns ∨ o.columns.Nodup))
    (hb : (m.colWidths = none ∧ cond.colWidths = none ∧ other.colWidths = none) ∨
      (0 ∉ m.getRowLens ∧ 0 ∉ cond.getRowLens ∧ 0 ∉ other.getRowLens ∧ c.index = df.index ∧ o.index = df.index)) :
    ∃ m', m.whereFrame P cfg nan truth cond other = some m' ∧
      m'.Represents (df.whereBy truth c fun x y => (o.alignedCell df.index df.columns x y).getD nan) ∧
      m'.toPandas nan = some (df.whereBy truth c fun x y => (o.alignedCell df.index df.columns x y).getD nan) := by
  obtain ⟨m', e1, e2⟩ := nAry_aligned { P with first := true } hP cfg hp hr hc nan (whereFrameCell truth) m df [(cond, c), (other, o)] (by simp)
    (by
      simp only [List.mem_cons, List.not_mem_nil, or_false]
      rintro e (rfl | rfl | rfl)
      · exact h
      · exact hcond
      · exact hother)
    (Or.inr (Or.inr (Or.inr ⟨rfl, by simp [hi.1, hi.2]⟩))) (fun _ => by simpa using hd) (Or.inr (Or.inr (Or.inr ⟨rfl, by simp [hk.1, hk.2]⟩)))
    (by
      rcases hb with ⟨h1, h2, h3⟩ | ⟨h1, h2, h3, h4, h5⟩
      · left; simp [h1, h2, h3]
      · right; simp [h1, h2, h3, h4, h5])
    (by unfold joinedLabels; rw [if_pos (by simp)]) (by unfold joinedLabels; rw [if_pos (by simp)]) (by simp [hi.1, hi.2, hk.1, hk.2])
  have : df.whereBy truth c (fun x y => (o.alignedCell df.index df.columns x y).getD nan) =
      ⟨df.index, df.columns, df.rows.mapIdx fun x row => row.mapIdx fun y v => whereFrameCell truth v
        ([(cond, c), (other, o)].map fun e => (e.2.alignedCell df.index df.columns x y).getD nan)⟩ := by
    unfold Frame.whereBy
    congr 2
    funext x row
    congr 1
    funext y v
    simp only [List.map_cons, List.map_nil, whereFrameCell]
    cases c.alignedCell df.index df.columns x y with
    | none => simp [ht]
    | some b => simp
  rw [← this] at e2
  exact ⟨m', e1, e2, e2.toPandas nan⟩

/-- **C61** fails for `where` with a scalar when the labels differ and those of `df` are not sorted: the rows come out sorted.
    `df` has the rows 2, 1; the condition the rows 1, 2 (0 is false, 1 is true). -/
theorem C61_where_reorders :
    let df : Frame Nat Nat Int := ⟨[2, 1], [7], [[20], [10]]⟩
    let c : Frame Nat Nat Int := ⟨[1, 2], [7], [[1], [0]]⟩
    let m : MFrame Nat Nat Int := ⟨df.cut [2] [1], none, none, none, none⟩
    let cond : MFrame Nat Nat Int := ⟨c.cut [2] [1], none, none, none, none⟩
    df.whereBy (· == 1) c (fun _ _ => -1) = ⟨[2, 1], [7], [[-1], [10]]⟩ ∧
    ((m.whereScalar (leftJoinSorted fun a b => decide (a ≤ b)) ⟨4, 32, 32⟩ 0 (· == 1) cond (-1)).bind (·.toPandas 0)) =
      some ⟨[1, 2], [7], [[10], [-1]]⟩ := by
  decide +kernel

/-- **C61** fails for `where` with a frame if row labels of `df` repeat, one operand has these labels in other blocks and the other
    has other labels: the labels of the first are looked up one by one although nothing has to be reordered, and each lookup of a
    repeated label gives all its rows. -/
theorem C61_where_repeated_rows_wrong :
    let df : Frame Nat Nat Int := ⟨[7, 5, 7], [1], [[10], [20], [30]]⟩
    let c : Frame Nat Nat Int := ⟨[7, 5, 7], [1], [[1], [0], [0]]⟩
    let o : Frame Nat Nat Int := ⟨[5, 7], [1], [[-5], [-7]]⟩
    let m : MFrame Nat Nat Int := ⟨df.cut [2, 1] [1], none, none, none, none⟩
    let cond : MFrame Nat Nat Int := ⟨c.cut [3] [1], none, none, none, none⟩
    let other : MFrame Nat Nat Int := ⟨o.cut [2] [1], none, none, none, none⟩
    df.whereBy (· == 1) c (fun x y => (o.alignedCell df.index df.columns x y).getD 0) = ⟨[7, 5, 7], [1], [[10], [-5], [-7]]⟩ ∧
    m.whereFrame (leftJoinSorted fun a b => decide (a ≤ b)) ⟨4, 32, 32⟩ 0 (· == 1) cond other = none := by
  decide +kernel

/-- **C61.** `df.isin(values)` with a list, a dictionary of lists, a Series or a frame: pandas' answer for every cell.
    Values with repeated labels raise.
    Missing: the labels the values refer to must have reached the blocks (`C61_isin_stale`). -/
theorem C61_isin_partial [DecidableEq ι] [DecidableEq κ] (cfg : Cfg) (dyn : Bool) (cpu : Nat) (nan : Bool) (eqv : α → α → Bool) (a : IsinArg ι κ α)
    (m : LFrame ι κ α) (df : Frame ι κ α) (h : m.Shows df)
    (hs : (m.defIndex = false ∧ m.defColumns = false) ∨ (∃ vals, a = .list vals) ∨ ((∃ d, a = .dict d) ∧ m.defColumns = false) ∨
      ((∃ s, a = .series s) ∧ m.defIndex = false)) :
    match df.isin eqv a with
    | none => m.isin cfg dyn cpu eqv a = none
    | some r => ∃ m', m.isin cfg dyn cpu eqv a = some m' ∧ m'.Shows r ∧ m'.toPandas nan = some r := by
  unfold Frame.isin
  cases hok : a.ok with
  | false =>
    simp only [Bool.false_eq_true, ↓reduceIte]
    unfold LFrame.isin
    rw [hok]
    rfl
  | true =>
    simp only [↓reduceIte]
    obtain ⟨m', e1, e2⟩ := isin_shows cfg dyn cpu eqv a h hok hs
    exact ⟨m', e1, e2, (e2.observed nan).1⟩

/-- **C61** fails for `isin` with a dictionary when new column names are pending: after `df.columns = ["b"]`,
    `df.isin({"b": [1]})` finds nothing. -/
theorem C61_isin_stale :
    let df : Frame Nat String Int := ⟨[0, 1], ["b"], [[1], [2]]⟩
    let m : LFrame Nat String Int :=
      ⟨⟨(⟨[0, 1], ["a"], [[1], [2]]⟩ : Frame Nat String Int).cut [2] [1], some [0, 1], some ["b"], none, none⟩, false, true⟩
    (df.isin (· == ·) (.dict [("b", [1])])).map (·.rows) = some [[true], [false]] ∧
    ((m.isin ⟨4, 32, 32⟩ false 4 (· == ·) (.dict [("b", [1])])).bind (·.toPandas false)).map (·.rows) = some [[false], [false]] := by
  decide +kernel

theorem clip_scalar_line (lt : α → α → Bool) (isna : α → Bool) {lo hi : Bound α} (h1 : lo.isList = false) (h2 : hi.isList = false)
    (c : List α) : clipLine lt isna lo hi c = c.map (clipCell lt (lo.at isna 0) (hi.at isna 0)) := by
  have : ∀ (b : Bound α) (i : Nat), b.isList = false → b.at isna i = b.at isna 0 := by
    intro b i hb
    cases b with
    | absent => rfl
    | scalar v => rfl
    | list vs => simp [Bound.isList] at hb
  unfold clipLine
  apply List.ext_getElem?
  intro i
  simp [this lo i h1, this hi i h2]

/-- **C61.** `df.clip(lower, upper, axis=...)` with scalars and lists as bounds: pandas' answer, an error included.
    Missing: a list with a missing value in it (`C61_clip_drops_bound`), and a list without an axis (`C61_clip_no_axis`). -/
theorem C61_clip_partial [DecidableEq ι] [DecidableEq κ] (cfg : Cfg) (hp : 1 ≤ cfg.nPartitions) (hmr : 1 ≤ cfg.minRow) (hmc : 1 ≤ cfg.minCol)
    (dyn : Bool) (cpu : Nat) (nan : α) (lt : α → α → Bool) (isna : α → Bool) (lower upper : Bound α) (axis : Option Bool)
    (hax : axis = none → lower.isList = false ∧ upper.isList = false)
    (hlo : ∀ vs, lower = .list vs → ∀ v ∈ vs, isna v = false) (hhi : ∀ vs, upper = .list vs → ∀ v ∈ vs, isna v = false)
    (m : LFrame ι κ α) (df : Frame ι κ α) (h : m.Shows df) :
    match df.clip lt isna lower upper (axis.getD false) with
    | none => m.clip cfg dyn cpu lt isna lower upper axis = none
    | some r => ∃ m', m.clip cfg dyn cpu lt isna lower upper axis = some m' ∧ m'.Shows r ∧ m'.toPandas nan = some r := by
  generalize hax0 : axis.getD false = axis0
  have hl := fun i => Bound.clean_eq (isna := isna) hlo i
  have hh := fun i => Bound.clean_eq (isna := isna) hhi i
  have hline := clipLine_clean lt isna lower upper hlo hhi
  have hclip : ∀ b : Frame ι κ α, b.clip lt isna (lower.clean isna) (upper.clean isna) axis0 = b.clip lt isna lower upper axis0 := by
    intro b
    unfold Frame.clip
    simp only [(hl 0).2.2, (hh 0).2.2, hline]
  have hsome : ∀ b : Frame ι κ α, (lower.fits (if axis0 then b.nrows else b.ncols) && upper.fits (if axis0 then b.nrows else b.ncols)) = true →
      b.clip lt isna lower upper axis0 =
        some (b.along axis0 (clipLine lt isna (clipBounds lt isna lower upper).1 (clipBounds lt isna lower upper).2)) := by
    intro b hb
    unfold Frame.clip
    exact if_pos hb
  have hnone : (lower.fits (if axis0 then df.nrows else df.ncols) && upper.fits (if axis0 then df.nrows else df.ncols)) = false →
      df.clip lt isna lower upper axis0 = none := by
    intro hb
    unfold Frame.clip
    exact if_neg (by rw [hb]; simp)
  have hn : (if axis0 then m.getIndex.length else m.getColumns.length) = (if axis0 then df.nrows else df.ncols) := by
    rw [h.getIndex, h.getColumns]; rfl
  unfold LFrame.clip
  simp only [(hl 0).2.1, (hh 0).2.1, (hl 0).2.2, (hh 0).2.2, hax0, hclip, hn]
  cases hlist : lower.isList || upper.isList with
  | true =>
    have hnn : axis ≠ none := by
      intro e
      have := hax e
      rw [this.1, this.2] at hlist
      simp at hlist
    rw [if_neg hnn]
    simp only [↓reduceIte]
    cases hfit : lower.fits (if axis0 then df.nrows else df.ncols) && upper.fits (if axis0 then df.nrows else df.ncols) with
    | false => simp [hnone hfit]
    | true =>
      rw [hsome df hfit]
      simp only [↓reduceIte]
      suffices ∃ m', (m.fold cfg axis0 fun b => b.clip lt isna lower upper axis0) = some m' ∧
          m'.Shows (df.along axis0 (clipLine lt isna (clipBounds lt isna lower upper).1 (clipBounds lt isna lower upper).2)) by
        obtain ⟨m', e1, e2⟩ := this
        exact ⟨m', e1, e2, (e2.observed nan).1⟩
      have hf := clipLine_length lt isna (clipBounds lt isna lower upper).1 (clipBounds lt isna lower upper).2
      cases axis0
      · exact fold_lines_shows cfg hp hmc h (F := fun b => b.mapRows id _) (rowLocal_mapRows id _ fun cs r e => by rw [hf, e]; rfl)
          (fun a b => Frame.mapRows_ilocRows _ _ _ _ _) (fun a b => hsome (df.ilocRows a b) hfit) rfl rfl
      · exact fold_rows_shows cfg hp hmr h (F := fun b => b.mapColumns id _) (columnLocal_mapColumns id _ fun cs r e => by rw [hf, e]; rfl)
          (fun a b => h.wf.mapColumns_ilocCols _ _ (fun cs r e => by rw [hf, e]; rfl) _ _) (fun a b => hsome (df.ilocCols a b) hfit) rfl rfl
  | false =>
    have hlist' := Bool.or_eq_false_iff.1 hlist
    have hfits : ∀ (b : Bound α) (n : Nat), b.isList = false → b.fits n = true := by
      intro b n hb
      cases b with
      | absent => rfl
      | scalar v => rfl
      | list vs => simp [Bound.isList] at hb
    rw [hsome df (by rw [hfits _ _ hlist'.1, hfits _ _ hlist'.2]; rfl)]
    simp only [↓reduceIte, Bool.false_eq_true]
    obtain ⟨m', e1, e2⟩ := mapCells_shows cfg dyn cpu (clipCell lt ((clipBounds lt isna (lower.clean isna) (upper.clean isna)).1.at isna 0)
      ((clipBounds lt isna (lower.clean isna) (upper.clean isna)).2.at isna 0)) h
    have hb := clipBounds_at lt isna lower upper hlo hhi 0
    have e : df.along axis0 (clipLine lt isna (clipBounds lt isna lower upper).1 (clipBounds lt isna lower upper).2) =
        df.mapCells (clipCell lt ((clipBounds lt isna (lower.clean isna) (upper.clean isna)).1.at isna 0)
          ((clipBounds lt isna (lower.clean isna) (upper.clean isna)).2.at isna 0)) := by
      rw [hb.1, hb.2]
      have hl2 := clipBounds_isList lt isna hlist'.1 hlist'.2
      have : clipLine lt isna (clipBounds lt isna lower upper).1 (clipBounds lt isna lower upper).2 =
          fun c => c.map (clipCell lt ((clipBounds lt isna lower upper).1.at isna 0) ((clipBounds lt isna lower upper).2.at isna 0)) := by
        funext c
        exact clip_scalar_line lt isna hl2.1 hl2.2 c
      rw [this]
      exact along_map h.wf axis0 _
    rw [e]
    exact ⟨m', e1, e2, (e2.observed nan).1⟩

/-- **C61** fails for a list of bounds with a missing value in it: Modin drops the whole list.
    `pd.DataFrame({"a": [1, 5], "b": [1, 5]}).clip(lower=[3, nan], axis=1)`: pandas gives 3 and 5 in the column "a". -/
theorem C61_clip_drops_bound :
    let df : Frame Nat String (Option Int) := ⟨[0, 1], ["a", "b"], [[some 1, some 1], [some 5, some 5]]⟩
    let m : LFrame Nat String (Option Int) := ⟨⟨df.cut [2] [2], none, none, none, none⟩, false, false⟩
    let lt := fun (a b : Option Int) => match a, b with
      | some a, some b => decide (a < b)
      | _, _ => false
    (df.clip lt (·.isNone) (.list [some 3, none]) .absent false).map (·.rows) = some [[some 3, some 1], [some 5, some 5]] ∧
    ((m.clip ⟨4, 32, 32⟩ false 4 lt (·.isNone) (.list [some 3, none]) .absent (some false)).bind (·.toPandas none)).map (·.rows) =
      some [[some 1, some 1], [some 5, some 5]] := by
  decide +kernel

/-- **C61** fails for a list of bounds without an axis, the default, over more than one block: the grid of blocks is transposed.
    pandas clips the columns of a frame with one row and two columns at 3 and 4; Modin, with the columns in two blocks, has
    no such frame to show. -/
theorem C61_clip_no_axis :
    let df : Frame Nat String Int := ⟨[0], ["a", "b"], [[1, 9]]⟩
    let m : LFrame Nat String Int := ⟨⟨df.cut [1] [1, 1], none, none, none, none⟩, false, false⟩
    let lt := fun (a b : Int) => decide (a < b)
    df.clip lt (fun _ => false) (.list [3, 4]) .absent false = some ⟨[0], ["a", "b"], [[3, 9]]⟩ ∧
    ((m.clip ⟨4, 1, 1⟩ false 4 lt (fun _ => false) (.list [3, 4]) .absent (some false)).bind (·.toPandas 0)) =
      some ⟨[0], ["a", "b"], [[3, 9]]⟩ ∧
    ((m.clip ⟨4, 1, 1⟩ false 4 lt (fun _ => false) (.list [3, 4]) .absent none).bind (·.toPandas 0)) ≠
      some ⟨[0], ["a", "b"], [[3, 9]]⟩ := by
  decide +kernel

/-! the hypotheses of the theorems are met: a frame in two row bands, a condition in two column bands -/
namespace C61Example

def le (a b : Nat) : Bool := decide (a ≤ b)
def P : JoinOps Nat := ⟨false, fun l _ => sortBy le l, fun a b => (sortBy le a, labelPositions a (sortBy le a), labelPositions b (sortBy le a))⟩
theorem good : P.Good := by
  have key : ∀ l J : List Nat, IsIndexer l J (labelPositions l J) := by
    intro l J
    unfold labelPositions
    by_cases h : l = J
    · rw [if_pos h, h]; exact isIndexer_same J
    · rw [if_neg h]; exact isIndexer_nodup h
  exact fun a b => ⟨key a _, key b _⟩
def df : Frame Nat Nat Int := ⟨[1, 2], [7, 8], [[10, 20], [30, 40]]⟩
def c : Frame Nat Nat Int := ⟨[2, 3], [8, 7], [[1, 0], [1, 1]]⟩
def m : MFrame Nat Nat Int := ⟨df.cut [1, 1] [2], none, none, none, none⟩
def mc : MFrame Nat Nat Int := ⟨c.cut [2] [1, 1], none, none, none, none⟩
theorem df_ok : m.Represents df :=
  ⟨⟨by decide, by decide⟩, ⟨[1, 1], [2], ⟨by decide, by decide, by decide, by decide⟩, rfl, Or.inl rfl, Or.inl rfl⟩, Or.inl rfl, Or.inl rfl⟩
theorem c_ok : mc.Represents c :=
  ⟨⟨by decide, by decide⟩, ⟨[2], [1, 1], ⟨by decide, by decide, by decide, by decide⟩, rfl, Or.inl rfl, Or.inl rfl⟩, Or.inl rfl, Or.inl rfl⟩

example : ∃ m', m.whereScalar P ⟨4, 32, 32⟩ 0 (· == 1) mc (-1) = some m' ∧ m'.toPandas 0 = some ⟨[1, 2], [7, 8], [[-1, -1], [-1, 40]]⟩ := by
  obtain ⟨m', e1, _, e3⟩ := C61_where_scalar_partial le P good rfl ⟨4, 32, 32⟩ (by decide) (by decide) (by decide) (0 : Int) (-1) (· == 1) rfl m mc df c
    df_ok c_ok (Or.inr (by decide)) (Or.inr (by decide)) (Or.inl ⟨rfl, rfl⟩)
  exact ⟨m', e1, e3⟩

example : ∃ m', m.whereFrame P ⟨4, 32, 32⟩ 0 (· == 1) mc m = some m' :=
  let ⟨m', e, _⟩ := C61_where_frame_partial P good ⟨4, 32, 32⟩ (by decide) (by decide) (by decide) (0 : Int) (· == 1) rfl m mc m df c df
    df_ok c_ok df_ok (by decide) (Or.inl (by decide)) (by decide) (Or.inl ⟨rfl, rfl, rfl⟩)
  ⟨m', e⟩

def lm : LFrame Nat Nat Int := ⟨m, false, false⟩
theorem lm_ok : lm.Shows df := represents_shows df_ok

example := C61_isin_partial ⟨4, 32, 32⟩ false 4 false (· == ·) (.frame c) lm df lm_ok (Or.inl ⟨rfl, rfl⟩)
example := C61_clip_partial ⟨4, 32, 32⟩ (by decide) (by decide) (by decide) false 4 0 (fun a b => decide (a < b)) (fun _ => false)
  (.list [15, 35]) (.scalar 25) (some true) (by simp) (by simp) (by simp) lm df lm_ok
example : (df.clip (fun a b => decide (a < b)) (fun _ => false) (.list [15, 35]) (.scalar 25) true).map (·.rows) = some [[15, 20], [25, 25]] := by
  decide +kernel

end C61Example
