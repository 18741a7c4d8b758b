import Verif.Model.Relabel
import Verif.Lemmas.FullAxis
import Verif.Lemmas.Labels
import Verif.Lemmas.NAry
import Verif.Lemmas.Take
import Verif.Lemmas.Writers
/-
Lemmas about `Verif/Model/Relabel.lean`.
-/

variable {ι κ α : Type}

/-! ### positions of labels -/

theorem filter_range_one {n i : Nat} (q : Nat → Bool) (hi : i < n) (hq : q i = true) (hu : ∀ j < n, q j = true → j = i) :
    (List.range n).filter q = [i] := by
  apply sorted_perm_eq
  · exact (List.pairwise_le_range).filter _
  · simp
  · rw [List.perm_ext_iff_of_nodup (List.nodup_range.filter _) (by simp)]
    intro a
    simp only [List.mem_filter, List.mem_range, List.mem_singleton]
    constructor
    · exact fun h => hu a h.1 h.2
    · rintro rfl; exact ⟨hi, hq⟩

/-- positions of a label -/
def positionsOf [DecidableEq κ] (labels : List κ) (x : κ) : List Nat :=
  (List.range labels.length).filter fun p => labels[p]? == some x

theorem mem_positionsOf [DecidableEq κ] {labels : List κ} {x : κ} {p : Nat} : p ∈ positionsOf labels x ↔ labels[p]? = some x := by
  unfold positionsOf
  simp only [List.mem_filter, List.mem_range, beq_iff_eq, and_iff_right_iff_imp]
  intro h
  exact (List.getElem?_eq_some_iff.1 h).1

/-- all positions of the listed labels, when each is there -/
theorem getIndexerFor_present [DecidableEq κ] (labels J : List κ) (h : ∀ x ∈ J, x ∈ labels) :
    getIndexerFor labels J = (J.flatMap (positionsOf labels)).map some := by
  unfold getIndexerFor positionsOf
  induction J with
  | nil => rfl
  | cons x J ih =>
    rw [List.flatMap_cons, List.flatMap_cons, List.map_append, ih fun y hy => h y (List.mem_cons_of_mem _ hy)]
    congr 1
    obtain ⟨p, hp, hx⟩ := List.getElem_of_mem (h x (by simp))
    have : ((List.range labels.length).filter fun p => labels[p]? == some x).isEmpty = false := by
      rw [List.isEmpty_eq_false_iff_exists_mem]
      exact ⟨p, by simp [hp, hx]⟩
    simp [this]

theorem indexDifference_mem {τ : Type} [DecidableEq τ] (index labels : List τ) (x : τ) :
    x ∈ indexDifference index labels ↔ x ∈ index ∧ x ∉ labels := by
  simp [indexDifference]

theorem flatMap_positionsOf_nodup [DecidableEq κ] (labels : List κ) {J : List κ} (h : J.Nodup) :
    (J.flatMap (positionsOf labels)).Nodup := by
  induction J with
  | nil => simp
  | cons x J ih =>
    rw [List.nodup_cons] at h
    rw [List.flatMap_cons, List.nodup_append]
    refine ⟨List.nodup_range.filter _, ih h.2, ?_⟩
    intro a ha b hb hab
    subst hab
    rw [mem_positionsOf] at ha
    rw [List.mem_flatMap] at hb
    obtain ⟨y, hy, hb⟩ := hb
    rw [mem_positionsOf, ha, Option.some.injEq] at hb
    subst hb
    exact h.1 hy

theorem nodup_eraseDups {τ : Type} [DecidableEq τ] : ∀ (n : Nat) (l : List τ), l.length ≤ n → l.eraseDups.Nodup := by
  intro n
  induction n with
  | zero => intro l hl; cases l with
    | nil => simp
    | cons _ _ => simp at hl
  | succ n ih =>
    intro l hl
    cases l with
    | nil => simp
    | cons x l =>
      rw [List.eraseDups_cons, List.nodup_cons]
      constructor
      · simp
      · refine ih _ ?_
        have := List.length_filter_le (fun b => !b == x) l
        simp only [List.length_cons] at hl
        omega

theorem indexDifference_nodup {τ : Type} [DecidableEq τ] (index labels : List τ) : (indexDifference index labels).Nodup := by
  unfold indexDifference
  exact (nodup_eraseDups _ _ (Nat.le_refl _)).filter _

/-- the positions kept by `drop`: those whose label is not listed, in order, repeats included -/
theorem dropPositions_eq {τ : Type} [DecidableEq τ] (index labels : List τ) :
    dropPositions index labels = (List.range index.length).filter fun p => index[p]?.any fun x => !(labels.contains x) := by
  unfold dropPositions
  rw [getIndexerFor_present _ _ fun x hx => ((indexDifference_mem _ _ x).1 hx).1]
  simp only [List.filterMap_map, Function.comp_def, id, List.filterMap_some]
  apply sorted_perm_eq (npSort_pairwise _) ((List.pairwise_le_range).filter _)
  refine (npSort_perm _).trans ?_
  rw [List.perm_ext_iff_of_nodup ?_ (List.nodup_range.filter _)]
  · intro p
    simp only [List.mem_flatMap, mem_positionsOf, List.mem_filter, List.mem_range, indexDifference_mem]
    constructor
    · rintro ⟨x, ⟨_, hx⟩, he⟩
      exact ⟨(List.getElem?_eq_some_iff.1 he).1, by simp [he, hx]⟩
    · rintro ⟨hp, h⟩
      refine ⟨index[p], ⟨List.getElem_mem hp, ?_⟩, by simp [hp]⟩
      simpa [hp] using h
  · exact flatMap_positionsOf_nodup index (indexDifference_nodup index labels)

theorem takeList_filter {τ : Type} (l : List τ) (p : τ → Bool) :
    takeList l ((List.range l.length).filter fun i => l[i]?.any p) = l.filter p := by
  unfold takeList
  induction l with
  | nil => rfl
  | cons x l ih =>
    rw [List.length_cons, List.range_succ_eq_map, List.filter_cons]
    have e : ((List.map Nat.succ (List.range l.length)).filter fun i => (x :: l)[i]?.any p).filterMap ((x :: l)[·]?) =
        ((List.range l.length).filter fun i => l[i]?.any p).filterMap (l[·]?) := by
      rw [List.filter_map, List.filterMap_map]
      simp [Function.comp_def]
    by_cases hx : p x = true
    · simp only [List.getElem?_cons_zero, Option.any_some, hx, ↓reduceIte, List.filterMap_cons, List.filter_cons]
      rw [e, ih]
    · simp only [List.getElem?_cons_zero, Option.any_some, hx, Bool.false_eq_true, ↓reduceIte, List.filter_cons]
      rw [e, ih]

theorem takeList_filter_zip {τ σ : Type} (l : List τ) (l' : List σ) (h : l'.length = l.length) (p : τ → Bool) :
    takeList l' ((List.range l.length).filter fun i => l[i]?.any p) = ((l.zip l').filter fun q => p q.1).map (·.2) := by
  unfold takeList
  induction l generalizing l' with
  | nil => cases l' <;> simp at h ⊢
  | cons x l ih =>
    cases l' with
    | nil => simp at h
    | cons y l' =>
      rw [List.length_cons, List.range_succ_eq_map, List.filter_cons, List.zip_cons_cons, List.filter_cons]
      have e : ((List.map Nat.succ (List.range l.length)).filter fun i => (x :: l)[i]?.any p).filterMap ((y :: l')[·]?) =
          ((List.range l.length).filter fun i => l[i]?.any p).filterMap (l'[·]?) := by
        rw [List.filter_map, List.filterMap_map]
        simp [Function.comp_def]
      have ih := ih l' (by simpa using h)
      by_cases hx : p x = true
      · simp only [List.getElem?_cons_zero, Option.any_some, hx, ↓reduceIte, List.filterMap_cons, List.map_cons]
        rw [e, ih]
      · simp only [List.getElem?_cons_zero, Option.any_some, hx, Bool.false_eq_true, ↓reduceIte]
        rw [e, ih]

/-! ### `drop` -/

theorem range_pos_filter {τ : Type} (l : List τ) (p : τ → Bool) :
    ∀ x ∈ (List.range l.length).filter (fun i => l[i]?.any p), x < l.length := by
  intro x hx
  simpa using (List.mem_filter.1 hx).1

theorem notListed_some {τ : Type} [DecidableEq τ] (l : List τ) : notListed (some l) = fun x => !(l.contains x) := by
  funext x
  simp [notListed]

theorem reqList_all {τ : Type} (l : List τ) :
    (List.range l.length).filter (fun i => l[i]?.any fun _ => true) = List.range l.length := by
  rw [List.filter_eq_self]
  intro i hi
  simp [List.mem_range.1 hi]

theorem dropCompiled_shows [DecidableEq ι] [DecidableEq κ] (cfg : Cfg) (hp : 1 ≤ cfg.nPartitions) (hmr : 1 ≤ cfg.minRow)
    (hmc : 1 ≤ cfg.minCol) (known : Nat → Nat → Bool × Bool) {m : LFrame ι κ α} {df : Frame ι κ α} (h : m.Shows df)
    (rows : Option (List ι)) (cols : Option (List κ)) :
    ∃ m', m.dropCompiled cfg known rows cols = some m' ∧ m'.Shows (df.dropLabels rows cols) := by
  unfold LFrame.dropCompiled
  rw [h.getIndex, h.getColumns]
  obtain ⟨m', e1, e2⟩ := take2d_shows cfg hp hmr hmc h (known := known) (kn := true) (fun _ _ _ => rfl)
    (rows := rows.map fun l => Positions.array (dropPositions df.index l))
    (cols := cols.map fun l => Positions.array (dropPositions df.columns l))
    (by
      intro q hq
      obtain ⟨l, rfl, rfl⟩ := Option.map_eq_some_iff.1 hq
      rw [dropPositions_eq]; exact range_pos_filter _ _)
    (by
      intro q hq
      obtain ⟨l, rfl, rfl⟩ := Option.map_eq_some_iff.1 hq
      rw [dropPositions_eq]; exact range_pos_filter _ _)
    (by intro a b hq; obtain ⟨l, _, hl⟩ := Option.map_eq_some_iff.1 hq; cases hl)
    (by intro a b hq; obtain ⟨l, _, hl⟩ := Option.map_eq_some_iff.1 hq; cases hl)
    (by
      intro _ q hq
      obtain ⟨l, rfl, rfl⟩ := Option.map_eq_some_iff.1 hq
      rw [dropPositions_eq]; exact List.nodup_range.filter _)
    (by
      intro _ q hq
      obtain ⟨l, rfl, rfl⟩ := Option.map_eq_some_iff.1 hq
      rw [dropPositions_eq]; exact List.nodup_range.filter _)
  refine ⟨m', e1, ?_⟩
  have hr : reqList df.nrows (rows.map fun l => Positions.array (dropPositions df.index l)) =
      (List.range df.index.length).filter fun i => df.index[i]?.any (notListed rows) := by
    cases rows with
    | none => exact (reqList_all df.index).symm
    | some l => simp only [reqList, Option.map_some, Positions.toList, dropPositions_eq, notListed_some]
  have hc : reqList df.ncols (cols.map fun l => Positions.array (dropPositions df.columns l)) =
      (List.range df.columns.length).filter fun i => df.columns[i]?.any (notListed cols) := by
    cases cols with
    | none => exact (reqList_all df.columns).symm
    | some l => simp only [reqList, Option.map_some, Positions.toList, dropPositions_eq, notListed_some]
  have hf : df.dropLabels rows cols = (df.takeRows (reqList df.nrows (rows.map fun l => Positions.array (dropPositions df.index l)))).takeCols
      (reqList df.ncols (cols.map fun l => Positions.array (dropPositions df.columns l))) := by
    rw [hr, hc]
    unfold Frame.dropLabels Frame.takeCols Frame.takeRows
    simp only [Frame.mk.injEq]
    refine ⟨(takeList_filter _ _).symm, (takeList_filter _ _).symm, ?_⟩
    rw [takeList_filter_zip _ _ h.wf.rows_len, List.map_map]
    apply List.map_congr_left
    rintro ⟨i, r⟩ hir
    have hr : r ∈ df.rows := (List.of_mem_zip (List.mem_filter.1 hir).1).2
    exact (takeList_filter_zip df.columns r (h.wf.row_width r hr)
      (notListed cols)).symm
  rw [hf]
  exact e2

/-! ### `from_labels` -/

/-- the rows with the cell made of their label in front -/
def withLabels (cell : ι → α) (df : Frame ι κ α) : List (List α) := List.zipWith (fun i r => cell i :: r) df.index df.rows

theorem zipWith_ignore {A B C : Type} (g : B → C) (l : List A) (l' : List B) (h : l'.length = l.length) :
    List.zipWith (fun _ r => g r) l l' = l'.map g := by
  induction l generalizing l' with
  | nil => cases l' <;> simp at h ⊢
  | cons x l ih =>
    cases l' with
    | nil => simp at h
    | cons y l' => simp [ih l' (by simpa using h)]

theorem pySlice_cons_zero {τ : Type} (x : τ) (l : List τ) (w : Nat) : pySlice (x :: l) 0 (1 + w) = x :: pySlice l 0 w := by
  simp [pySlice, Nat.add_comm 1 w]

theorem pySlice_cons_add {τ : Type} (x : τ) (l : List τ) (a b : Nat) : pySlice (x :: l) (1 + a) (1 + b) = pySlice l a b := by
  simp [pySlice, Nat.add_comm 1, Nat.add_sub_add_right]

theorem sliceBounds_cons' (w : Nat) (ws : List Nat) :
    sliceBounds (w :: ws) = (0, w) :: (sliceBounds ws).map fun p => (w + p.1, w + p.2) := by
  have := sliceBounds_append [w] ws
  simpa [sliceBounds, cumsumFrom, consecutive] using this

/-- the block function without the renumbering -/
def labelsBlock (cell : ι → α) (new : κ) (b : Frame ι κ α) : Frame ι κ α :=
  { index := b.index, columns := new :: b.columns, rows := withLabels cell b }

theorem withLabels_wf {cell : ι → α} {new : κ} {df : Frame ι κ α} (h : df.WF) : (labelsBlock cell new df).WF := by
  refine ⟨by simp [labelsBlock, withLabels, h.rows_len], ?_⟩
  intro r hr
  simp only [labelsBlock, withLabels] at hr ⊢
  obtain ⟨k, hk, rfl⟩ := List.getElem_of_mem hr
  rw [List.getElem_zipWith]
  simp [h.row_width]

theorem labelsBlock_cut (cell : ι → α) (new : κ) {df : Frame ι κ α} {rl ws : List Nat} {w : Nat} (hwf : df.WF) (hne : rl ≠ []) :
    onFirstColumn (labelsBlock cell new) (df.cut rl (w :: ws)) = (labelsBlock cell new df).cut rl ((1 + w) :: ws) := by
  unfold onFirstColumn
  have hn : (df.cut rl (w :: ws)).all (·.isEmpty) = false := by
    unfold Frame.cut
    rw [sliceBounds_cons']
    have := sliceBounds_ne_nil hne
    cases hb : sliceBounds rl with
    | nil => exact absurd hb this
    | cons p ps => simp
  rw [if_neg (by simp [hn])]
  unfold Frame.cut
  rw [List.map_map, sliceBounds_cons', sliceBounds_cons']
  apply List.map_congr_left
  intro p _
  simp only [Function.comp, List.map_cons, List.map_map, List.cons.injEq]
  constructor
  · simp only [labelsBlock, withLabels, Frame.ilocRows, Frame.ilocCols, Frame.mk.injEq, true_and]
    refine ⟨(pySlice_cons_zero _ _ _).symm, ?_⟩
    rw [pySlice_zipWith, List.map_zipWith, List.zipWith_map_right]
    congr 1
    funext i r
    exact (pySlice_cons_zero _ _ _).symm
  · apply List.map_congr_left
    intro q _
    simp only [Function.comp, labelsBlock, withLabels, Frame.ilocRows, Frame.ilocCols, Frame.mk.injEq, true_and]
    rw [Nat.add_assoc, Nat.add_assoc, pySlice_cons_add]
    refine ⟨rfl, ?_⟩
    rw [pySlice_zipWith, List.map_zipWith]
    simp only [pySlice_cons_add]
    rw [zipWith_ignore]
    simp only [pySlice_len, hwf.rows_len]

/-! #### blocks whose pending row labels differ -/

/-- a block without its row labels -/
def stripIndex (b : Frame ι κ α) : Frame Unit κ α :=
  { index := b.index.map fun _ => (), columns := b.columns, rows := b.rows }

theorem stripIndex_nrows (b : Frame ι κ α) : (stripIndex b).nrows = b.nrows := by simp [stripIndex, Frame.nrows]

/-- `relabel` with new row labels does not look at the old ones -/
def relabelStripped (i : List ι) (cols : Option (List κ)) (p q : Nat × Nat) (b : Frame Unit κ α) : Option (Frame ι κ α) :=
  relabel (some i) cols p q (Frame.mk (pySlice i p.1 p.2) b.columns b.rows) |>.bind fun f =>
    if (pySlice i p.1 p.2).length = b.index.length then some f else none

theorem relabel_strip (i : List ι) (cols : Option (List κ)) (p q : Nat × Nat) (b : Frame ι κ α) :
    relabel (some i) cols p q b = relabelStripped i cols p q (stripIndex b) := by
  unfold relabelStripped relabel Frame.setIndex stripIndex
  simp only [↓reduceIte, Option.bind_some, List.length_map]
  split
  · simp only [Option.bind_some]
    exact (Option.bind_fun_some _).symm
  · cases cols <;> simp [Frame.setColumns] <;> split <;> simp

theorem mapM_zip_left {A A' B C : Type} (s : A → A') (f : A' × B → Option C) (l : List A) (r : List B) :
    ((l.zip r).mapM fun x => f (s x.1, x.2)) = ((l.map s).zip r).mapM f := by
  induction l generalizing r with
  | nil => rfl
  | cons x l ih =>
    cases r with
    | nil => rfl
    | cons y r => simp [ih r]

theorem filterEmpties_strip {m m' : MFrame ι κ α} (hs : m.parts.map (·.map stripIndex) = m'.parts.map (·.map stripIndex))
    (hi : m.index = m'.index) (hc : m.columns = m'.columns) (hr : m.rowLens = m'.rowLens) (hw : m.colWidths = m'.colWidths) :
    (filterEmpties m).parts.map (·.map stripIndex) = (filterEmpties m').parts.map (·.map stripIndex) ∧
    (filterEmpties m).index = (filterEmpties m').index ∧ (filterEmpties m).columns = (filterEmpties m').columns ∧
    (filterEmpties m).rowLens = (filterEmpties m').rowLens ∧ (filterEmpties m).colWidths = (filterEmpties m').colWidths := by
  cases m with
  | mk p i c r w =>
  cases m' with
  | mk p' i' c' r' w' =>
  simp only at hs hi hc hr hw
  subst hi hc hr hw
  unfold filterEmpties
  simp only
  split
  · split
    · exact ⟨hs, rfl, rfl, rfl, rfl⟩
    · refine ⟨?_, rfl, rfl, rfl, rfl⟩
      rename_i rl cw _
      have key : ∀ g : Grid ι κ α, ((keepNonzero g rl).map (fun row => keepNonzero row cw)).map (·.map stripIndex) =
          (keepNonzero (g.map (·.map stripIndex)) rl).map (fun row => keepNonzero row cw) := by
        intro g
        rw [keepNonzero_map (fun x : List (Frame ι κ α) => x.map stripIndex), List.map_map, List.map_map]
        apply List.map_congr_left
        intro row _
        exact (keepNonzero_map _ _ _).symm
      rw [key, key, hs]
  · exact ⟨hs, rfl, rfl, rfl, rfl⟩

theorem getRowLens_strip {m m' : MFrame ι κ α} (hs : m.parts.map (·.map stripIndex) = m'.parts.map (·.map stripIndex))
    (hr : m.rowLens = m'.rowLens) : m.getRowLens = m'.getRowLens := by
  unfold MFrame.getRowLens
  rw [hr]
  have key : ∀ g : Grid ι κ α, (g.filterMap fun row => row.head?.map (·.nrows)) =
      ((g.map (·.map stripIndex)).filterMap fun row => row.head?.map (·.nrows)) := by
    intro g
    rw [List.filterMap_map]
    apply filterMap_congr'
    intro row _
    cases row with
    | nil => rfl
    | cons b bs => simp [stripIndex_nrows]
  rw [key, key, hs]

/-- writing the pending row labels into the blocks does not depend on the row labels the blocks have -/
theorem propagate_strip {m m' : LFrame ι κ α} (hs : m.parts.map (·.map stripIndex) = m'.parts.map (·.map stripIndex))
    (hi : m.index = m'.index) (hc : m.columns = m'.columns) (hr : m.rowLens = m'.rowLens) (hw : m.colWidths = m'.colWidths)
    (hd : m.defColumns = m'.defColumns) (hd' : m.defIndex = m'.defIndex)
    (hi2 : m.index.isSome) (hc2 : m.columns.isSome) (hw2 : m.colWidths.isSome) (ax1 : Bool) :
    m.propagate true ax1 = m'.propagate true ax1 := by
  obtain ⟨f1, f2, f3, f4, f5⟩ := filterEmpties_strip hs hi hc hr hw
  have fe : ∀ a : MFrame ι κ α, (filterEmpties a).index = a.index ∧ (filterEmpties a).columns = a.columns ∧
      (a.colWidths.isSome → (filterEmpties a).colWidths.isSome) := by
    intro a
    unfold filterEmpties
    split
    · split <;> simp
    · simp
  have hf3 : (filterEmpties m.toMFrame).colWidths.isSome := (fe m.toMFrame).2.2 hw2
  unfold LFrame.propagate
  have gr := getRowLens_strip f1 f4
  have gi : (filterEmpties m.toMFrame).getIndex = (filterEmpties m'.toMFrame).getIndex := by
    unfold MFrame.getIndex
    rw [← f2, (fe m.toMFrame).1]
    obtain ⟨x, hx⟩ := Option.isSome_iff_exists.1 hi2
    rw [hx]
  have gc : (filterEmpties m.toMFrame).getColumns = (filterEmpties m'.toMFrame).getColumns := by
    unfold MFrame.getColumns
    rw [← f3, (fe m.toMFrame).2.1]
    obtain ⟨x, hx⟩ := Option.isSome_iff_exists.1 hc2
    rw [hx]
  have gw : (filterEmpties m.toMFrame).getColWidths = (filterEmpties m'.toMFrame).getColWidths := by
    unfold MFrame.getColWidths
    rw [← f5]
    obtain ⟨x, hx⟩ := Option.isSome_iff_exists.1 hf3
    rw [hx]; rfl
  simp only [gr, gi, gc, gw, hd, hd', if_true]
  generalize filterEmpties m.toMFrame = a at *
  generalize filterEmpties m'.toMFrame = b at *
  have hl : a.parts.length = b.parts.length := by
    have := congrArg List.length f1
    simpa using this
  have hall : (a.parts.all fun row => decide (row.length ≤ (sliceBounds b.getColWidths).length)) =
      (b.parts.all fun row => decide (row.length ≤ (sliceBounds b.getColWidths).length)) := by
    have := congrArg (fun g : List (List (Frame Unit κ α)) => g.all fun row => decide (row.length ≤ (sliceBounds b.getColWidths).length)) f1
    simpa [List.all_map, Function.comp_def] using this
  rw [hl, hall]
  split
  · have key : ∀ g : Grid ι κ α, ((g.zip (sliceBounds b.getRowLens)).mapM fun (rp : List (Frame ι κ α) × (Nat × Nat)) =>
        (rp.1.zip (sliceBounds b.getColWidths)).mapM fun bq =>
          relabel (some b.getIndex) (if ax1 = true then some b.getColumns else none) rp.2 bq.2 bq.1) =
        (((g.map (·.map stripIndex)).zip (sliceBounds b.getRowLens)).mapM fun (rp : List (Frame Unit κ α) × (Nat × Nat)) =>
        (rp.1.zip (sliceBounds b.getColWidths)).mapM fun bq =>
          relabelStripped b.getIndex (if ax1 = true then some b.getColumns else none) rp.2 bq.2 bq.1) := by
      intro g
      rw [← mapM_zip_left]
      congr 1
      funext rp
      rw [← mapM_zip_left]
      congr 1
      funext bq
      exact relabel_strip _ _ _ _ _
    rw [key, key, f1]
    congr 1
    funext g
    rw [f2, f3, f4, f5]
  · rfl

/-- the two flags of a frame with pending row labels -/
theorem synced_pending {m : LFrame ι κ α} (h : m.defIndex = true) : m.synced = m.propagate true m.defColumns := by
  unfold LFrame.synced
  rw [h]
  cases m.defColumns <;> simp

theorem fromLabelsBlock_strip [DecidableEq κ] (num : Nat → ι) (cell : ι → α) (new : κ) (b : Frame ι κ α) :
    stripIndex (fromLabelsBlock num cell new b) = stripIndex (labelsBlock cell new b) := by
  unfold fromLabelsBlock labelsBlock stripIndex withLabels
  simp only [Frame.mk.injEq, and_true]
  split
  · rw [List.map_map]
    apply List.ext_getElem <;> simp
  · rfl

theorem onFirstColumn_strip [DecidableEq κ] (num : Nat → ι) (cell : ι → α) (new : κ) (g : Grid ι κ α) :
    (onFirstColumn (fromLabelsBlock num cell new) g).map (·.map stripIndex) =
    (onFirstColumn (labelsBlock cell new) g).map (·.map stripIndex) := by
  unfold onFirstColumn
  split
  · rfl
  · rw [List.map_map, List.map_map]
    apply List.map_congr_left
    intro row _
    cases row with
    | nil => rfl
    | cons b bs => simp [fromLabelsBlock_strip]

theorem fromLabels_spec [DecidableEq κ] (num : Nat → ι) (cell : ι → α) (indexName levelName : κ) (name : Option κ)
    {m : LFrame ι κ α} {df : Frame ι κ α} (h : m.Shows df) {new : κ}
    (hnew : new = fromLabelsName indexName levelName name df.columns) {target : Frame ι κ α}
    (ht : target = Frame.mk ((List.range df.index.length).map num) (new :: df.columns) (withLabels cell df)) :
    ∃ m', m.fromLabels num cell indexName levelName name = some m' ∧ m'.getIndex = target.index ∧
      m'.getColumns = target.columns ∧ (∃ m1, m'.synced = some m1 ∧ m1.toMFrame.Represents target) ∧
      (m.defColumns = false → new ∉ df.columns → m'.Shows target) := by
  obtain ⟨m1, p1, p2, p3, p4, p5, p6⟩ := propagate_shows h true false (Or.inl h.getIndex) (Or.inr rfl)
  simp only [Bool.not_true, Bool.and_false, Bool.not_false, Bool.and_true] at p3 p4
  have gi := p2.getIndex
  have gc := p2.getColumns
  obtain ⟨df0, rl, cw, hwf0, hrows, hcolsl, hc, hp, hrl, hcw, hI, hC⟩ := p2.blocks
  have hI := hI p3
  have hw : m1.getColWidths = cw := getColWidths_cut hc hp hcw
  cases cw with
  | nil => exact absurd rfl hc.cw_ne
  | cons w ws =>
  have hcut : (labelsBlock cell new df0).IsCut rl ((1 + w) :: ws) := by
    refine ⟨hc.rl_ne, by simp, hc.rl_sum, ?_⟩
    have := hc.cw_sum
    simp only [List.sum_cons, labelsBlock, Frame.ncols, List.length_cons] at this ⊢
    omega
  have hwl : withLabels cell df0 = withLabels cell df := by unfold withLabels; rw [hI, hrows]
  have hwft : target.WF := by
    have := withLabels_wf (cell := cell) (new := new) h.wf
    rw [ht]
    exact ⟨by simpa [labelsBlock] using this.rows_len, this.row_width⟩
  -- the frame with the row labels left alone
  have clean : LFrame.Shows (LFrame.mk (MFrame.mk (onFirstColumn (labelsBlock cell new) m1.parts)
      (some ((List.range df.index.length).map num)) (some (new :: df.columns)) m1.rowLens (some ((1 + w) :: ws)))
      true m1.defColumns) target := by
    refine ⟨hwft, ⟨labelsBlock cell new df0, rl, (1 + w) :: ws, withLabels_wf hwf0, ?_, ?_, hcut, ?_, hrl, Or.inr rfl, ?_, ?_⟩,
      Or.inr (by rw [ht]), Or.inr (by rw [ht])⟩
    · rw [ht]; exact hwl
    · rw [ht]; simp [labelsBlock, hcolsl]
    · rw [hp]; exact labelsBlock_cut cell new hwf0 hc.rl_ne
    · simp
    · intro hd; rw [ht]; simp only [labelsBlock]; rw [hC hd]
  obtain ⟨r0, e0, s0⟩ := mk'_shows clean
  have hfe : LFrame.fromLabels num cell indexName levelName name m =
      (MFrame.mk' { parts := onFirstColumn (fromLabelsBlock num cell new) m1.parts
                    index := some ((List.range df.index.length).map num)
                    columns := some (new :: df.columns)
                    rowLens := m1.rowLens
                    colWidths := some ((1 + w) :: ws) }).map
      fun r => { r with defIndex := true, defColumns := m1.defColumns } := by
    unfold LFrame.fromLabels
    rw [p1, Option.bind_some]
    simp only [hw, gi, gc, ← hnew]
  have hmk : MFrame.mk' (MFrame.mk (onFirstColumn (fromLabelsBlock num cell new) m1.parts)
      (some ((List.range df.index.length).map num)) (some (new :: df.columns)) m1.rowLens (some ((1 + w) :: ws))) =
      some (filterEmpties (MFrame.mk (onFirstColumn (fromLabelsBlock num cell new) m1.parts)
      (some ((List.range df.index.length).map num)) (some (new :: df.columns)) m1.rowLens (some ((1 + w) :: ws)))) := by
    unfold MFrame.mk' at e0 ⊢
    split at e0
    · rename_i hv; rw [if_pos hv]
    · cases e0
  have e0' : r0 = filterEmpties (MFrame.mk (onFirstColumn (labelsBlock cell new) m1.parts)
      (some ((List.range df.index.length).map num)) (some (new :: df.columns)) m1.rowLens (some ((1 + w) :: ws))) := by
    unfold MFrame.mk' at e0
    split at e0
    · cases e0; rfl
    · cases e0
  have hst := filterEmpties_strip
    (m := MFrame.mk (onFirstColumn (fromLabelsBlock num cell new) m1.parts)
      (some ((List.range df.index.length).map num)) (some (new :: df.columns)) m1.rowLens (some ((1 + w) :: ws)))
    (m' := MFrame.mk (onFirstColumn (labelsBlock cell new) m1.parts)
      (some ((List.range df.index.length).map num)) (some (new :: df.columns)) m1.rowLens (some ((1 + w) :: ws)))
    (onFirstColumn_strip num cell new m1.parts) rfl rfl rfl rfl
  have fe : ∀ a : MFrame ι κ α, (filterEmpties a).index = a.index ∧ (filterEmpties a).columns = a.columns ∧
      (a.colWidths.isSome → (filterEmpties a).colWidths.isSome) := by
    intro a
    unfold filterEmpties
    split
    · split <;> simp
    · simp
  refine ⟨_, by rw [hfe, hmk]; rfl, ?_, ?_, ?_, ?_⟩
  · unfold MFrame.getIndex
    simp only [(fe _).1, ht]
  · unfold MFrame.getColumns
    simp only [(fe _).2.1, ht]
  · rw [synced_pending rfl]
    obtain ⟨q1, q2, q3⟩ := synced_spec s0
    rw [synced_pending rfl] at q2
    refine ⟨q1, ?_, q3⟩
    rw [← q2]
    subst e0'
    refine propagate_strip
      (m := LFrame.mk (filterEmpties (MFrame.mk (onFirstColumn (fromLabelsBlock num cell new) m1.parts)
        (some ((List.range df.index.length).map num)) (some (new :: df.columns)) m1.rowLens (some ((1 + w) :: ws)))) true m1.defColumns)
      (m' := LFrame.mk (filterEmpties (MFrame.mk (onFirstColumn (labelsBlock cell new) m1.parts)
        (some ((List.range df.index.length).map num)) (some (new :: df.columns)) m1.rowLens (some ((1 + w) :: ws)))) true m1.defColumns)
      hst.1 hst.2.1 hst.2.2.1 hst.2.2.2.1 hst.2.2.2.2 rfl rfl ?_ ?_ ?_ m1.defColumns
    · simp [(fe _).1]
    · simp [(fe _).2.1]
    · exact (fe _).2.2 rfl
  · intro hd hn
    have hbl : onFirstColumn (fromLabelsBlock num cell new) m1.parts = onFirstColumn (labelsBlock cell new) m1.parts := by
      unfold onFirstColumn
      split
      · rfl
      · apply List.map_congr_left
        intro row hrow
        cases row with
        | nil => rfl
        | cons b bs =>
          simp only [List.cons.injEq, and_true]
          have hbc : new ∉ b.columns := by
            rw [hp] at hrow
            simp only [Frame.cut, List.mem_map] at hrow
            obtain ⟨p, _, hrow⟩ := hrow
            have hb : b ∈ (sliceBounds (w :: ws)).map fun q => (df0.ilocRows p.1 p.2).ilocCols q.1 q.2 := by rw [hrow]; simp
            simp only [List.mem_map] at hb
            obtain ⟨q, _, rfl⟩ := hb
            simp only [Frame.ilocCols, Frame.ilocRows]
            intro hx
            apply hn
            rw [← hC (by rw [p4]; exact hd)]
            exact List.mem_of_mem_drop (List.mem_of_mem_take hx)
          unfold fromLabelsBlock labelsBlock withLabels
          simp [hbc]
    rw [hbl, ← e0']
    exact s0

/-! ### `reset_index` with labels that are not known -/

/-- what `reset_index` does to the columns and the rows -/
def resetBody (cell : ι → α) (new : Option κ) (df : Frame ι κ α) : List κ × List (List α) :=
  match new with
  | none => (df.columns, df.rows)
  | some n => (n :: df.columns, withLabels cell df)

/-- the label of the new column (`none`: no new column) -/
def resetNew [DecidableEq κ] (indexName levelName : κ) (name : Option κ) (drop : Bool) (columns : List κ) : Option κ :=
  if drop then none else some (resetLabel indexName levelName name columns)

theorem resetIndex_eq [DecidableEq κ] (num : Nat → ι) (cell : ι → α) (indexName levelName : κ) (name : Option κ) (drop : Bool)
    (df : Frame ι κ α) : df.resetIndex num cell indexName levelName name drop =
      if (resetNew indexName levelName name drop df.columns).any (df.columns.contains ·) then none
      else some (Frame.mk ((List.range df.index.length).map num) (resetBody cell (resetNew indexName levelName name drop df.columns) df).1
        (resetBody cell (resetNew indexName levelName name drop df.columns) df).2) := by
  unfold Frame.resetIndex resetNew resetBody
  cases drop with
  | true => simp
  | false => simp [withLabels]

theorem resetBody_stack (cell : ι → α) (new : Option κ) {df : Frame ι κ α} (hwf : df.WF) {rl cw : List Nat} (hc : df.IsCut rl cw) :
    ((bandsOf rl df).map fun b => (resetBody cell new b).2).flatten = (resetBody cell new df).2 := by
  cases new with
  | none => exact bandsOf_rows hwf hc
  | some n =>
    simp only [resetBody]
    unfold withLabels
    have h1 : ((bandsOf rl df).map (·.index)).flatten = df.index := by
      have := covers_lens rl df.index hc.rl_sum.symm
      simpa [bandsOf, List.map_map, Function.comp_def, Frame.ilocRows] using this
    have h2 := bandsOf_rows hwf hc
    conv => rhs; rw [← h1, ← h2]
    rw [zipWith_flatten]
    · congr 1
      rw [List.zipWith_map_left, List.zipWith_map_right, List.zipWith_self]
    · rw [List.map_map, List.map_map]
      apply List.map_congr_left
      intro b hb
      exact (bandsOf_wf hwf rl b hb).1.rows_len.symm

theorem resetBody_wf (cell : ι → α) (new : Option κ) (l : List ι) {df : Frame ι κ α} (hwf : df.WF) (hl : l.length = df.index.length) :
    (Frame.mk l (resetBody cell new df).1 (resetBody cell new df).2).WF := by
  cases new with
  | none => exact ⟨by simpa [resetBody, hl] using hwf.rows_len, hwf.row_width⟩
  | some n =>
    have := withLabels_wf (cell := cell) (new := n) hwf
    exact ⟨by simpa [resetBody, hl, labelsBlock] using this.rows_len, this.row_width⟩

theorem resetNewColumns_eq [DecidableEq κ] (indexName levelName : κ) (name : Option κ) (drop namesKnown : Bool) {c : List κ}
    {cache : Option (List κ)} (hcache : cache = none ∨ cache = some c)
    (hok : (resetNew indexName levelName name drop c).any (c.contains ·) = false) :
    ∃ nc, resetNewColumns indexName levelName name drop namesKnown cache = some nc ∧
      (nc = none ∨ nc = some ((resetNew indexName levelName name drop c).toList ++ c)) := by
  unfold resetNewColumns
  cases drop with
  | true => exact ⟨cache, by simp, by simpa [resetNew] using hcache⟩
  | false =>
    cases namesKnown with
    | false => exact ⟨none, by simp, Or.inl rfl⟩
    | true =>
      rcases hcache with h | h
      · exact ⟨none, by simp [h], Or.inl rfl⟩
      · subst h
        simp only [Bool.false_eq_true, ↓reduceIte, resetIndex_eq, hok, Option.map_some]
        refine ⟨_, rfl, Or.inr ?_⟩
        simp only [resetNew, Bool.false_eq_true, ↓reduceIte, resetBody]
        rfl

theorem resetBand_eq [DecidableEq κ] (num : Nat → ι) (cell : ι → α) (indexName levelName : κ) (name : Option κ) (drop : Bool)
    {df : Frame ι κ α} (hwf : df.WF) {rl cw : List Nat} (hc : df.IsCut rl cw) {i : Nat} {b : Frame ι κ α}
    (hb : (bandsOf rl df)[i]? = some b) :
    resetBand num cell indexName levelName name drop rl i b =
      if (resetNew indexName levelName name drop df.columns).any (df.columns.contains ·) then none
      else some (Frame.mk ((List.range b.index.length).map fun x => num (x + (rl.take i).sum))
        (resetBody cell (resetNew indexName levelName name drop df.columns) b).1
        (resetBody cell (resetNew indexName levelName name drop df.columns) b).2) := by
  have hbm := bandsOf_wf hwf rl b (List.mem_of_getElem? hb)
  have hi : rl[i]? = some b.index.length := by
    rw [← bandsOf_nrows hc, List.getElem?_map, hb]; rfl
  have hstep : (rl.take (i + 1)).sum - (rl.take i).sum = b.index.length := by
    rw [List.take_add_one, hi]
    simp
  unfold resetBand
  rw [resetIndex_eq, hbm.2]
  split
  · rfl
  · simp [hstep]

theorem mapM_id_none {τ : Type} {l : List (Option τ)} (h : none ∈ l) : l.mapM id = none := by
  induction l with
  | nil => cases h
  | cons x l ih =>
    cases x with
    | none => simp
    | some y =>
      have := ih (by simpa using h)
      simp [this]

theorem resetIndexLazy_spec [DecidableEq ι] [DecidableEq κ] (cfg : Cfg) (hmc : 1 ≤ cfg.minCol) (num : Nat → ι) (cell : ι → α)
    (indexName levelName : κ) (name : Option κ) (drop namesKnown : Bool) {m : LFrame ι κ α} {df : Frame ι κ α} (h : m.Shows df) :
    (∀ df', df.resetIndex num cell indexName levelName name drop = some df' →
      ∃ m', m.resetIndexLazy cfg num cell indexName levelName name drop namesKnown = some m' ∧ m'.Shows df') ∧
    (df.resetIndex num cell indexName levelName name drop = none →
      m.resetIndexLazy cfg num cell indexName levelName name drop namesKnown = none) := by
  obtain ⟨m1, p1, p2⟩ := synced_spec h
  obtain ⟨rl, cw, hc, hparts, hrl, hcw⟩ := p2.blocks
  have hlens : m1.getRowLens = rl := getRowLens_cut hc hparts hrl
  have hwf := h.wf
  constructor
  · intro df' hd
    rw [resetIndex_eq] at hd
    split at hd
    · cases hd
    · rename_i hok
      have hok : (resetNew indexName levelName name drop df.columns).any (df.columns.contains ·) = false := by
        simpa using hok
      obtain ⟨nc, n1, n2⟩ := resetNewColumns_eq indexName levelName name drop namesKnown (c := df.columns) (cache := m.columns)
        (h.columns.imp_left (·.1)) hok
      unfold LFrame.resetIndexLazy
      rw [n1, Option.bind_some]
      generalize hnew : resetNew indexName levelName name drop df.columns = new at *
      unfold LFrame.operation
      rw [p1, Option.bind_some]
      simp only [hlens]
      obtain ⟨m', h1, h2, h3⟩ := applyFullRows_spec cfg hmc
        (fun i b => Frame.mk ((List.range b.index.length).map fun x => num (x + (rl.take i).sum)) (resetBody cell new b).1
          (resetBody cell new b).2) hwf hc hparts hcw (resetBand num cell indexName levelName name drop rl)
        (new.toList ++ df.columns)
        (by
          intro i b hb
          have hbm := bandsOf_wf hwf rl b (List.mem_of_getElem? hb)
          refine ⟨?_, resetBody_wf cell new _ hbm.1 (by simp), ?_⟩
          · rw [resetBand_eq num cell indexName levelName name drop hwf hc hb, hnew, hok]
            simp
          · cases new <;> simp [resetBody, hbm.2])
        true none (by
          have : 0 < cw.length := List.length_pos_iff.2 hc.cw_ne
          simp [axisNumSplits]; omega) (by simp) nc n2
      rw [h1]
      refine ⟨_, rfl, ?_⟩
      have heq : Frame.stackRows (new.toList ++ df.columns) ((bandsOf rl df).mapIdx
          (fun i b => Frame.mk ((List.range b.index.length).map fun x => num (x + (rl.take i).sum)) (resetBody cell new b).1
          (resetBody cell new b).2)) = df' := by
        cases hd
        unfold Frame.stackRows
        simp only [Frame.mk.injEq, map_mapIdx']
        refine ⟨?_, ?_, ?_⟩
        · have hr := congrArg (List.map num) (ranges_flatten rl 0)
          rw [List.map_flatten, map_mapIdx', ← bandsOf_nrows hc, mapIdx_map', bandsOf_nrows hc, hc.rl_sum] at hr
          simpa [Frame.nrows, Function.comp_def] using hr
        · cases new <;> rfl
        · rw [mapIdx_const' (fun b : Frame ι κ α => (resetBody cell new b).2)]
          exact resetBody_stack cell new hwf hc
      rw [heq] at h2
      exact represents_shows h2
  · intro hd
    rw [resetIndex_eq] at hd
    split at hd
    · rename_i hbad
      unfold LFrame.resetIndexLazy
      cases hn : resetNewColumns indexName levelName name drop namesKnown m.columns with
      | none => rfl
      | some nc =>
        rw [Option.bind_some]
        unfold LFrame.operation
        rw [p1, Option.bind_some]
        simp only [hlens]
        unfold applyFullRows applyRowBands
        rw [mapM_id_none]
        · rfl
        · have hne := sliceBounds_ne_nil hc.rl_ne
          cases hs : sliceBounds rl with
          | nil => exact absurd hs hne
          | cons p ps =>
            rw [hparts]
            unfold Frame.cut
            rw [hs, List.map_cons, List.mapIdx_cons]
            refine List.mem_cons.2 (Or.inl ?_)
            have hv : Frame.hcat ((sliceBounds cw).map fun q => (df.ilocRows p.1 p.2).ilocCols q.1 q.2)
                = some (df.ilocRows p.1 p.2) := by
              have := Frame.hcat_ilocRows (hcat_cols_cut hwf hc) p.1 p.2
              rw [List.map_map] at this
              simpa only [Function.comp_def, Frame.ilocCols_ilocRows] using this
            have hb : (bandsOf rl df)[0]? = some (df.ilocRows p.1 p.2) := by simp [bandsOf, hs]
            unfold deployAxisFunc
            simp only [axisConcat, Bool.false_eq_true, ↓reduceIte, hv, Option.bind_eq_bind, Option.bind_some,
              resetBand_eq num cell indexName levelName name drop hwf hc hb, hbad, Option.bind_none]
    · cases hd

/-! ### `set_index` -/

theorem onlyPosition_some [DecidableEq κ] {columns : List κ} {k : κ} {j : Nat} (h : onlyPosition columns k = some j) :
    positionsOf columns k = [j] := by
  unfold onlyPosition at h
  unfold positionsOf
  split at h
  · rename_i j' hj
    cases h
    exact hj
  · cases h

theorem onlyPosition_none [DecidableEq κ] {columns : List κ} {k : κ} (h : onlyPosition columns k = none) (hk : k ∈ columns) :
    2 ≤ (positionsOf columns k).length := by
  obtain ⟨p, hp, hx⟩ := List.getElem_of_mem hk
  have hm : p ∈ positionsOf columns k := mem_positionsOf.2 (by simp [hp, hx])
  unfold onlyPosition at h
  change (match positionsOf columns k with | [j] => some j | _ => none) = none at h
  match hq : positionsOf columns k with
  | [] => rw [hq] at hm; cases hm
  | [j] => rw [hq] at h; cases h
  | _ :: _ :: _ => simp

theorem positionsOf_pos [DecidableEq κ] {columns : List κ} {k : κ} (hk : k ∈ columns) : 1 ≤ (positionsOf columns k).length := by
  obtain ⟨p, hp, hx⟩ := List.getElem_of_mem hk
  exact List.length_pos_of_mem (mem_positionsOf.2 (by simp [hp, hx] : columns[p]? = some k))

theorem onlyPositions_spec [DecidableEq κ] {columns keys : List κ} {ps : List Nat}
    (h : keys.mapM (onlyPosition columns) = some ps) :
    (∀ k ∈ keys, k ∈ columns) ∧ keys.flatMap (positionsOf columns) = ps ∧ takeList columns ps = keys ∧
      ∀ j ∈ ps, j < columns.length := by
  induction keys generalizing ps with
  | nil => cases h; simp [takeList]
  | cons k keys ih =>
    rw [List.mapM_cons] at h
    cases h1 : onlyPosition columns k with
    | none => rw [h1] at h; cases h
    | some j =>
      cases h2 : keys.mapM (onlyPosition columns) with
      | none => rw [h1, h2] at h; cases h
      | some qs =>
        rw [h1, h2] at h
        cases h
        obtain ⟨a, b, c, d⟩ := ih h2
        have hj := onlyPosition_some h1
        have hjk : columns[j]? = some k := mem_positionsOf.1 (by rw [hj]; simp)
        refine ⟨?_, ?_, ?_, ?_⟩
        · intro x hx
          rcases List.mem_cons.1 hx with rfl | hx
          · exact List.mem_of_getElem? hjk
          · exact a x hx
        · rw [List.flatMap_cons, hj, b]; rfl
        · unfold takeList at c ⊢
          rw [List.filterMap_cons, hjk]
          simp only [c]
        · intro x hx
          rcases List.mem_cons.1 hx with rfl | hx
          · exact (List.getElem?_eq_some_iff.1 hjk).1
          · exact d x hx

theorem onlyPositions_none [DecidableEq κ] {columns keys : List κ} (h : keys.mapM (onlyPosition columns) = none)
    (hk : ∀ k ∈ keys, k ∈ columns) : keys.length < (keys.flatMap (positionsOf columns)).length := by
  have hle : ∀ ks : List κ, (∀ k ∈ ks, k ∈ columns) → ks.length ≤ (ks.flatMap (positionsOf columns)).length := by
    intro ks hks
    induction ks with
    | nil => simp
    | cons k ks ih =>
      have := positionsOf_pos (hks k (by simp))
      have := ih fun x hx => hks x (List.mem_cons_of_mem _ hx)
      simp only [List.flatMap_cons, List.length_append, List.length_cons]
      omega
  induction keys with
  | nil => cases h
  | cons k keys ih =>
    rw [List.mapM_cons] at h
    have hle := hle keys fun x hx => hk x (List.mem_cons_of_mem _ hx)
    simp only [List.flatMap_cons, List.length_append, List.length_cons]
    cases h1 : onlyPosition columns k with
    | none =>
      have := onlyPosition_none h1 (hk k (by simp))
      omega
    | some j =>
      have h1' := onlyPosition_some h1
      cases h2 : keys.mapM (onlyPosition columns) with
      | some qs => rw [h1, h2] at h; cases h
      | none =>
        have := ih h2 fun x hx => hk x (List.mem_cons_of_mem _ hx)
        rw [h1']
        simp only [List.length_cons, List.length_nil]
        omega

theorem nodup_filter_inj {l : List κ} {p : κ → Bool} (h : (l.filter p).Nodup) {i j : Nat} {x : κ} (hi : l[i]? = some x)
    (hj : l[j]? = some x) (hp : p x = true) : i = j := by
  unfold List.Nodup at h
  rw [List.pairwise_filter, List.pairwise_iff_getElem] at h
  obtain ⟨hi1, hi2⟩ := List.getElem?_eq_some_iff.1 hi
  obtain ⟨hj1, hj2⟩ := List.getElem?_eq_some_iff.1 hj
  rcases Nat.lt_trichotomy i j with hl | hl | hl
  · have := h i j hi1 hj1 hl
    rw [hi2, hj2] at this
    exact absurd rfl (this hp hp)
  · exact hl
  · have := h j i hj1 hi1 hl
    rw [hi2, hj2] at this
    exact absurd rfl (this hp hp)

/-- the positions of the labels that satisfy `p`, when those do not repeat -/
theorem flatMap_filter [DecidableEq κ] {l : List κ} {p : κ → Bool} (h : (l.filter p).Nodup) :
    (l.filter p).flatMap (positionsOf l) = (List.range l.length).filter fun i => l[i]?.any p := by
  have e : (l.filter p).flatMap (positionsOf l) =
      ((List.range l.length).filter fun i => l[i]?.any p).flatMap fun i => [i] := by
    rw [← takeList_filter l p]
    unfold takeList
    generalize hK : ((List.range l.length).filter fun i => l[i]?.any p) = K
    have hmem : ∀ i ∈ K, ∃ x, l[i]? = some x ∧ p x = true := by
      intro i hi
      rw [← hK, List.mem_filter] at hi
      have := hi.2
      cases hl : l[i]? with
      | none => rw [hl] at this; cases this
      | some x => rw [hl] at this; exact ⟨x, rfl, by simpa using this⟩
    clear hK
    induction K with
    | nil => rfl
    | cons i K ih =>
      obtain ⟨x, hx, hpx⟩ := hmem i (by simp)
      rw [List.filterMap_cons, hx]
      simp only [List.flatMap_cons]
      rw [ih fun j hj => hmem j (List.mem_cons_of_mem _ hj)]
      congr 1
      unfold positionsOf
      apply filter_range_one
      · exact (List.getElem?_eq_some_iff.1 hx).1
      · simp [hx]
      · intro j _ hj
        exact nodup_filter_inj h (by simpa using hj) hx hpx
  rw [e]
  simp

theorem mapM_id_some {τ : Type} (l : List τ) : (l.map some).mapM id = some l := by
  induction l with
  | nil => rfl
  | cons x l ih => simp [ih]

theorem takeRows_all {df : Frame ι κ α} (h : df.WF) : df.takeRows (List.range df.nrows) = df := by
  unfold Frame.takeRows Frame.nrows
  rw [takeList_range]
  conv => lhs; rw [← h.rows_len, takeList_range]

theorem takeCols_all {df : Frame ι κ α} (h : df.WF) : df.takeCols (List.range df.ncols) = df := by
  unfold Frame.takeCols Frame.ncols
  rw [takeList_range]
  have : df.rows.map (takeList · (List.range df.columns.length)) = df.rows := by
    conv => rhs; rw [← List.map_id df.rows]
    apply List.map_congr_left
    intro r hr
    rw [← h.row_width r hr, takeList_range]; rfl
  rw [this]

theorem takeColLabels_shows [DecidableEq ι] [DecidableEq κ] (cfg : Cfg) (hp : 1 ≤ cfg.nPartitions) (hmr : 1 ≤ cfg.minRow)
    (hmc : 1 ≤ cfg.minCol) (known : Nat → Nat → Bool × Bool) {m : LFrame ι κ α} {df : Frame ι κ α} (h : m.Shows df)
    {labels : List κ} (hl : ∀ x ∈ labels, x ∈ df.columns) (hn : labels.Nodup) :
    ∃ m', m.takeColLabels cfg known labels = some m' ∧ m'.Shows (df.takeCols (labels.flatMap (positionsOf df.columns))) := by
  unfold LFrame.takeColLabels
  rw [h.getColumns, getIndexerFor_present _ _ hl, mapM_id_some, Option.bind_some]
  have hlt : ∀ x ∈ labels.flatMap (positionsOf df.columns), x < df.columns.length := by
    intro x hx
    rw [List.mem_flatMap] at hx
    obtain ⟨k, _, hx⟩ := hx
    exact (List.getElem?_eq_some_iff.1 (mem_positionsOf.1 hx)).1
  obtain ⟨m', e1, e2⟩ := take2d_shows cfg hp hmr hmc h (known := known) (kn := true) (fun _ _ _ => rfl)
    (rows := none) (cols := some (.array (labels.flatMap (positionsOf df.columns))))
    (by simp) (by intro q hq; cases hq; exact hlt) (by simp) (by simp) (by simp)
    (by intro _ q hq; cases hq; exact flatMap_positionsOf_nodup _ hn)
  refine ⟨m', e1, ?_⟩
  have : reqList df.nrows none = List.range df.nrows := rfl
  rw [this, takeRows_all h.wf] at e2
  exact e2

theorem setIndexFrom_shows [DecidableEq ι] [DecidableEq κ] (cfg : Cfg) (hp : 1 ≤ cfg.nPartitions) (hmr : 1 ≤ cfg.minRow)
    (hmc : 1 ≤ cfg.minCol) (known : Nat → Nat → Bool × Bool) (nan : α) (lab : List α → ι) {m : LFrame ι κ α} {df : Frame ι κ α}
    (h : m.Shows df) (keys : List κ) (hk : keys.Nodup) (hrest : (df.columns.filter (· ∉ keys)).Nodup) (drop : Bool) :
    (∀ df', df.setIndexFrom lab keys drop = some df' →
      ∃ m', m.setIndexFrom cfg known nan lab keys drop = some m' ∧ m'.Shows df') ∧
    (df.setIndexFrom lab keys drop = none → m.setIndexFrom cfg known nan lab keys drop = none) := by
  unfold LFrame.setIndexFrom
  rw [h.getColumns]
  by_cases hall : keys.all (df.columns.contains ·) = true
  · rw [if_pos hall]
    have hin : ∀ k ∈ keys, k ∈ df.columns := by simpa using hall
    obtain ⟨e, e1, e2⟩ := takeColLabels_shows cfg hp hmr hmc known h hin hk
    have e3 : e.toPandas nan = some (df.takeCols (keys.flatMap (positionsOf df.columns))) := by
      obtain ⟨m1, s1, s2⟩ := synced_spec e2
      unfold LFrame.toPandas
      rw [s1, Option.bind_some]
      exact s2.toPandas nan
    unfold LFrame.toLabels
    rw [e1, Option.bind_some, e3, Option.bind_some, h.getColumns]
    constructor
    · intro df' hd
      unfold Frame.setIndexFrom at hd
      cases hps : keys.mapM (onlyPosition df.columns) with
      | none => rw [hps] at hd; cases hd
      | some ps =>
        rw [hps, Option.map_some, Option.some.injEq] at hd
        obtain ⟨_, a2, a3, a4⟩ := onlyPositions_spec hps
        rw [a2]
        have hlen : (df.takeCols ps).columns.length = keys.length := by simp only [Frame.takeCols, a3]
        unfold labelsFrom
        rw [if_pos hlen, Option.bind_some]
        have hcols : (df.takeCols ps).columns = keys := a3
        rw [hcols]
        have hfil : (df.columns.filter fun i => !(keys.contains i)) = df.columns.filter (· ∉ keys) := by
          apply List.filter_congr; intro x _; simp
        rw [hfil]
        obtain ⟨r, r1, r2⟩ := takeColLabels_shows cfg hp hmr hmc known h
          (labels := df.columns.filter (· ∉ keys)) (fun x hx => (List.mem_filter.1 hx).1) hrest
        rw [r1, Option.bind_some]
        rw [flatMap_filter hrest] at r2
        have hkept : ((List.range df.columns.length).filter fun i => df.columns[i]?.any fun x => decide (x ∉ keys)) =
            (List.range df.ncols).filter (fun j => decide (j ∉ ps)) := by
          apply List.filter_congr
          intro j hj
          have hj := List.mem_range.1 hj
          rw [List.getElem?_eq_getElem hj, Option.any_some]
          apply decide_eq_decide.2
          apply not_congr
          constructor
          · intro hx
            rw [← a2, List.mem_flatMap]
            exact ⟨_, hx, mem_positionsOf.2 (by simp [hj])⟩
          · intro hx
            rw [← a2, List.mem_flatMap] at hx
            obtain ⟨k, hk1, hk2⟩ := hx
            rw [mem_positionsOf, List.getElem?_eq_getElem hj, Option.some.injEq] at hk2
            rw [hk2]; exact hk1
        rw [hkept] at r2
        have hlab : ((df.takeCols ps).rows.map lab) = df.rows.map fun r => lab (takeList r ps) := by
          simp [Frame.takeCols, Function.comp_def]
        rw [hlab]
        have hset : ∀ f : Frame ι κ α, f.index.length = df.index.length →
            f.setIndex (df.rows.map fun r => lab (takeList r ps)) = some { f with index := df.rows.map fun r => lab (takeList r ps) } := by
          intro f hf
          unfold Frame.setIndex
          rw [if_pos (by simp [h.wf.rows_len, hf])]
        obtain ⟨t, t1, t2⟩ := setIndex_shows r2 _ (hset _ rfl)
        rw [t1, Option.bind_some]
        cases drop with
        | true =>
          refine ⟨t, rfl, ?_⟩
          rw [← hd]
          exact t2
        | false =>
          obtain ⟨c, c1, c2⟩ := copy_shows h
          obtain ⟨u, u1, u2⟩ := setIndex_shows c2 _ (hset _ rfl)
          refine ⟨u, ?_, ?_⟩
          · simp only [Bool.false_eq_true, ↓reduceIte, c1, Option.bind_some]
            rw [t2.getIndex]
            exact u1
          · rw [← hd]
            simp only [Bool.false_eq_true, ↓reduceIte, takeCols_all h.wf]
            exact u2
    · intro hd
      unfold Frame.setIndexFrom at hd
      rw [Option.map_eq_none_iff] at hd
      have hlt := onlyPositions_none hd hin
      have hlen : (df.takeCols (keys.flatMap (positionsOf df.columns))).columns.length = (keys.flatMap (positionsOf df.columns)).length := by
        simp only [Frame.takeCols]
        apply takeList_length
        intro x hx
        rw [List.mem_flatMap] at hx
        obtain ⟨k, _, hx⟩ := hx
        exact (List.getElem?_eq_some_iff.1 (mem_positionsOf.1 hx)).1
      unfold labelsFrom
      rw [if_neg (by omega)]
      rfl
  · rw [if_neg hall]
    constructor
    · intro df' hd
      exfalso
      unfold Frame.setIndexFrom at hd
      cases hps : keys.mapM (onlyPosition df.columns) with
      | none => rw [hps] at hd; cases hd
      | some ps => exact hall (by simpa using (onlyPositions_spec hps).1)
    · intro _; rfl
