import Verif.Model.CaseWhen
import Verif.Lemmas.Labels
import Verif.Lemmas.Concat
import Verif.Lemmas.NAry
import Verif.Lemmas.Dropna
import Verif.Lemmas.SortIndex

variable {L α : Type}

/-! ### frames of one column -/

theorem oneColumn_wf {index : List L} {name : L} {vals : List α} (h : vals.length = index.length) : (oneColumn index name vals).WF :=
  ⟨by simpa [oneColumn] using h, by
    intro r hr
    simp only [oneColumn, List.mem_map] at hr
    obtain ⟨v, _, rfl⟩ := hr
    rfl⟩

theorem oneColumn_len {index : List L} {name : L} {vals : List α} (h : (oneColumn index name vals).WF) : vals.length = index.length := by
  simpa [oneColumn] using h.rows_len

theorem oneColumn_column (index : List L) (name : L) (vals : List α) : (oneColumn index name vals).column 0 = vals := by
  simp [oneColumn, Frame.column, List.filterMap_map, Function.comp_def]

/-- every block of a frame of one column -/
theorem oneColumn_cut (index : List L) (name : L) (vals : List α) (rl : List Nat) :
    (oneColumn index name vals).cut rl [1] = (List.range rl.length).map fun i =>
      [oneColumn (pySlice index (off rl i) (off rl (i + 1))) name (pySlice vals (off rl i) (off rl (i + 1)))] := by
  unfold Frame.cut
  rw [sliceBounds_eq rl, List.map_map]
  apply List.map_congr_left
  intro i _
  simp only [Function.comp, sliceBounds, cumsumFrom, consecutive, List.map_cons, List.map_nil, oneColumn, Frame.ilocRows, Frame.ilocCols,
    List.cons.injEq, Frame.mk.injEq, true_and, and_true]
  refine ⟨rfl, ?_⟩
  rw [pySlice_map', List.map_map]
  apply List.map_congr_left
  intro v _
  rfl

/-- a frame with one column -/
theorem exists_oneColumn {df : Frame L L α} (h : df.WF) (hc : df.columns.length = 1) :
    ∃ c vals, df = oneColumn df.index c vals ∧ vals.length = df.index.length := by
  obtain ⟨c, hc⟩ := List.length_eq_one_iff.1 hc
  have hr : ∃ vals : List α, df.rows = vals.map ([·]) := by
    have : ∀ r ∈ df.rows, r.length = 1 := fun r hr => by rw [h.row_width r hr, hc]; rfl
    revert this
    generalize df.rows = rows
    intro this
    induction rows with
    | nil => exact ⟨[], rfl⟩
    | cons r rs ih =>
      obtain ⟨v, hv⟩ := List.length_eq_one_iff.1 (this r (by simp))
      obtain ⟨vs, hvs⟩ := ih (fun x hx => this x (List.mem_cons_of_mem _ hx))
      exact ⟨v :: vs, by rw [hv, hvs]; rfl⟩
  obtain ⟨vals, hv⟩ := hr
  refine ⟨c, vals, ?_, ?_⟩
  · cases df with
    | mk i cs rs =>
      simp only at hc hv
      rw [hc, hv]
      rfl
  · rw [← h.rows_len, hv, List.length_map]

theorem width_one {τ : Frame L L α} {rl cw : List Nat} (hc : τ.IsCut rl cw) (h1 : τ.columns.length = 1) (hw : gridWidth (τ.cut rl cw) = 1) :
    cw = [1] := by
  rw [gridWidth_cut hc.rl_ne] at hw
  obtain ⟨w, rfl⟩ := List.length_eq_one_iff.1 hw
  have := hc.cw_sum
  simp only [List.sum_cons, List.sum_nil, Nat.add_zero, Frame.ncols, h1] at this
  rw [this]

/-! ### rows found by their labels -/

/-- where the rows labelled `J` are found -/
def leftPositions [DecidableEq L] (labels J : List L) : List (Option Nat) :=
  if labels = J then (List.range J.length).map some else J.map fun x => labels.findIdx? (· == x)

theorem leftPositions_indexer [DecidableEq L] (labels J : List L) : IsIndexer labels J (leftPositions labels J) := by
  unfold leftPositions
  by_cases h : labels = J
  · rw [if_pos h, h]; exact isIndexer_same J
  · rw [if_neg h]; exact isIndexer_nodup h

theorem seriesFor_length [DecidableEq L] {fill : α} {index idx : List L} {cells out : List α} (hl : cells.length = idx.length)
    (h : seriesFor fill index idx cells = some out) : out.length = index.length := by
  unfold seriesFor at h
  split at h
  · rename_i he
    cases h
    rw [hl, he]
  · split at h
    · cases h; simp
    · cases h

/-- a frame of one column brought to other row labels -/
theorem reindex_oneColumn [DecidableEq L] {fill : α} {index idx : List L} {name : L} {cells out : List α} (hl : cells.length = idx.length)
    (h : seriesFor fill index idx cells = some out) :
    reindexFn true fill index (leftPositions idx index) (oneColumn idx name cells) = oneColumn index name out := by
  have hp : pick fill (leftPositions idx index) cells = out := by
    unfold seriesFor at h
    unfold leftPositions
    split at h
    · rename_i he
      cases h
      rw [if_pos he, ← he, ← hl]
      exact pick_range fill _
    · rename_i he
      rw [if_neg he]
      split at h
      · cases h
        simp [pick, List.map_map, Function.comp_def]
      · cases h
  have hol := seriesFor_length hl h
  have hcols : (oneColumn idx name cells).cols = [cells] := by
    have : (oneColumn idx name cells).cols = [(oneColumn idx name cells).column 0] := rfl
    rw [this, oneColumn_column]
  have hr : ((List.range index.length).map fun i => [cells].filterMap fun c => (pick fill (leftPositions idx index) c)[i]?) = out.map ([·]) := by
    apply List.ext_getElem
    · simp [hol]
    · intro i h1 h2
      have : i < out.length := by simpa using h2
      simp [hp, this]
  simp only [reindexFn, ↓reduceIte, Frame.reindexRows, Frame.mapColumns, hcols]
  rw [hr]
  rfl

/-- what the code does to the rows of another frame of a left join -/
theorem leftKeep_made [DecidableEq L] {first : List L} {rest : List (List L)} (i : Nat) {labels : List L}
    (hl : labels = first ∨ labels.Nodup) (hre : first.Nodup ∨ (∀ l ∈ rest, l = first) ∨ labels ≠ first) :
    madeReindexer leftKeep true first rest i labels = some (leftPositions labels first) := by
  have hJ : joinedLabels leftKeep true first rest = first := rfl
  unfold madeReindexer
  simp only [hJ]
  by_cases hneed : needIndexers true first rest = true
  · rw [if_pos hneed]
    have hI : joinIndexer leftKeep true first rest i labels = getIndexerFor labels first := rfl
    have hnd : labels.Nodup := by
      rcases hl with rfl | h
      · rcases hre with h | h | h
        · exact h
        · unfold needIndexers at hneed
          have : allSame labels rest = true := List.all_eq_true.2 fun l hl => by simpa using h l hl
          rw [this] at hneed
          cases hneed
        · exact absurd rfl h
      · exact h
    rw [hI, getIndexerFor_nodup hnd, if_pos (by simp)]
    unfold leftPositions
    by_cases h : labels = first
    · subst h
      rw [if_pos rfl, findIdx_self hnd]
    · rw [if_neg h]
  · rw [if_neg hneed]
    unfold reindexPositions leftPositions
    by_cases h : labels = first
    · rw [if_pos h, if_pos h]
    · rw [if_neg h, if_neg h, if_pos (hl.resolve_left h)]

/-- `_copartition(how="left", sort=False)` of the rows: the frame itself is left as it is, the others get its labels and its division -/
theorem copartition_left [DecidableEq L] (cfg : Cfg) (hp : 1 ≤ cfg.nPartitions) (hr : 1 ≤ cfg.minRow) (hc : 1 ≤ cfg.minCol) (nan : α)
    {p0 : Piece L α} (h0 : p0.Ok true) (hh0 : p0.has = true) (ps : List (Piece L α)) (hok : ∀ p ∈ ps, p.Ok true ∧ p.has = true)
    (hl : ∀ p ∈ ps, p.df.index = p0.df.index ∨ p.df.index.Nodup)
    (hre : p0.df.index.Nodup ∨ (∀ p ∈ ps, p.df.index = p0.df.index) ∨ ∀ p ∈ ps, p.df.index = p0.df.index → p.along = p0.along) :
    copartition leftKeep cfg true nan p0.m (ps.map (·.m)) =
      some (p0.m.parts :: ps.map fun p => (reindexFn true nan p0.df.index (leftPositions p.df.index p0.df.index) p.df).cut p0.along p.across,
        cacheAfterCheck true p0.m (ps.map (·.m))) := by
  have hlab : p0.m.axisLabels true = p0.df.index := h0.labels
  have hsame : ∀ p ∈ ps, p.df.index = p0.df.index → p.along = p0.along →
      p.m.parts = (reindexFn true nan p0.df.index (leftPositions p.df.index p0.df.index) p.df).cut p0.along p.across := by
    intro p hpm e1 e2
    have := Piece.target_same (nan := nan) (hok p hpm).1 (J := p0.df.index) e1 (leftPositions_indexer p.df.index p0.df.index)
    rw [this, e2]
    simp [Piece.target, (hok p hpm).2, Frame.cutA]
  unfold copartition
  split
  · rename_i hid
    rw [List.map_cons, List.map_map]
    congr 3
    apply List.map_congr_left
    intro p hpm
    have := List.all_eq_true.1 hid p.m (List.mem_map_of_mem hpm)
    unfold axesIdentical at this
    simp only [Bool.and_eq_true, beq_iff_eq] at this
    rw [hlab, (hok p hpm).1.labels, (hok p hpm).1.lens (hok p hpm).2, h0.lens hh0] at this
    exact hsame p hpm this.1 this.2
  · rename_i hid
    have hne : ps ≠ [] := by
      rintro rfl
      exact hid rfl
    have hps : (ps.map (·.m)).map (·.axisLabels true) = ps.map (·.df.index) := by
      rw [List.map_map]
      exact List.map_congr_left fun p hpm => (hok p hpm).1.labels
    have hemp : p0.m.parts.isEmpty = false := by rw [h0.isEmpty, hh0]; rfl
    have hJ : joinedLabels leftKeep true p0.df.index (ps.map (·.df.index)) = p0.df.index := rfl
    have hcache : cacheAfterCheck true p0.m (ps.map (·.m)) = (some p0.df.index, some p0.along) := by
      unfold cacheAfterCheck
      rw [if_neg (by simpa using hne), hlab, h0.lens hh0]
    simp only [hlab, hps, hJ, List.zipIdx_cons, List.takeWhile_cons, List.dropWhile_cons, hemp, Bool.false_eq_true, ↓reduceIte,
      List.map_nil, List.nil_append, hcache]
    have hbase : ∀ I, alignBase cfg true nan p0.df.index I p0.m = some (p0.m.parts, p0.along) := by
      intro I
      unfold alignBase
      rw [if_neg (by simp [hlab]), h0.lens hh0]
    rw [hbase, Option.bind_some]
    have hs := Piece.along_sum h0 hh0
    rw [show (ps.map (·.m)).zipIdx (0 + 1) = (ps.zipIdx (0 + 1)).map (fun e => (e.1.m, e.2)) from List.zipIdx_map,
      mapM_map_some (g := fun e => (reindexFn true nan p0.df.index (leftPositions e.1.df.index p0.df.index) e.1.df).cut p0.along e.1.across)]
    · simp only [Option.map_some, Option.some.injEq, Prod.mk.injEq, List.cons.injEq, true_and, and_true]
      rw [show (fun e : Piece L α × Nat => (reindexFn true nan p0.df.index (leftPositions e.1.df.index p0.df.index) e.1.df).cut p0.along e.1.across)
        = (fun p : Piece L α => (reindexFn true nan p0.df.index (leftPositions p.df.index p0.df.index) p.df).cut p0.along p.across) ∘ Prod.fst from rfl,
        ← List.map_map, List.zipIdx_map_fst]
    · intro e he
      have hem : e.1 ∈ ps := by
        have := List.mem_map_of_mem (f := Prod.fst) he
        rwa [List.zipIdx_map_fst] at this
      have hemp := hok e.1 hem
      have hspec := alignOther_spec cfg hp hr hc (nan := nan) (J := p0.df.index) hemp.1 (leftPositions_indexer e.1.df.index p0.df.index) hs.1
        (by rw [hs.2]; rfl)
        (made := madeReindexer leftKeep true p0.df.index (ps.map (·.df.index)) e.2 (e.1.m.axisLabels true)) (by
          rw [hemp.1.labels]
          by_cases h1 : e.1.df.index = p0.df.index ∧ e.1.along = p0.along
          · exact Or.inr ⟨h1.1, hemp.2, h1.2⟩
          · left
            refine leftKeep_made _ (hl e.1 hem) ?_
            rcases hre with h | h | h
            · exact Or.inl h
            · refine Or.inr (Or.inl fun l hl => ?_)
              obtain ⟨p, hpm, rfl⟩ := List.mem_map.1 hl
              exact h p hpm
            · refine Or.inr (Or.inr fun h2 => h1 ⟨h2, h e.1 hem h2⟩))
      rw [hspec]
      simp [Piece.target, hemp.2, Frame.cutA]

/-! ### operands -/

/-- A condition or replacement, with the Series that a Modin Series stands for. -/
inductive CaseOperand (L α : Type) where
  | frame (m : MFrame L L α) (index : List L) (name : L) (cells : List α)
  | plain (a : CaseArg L α)

/-- as it is given to Modin -/
def CaseOperand.given : CaseOperand L α → CaseData L α
  | .frame m _ _ _ => .frame m
  | .plain a => .plain a

/-- as it is given to pandas -/
def CaseOperand.arg : CaseOperand L α → CaseArg L α
  | .frame _ index _ cells => .series index cells
  | .plain a => a

/-- a Modin Series stands for its Series and is not divided into several columns of blocks; a Series has as many cells as labels; a
    function goes row by row -/
def CaseOperand.Ok : CaseOperand L α → Prop
  | .frame m index name cells => m.Represents (oneColumn index name cells) ∧ gridWidth m.parts = 1
  | .plain (.series index cells) => cells.length = index.length
  | .plain (.fn f) => ∃ g : α → α, ∀ l, f l = l.map g
  | .plain _ => True

/-- the Modin Series among the operands, with the labels of what they stand for -/
def CaseOperand.frames : List (CaseOperand L α) → List (MFrame L L α × List L)
  | [] => []
  | .frame m index _ _ :: os => (m, index) :: frames os
  | .plain _ :: os => frames os

/-- an operand brought to the rows of the frame, if it is a pandas Series -/
def CaseOperand.ready [DecidableEq L] (fill : α) (index : List L) : CaseOperand L α → CaseOperand L α
  | .plain (.series idx cs) => .plain (.series index ((seriesFor fill index idx cs).getD []))
  | o => o

theorem trivial_eq [DecidableEq L] {num : Nat → L} {index : List L} (h : trivialIndex num index = true) :
    index = (List.range index.length).map num := by
  unfold trivialIndex at h
  exact eq_of_beq h

/-- the short cut for row numbers does the same as reindexing -/
theorem toRows_trivial [DecidableEq L] {num : Nat → L} (hnum : ∀ i j, num i = num j → i = j) {fill : α} {index idx : List L} {cs : List α}
    (hl : cs.length = idx.length) (h1 : trivialIndex num index = true) (h2 : trivialIndex num idx = true) :
    idx.take index.length ++ ((List.range index.length).drop (idx.take index.length).length).map num = index ∧
    seriesFor fill index idx cs = some (cs.take index.length ++ List.replicate (index.length - (cs.take index.length).length) fill) := by
  have e1 := trivial_eq h1
  have e2 := trivial_eq h2
  constructor
  · conv => rhs; rw [e1]
    have : idx.take index.length = ((List.range index.length).take (idx.take index.length).length).map num := by
      conv => lhs; rw [e2]
      rw [← List.map_take, List.length_take, List.take_range, List.take_range]
      congr 2
      omega
    conv => lhs; lhs; rw [this]
    rw [← List.map_append, List.take_append_drop]
  · unfold seriesFor
    by_cases h : idx = index
    · rw [if_pos h, ← h, ← hl]
      simp
    · have hnd : idx.Nodup := by
        rw [e2]
        unfold List.Nodup
        rw [List.pairwise_map]
        exact List.nodup_range.imp fun hne e => hne (hnum _ _ e)
      rw [if_neg h, if_pos hnd]
      congr 1
      apply List.ext_getElem?
      intro k
      rw [List.getElem?_map]
      by_cases hk : k < index.length
      · have hik : index[k]? = some (num k) := by rw [e1]; simp [hk]
        rw [hik, Option.map_some]
        by_cases hk2 : k < idx.length
        · have hf : idx.findIdx? (· == num k) = some k := by
            rw [List.findIdx?_eq_some_iff_getElem]
            have hget : ∀ j (hj : j < idx.length), idx[j] = num j := by
              intro j hj
              have : idx[j]? = some (num j) := by
                conv => lhs; rw [e2]
                simp [hj]
              rw [List.getElem?_eq_getElem hj] at this
              exact Option.some.inj this
            refine ⟨hk2, by simp [hget k hk2], fun j hj => ?_⟩
            rw [hget j (by omega)]
            simp only [beq_iff_eq]
            intro e
            have := hnum _ _ e
            omega
          rw [hf, List.getElem?_append_left (by simp; omega), List.getElem?_take, if_pos hk]
          simp [List.getElem?_eq_getElem (hl ▸ hk2 : k < cs.length)]
        · have hf : idx.findIdx? (· == num k) = none := by
            rw [List.findIdx?_eq_none_iff]
            intro x hx
            rw [e2] at hx
            simp only [List.mem_map, List.mem_range] at hx
            obtain ⟨j, hj, rfl⟩ := hx
            simp only [beq_eq_false_iff_ne]
            intro e
            have := hnum _ _ e
            omega
          rw [hf, List.getElem?_append_right (by simp; omega), List.getElem?_replicate, if_pos (by simp; omega)]
          rfl
      · rw [List.getElem?_eq_none (by omega), List.getElem?_eq_none (by simp; omega)]
        rfl

theorem toRows_ready [DecidableEq L] {num : Nat → L} (hnum : ∀ i j, num i = num j → i = j) {cond : Bool} {fill : α} {index : List L} {vals cs : List α}
    {o : CaseOperand L α} (hok : o.Ok) (h : o.arg.cells cond fill index vals = some cs) :
    o.given.toRows num fill index = some (o.ready fill index).given ∧ (o.ready fill index).arg.cells cond fill index vals = some cs := by
  cases o with
  | frame m idx name cells => exact ⟨rfl, h⟩
  | plain a =>
    cases a with
    | series idx cells =>
      have hs : seriesFor fill index idx cells = some cs := h
      have hl : cells.length = idx.length := hok
      constructor
      · simp only [CaseOperand.given, CaseData.toRows, CaseArg.toRows, CaseOperand.ready, hs, Option.getD_some]
        split
        · rename_i ht
          rw [Bool.and_eq_true] at ht
          have := toRows_trivial hnum hl (fill := fill) ht.1 ht.2
          rw [hs] at this
          rw [this.1, ← Option.some.inj this.2]
          rfl
        · rfl
      · show seriesFor fill index index ((seriesFor fill index idx cells).getD []) = some cs
        rw [hs]
        exact if_pos rfl
    | array cells => exact ⟨rfl, h⟩
    | scalar a => exact ⟨rfl, h⟩
    | fn f => exact ⟨rfl, h⟩

/-! ### what a block gets -/

/-- what block number `i` gets of an operand has the cells of its rows -/
def DividedAs [DecidableEq L] (cond : Bool) (fill : α) (rl : List Nat) (index : List L) (vals cs : List α) (d : CaseData L α) : Prop :=
  ∀ i (hi : i < rl.length), ∃ A, d.chunk i rl[i] (off rl i) = some A ∧
    A.cells cond fill (pySlice index (off rl i) (off rl (i + 1))) (pySlice vals (off rl i) (off rl (i + 1))) =
      some (pySlice cs (off rl i) (off rl (i + 1)))

theorem pySlice_same_length {τ σ : Type} {a : List τ} {b : List σ} (h : a.length = b.length) (i j : Nat) :
    (pySlice a i j).length = (pySlice b i j).length := by
  rw [pySlice_len, pySlice_len, h]

theorem pySlice_const {τ σ : Type} (a : σ) (l : List τ) (i j : Nat) : (pySlice l i j).map (fun _ => a) = pySlice (l.map fun _ => a) i j :=
  (pySlice_map' _ _ _ _).symm

/-- operands that are not Modin Series: the rows' own part, or the whole of it -/
theorem divided_plain [DecidableEq L] {cond : Bool} {fill : α} {rl : List Nat} {index : List L} {vals cs : List α} {a : CaseArg L α}
    (hok : (CaseOperand.plain a).Ok) (hser : ∀ idx cells, a = .series idx cells → idx = index) (h : a.cells cond fill index vals = some cs) :
    DividedAs cond fill rl index vals cs (.plain a) := by
  intro i hi
  have hoff := off_succ hi
  cases a with
  | series idx cells =>
    have hidx := hser idx cells rfl
    subst hidx
    simp only [CaseArg.cells, seriesFor, ↓reduceIte, Option.some.injEq] at h
    subst h
    refine ⟨_, rfl, ?_⟩
    rw [← hoff]
    simp [CaseArg.cells, seriesFor]
  | array cells =>
    simp only [CaseArg.cells] at h
    split at h
    · rename_i hl
      cases h
      refine ⟨_, rfl, ?_⟩
      rw [← hoff]
      simp [CaseArg.cells, pySlice_same_length hl]
    · cases h
  | scalar a =>
    simp only [CaseArg.cells] at h
    refine ⟨_, rfl, ?_⟩
    simp only [CaseArg.cells]
    split at h
    · cases h
    · cases h
      rename_i hc
      rw [if_neg hc, pySlice_const]
  | fn f =>
    obtain ⟨g, hg⟩ := hok
    simp only [CaseArg.cells, hg, List.length_map, ↓reduceIte, Option.some.injEq] at h
    subst h
    refine ⟨_, rfl, ?_⟩
    simp [CaseArg.cells, hg, pySlice_map']

/-- a Modin Series divided like the frame -/
theorem divided_frame [DecidableEq L] {cond : Bool} {fill : α} {rl : List Nat} {index : List L} {vals cs : List α} {name : L} {r : MFrame L L α}
    (hp : r.parts = (oneColumn index name cs).cut rl [1]) : DividedAs cond fill rl index vals cs (.frame r) := by
  intro i hi
  refine ⟨.series (pySlice index (off rl i) (off rl (i + 1))) (pySlice cs (off rl i) (off rl (i + 1))), ?_, ?_⟩
  · simp only [CaseData.chunk, hp]
    rw [oneColumn_cut]
    simp only [List.getElem?_map, List.getElem?_range hi, Option.map_some, Option.bind_some, List.getElem?_cons_zero]
    rw [oneColumn_column]
    rfl
  · simp [CaseArg.cells, seriesFor]

theorem mapM_two {A B C : Type} {f : A → Option B} {g : B → Option C} {h : A → C} {l : List A}
    (hl : ∀ a ∈ l, ∃ b, f a = some b ∧ g b = some (h a)) :
    ∃ bs, l.mapM f = some bs ∧ bs.mapM g = some (l.map h) ∧ bs.isEmpty = l.isEmpty := by
  induction l with
  | nil => exact ⟨[], rfl, rfl, rfl⟩
  | cons a l ih =>
    obtain ⟨b, h1, h2⟩ := hl a (by simp)
    obtain ⟨bs, h3, h4, _⟩ := ih fun x hx => hl x (List.mem_cons_of_mem _ hx)
    exact ⟨b :: bs, by rw [List.mapM_cons, h1, h3]; rfl, by rw [List.mapM_cons, h2, h4]; rfl, rfl⟩

/-- the cells of rows `a` to `b` are those of the whole result -/
theorem cases_slice (flag : α → Bool) (vals : List α) (cols : List (List α × List α)) (a b : Nat) :
    ((pySlice vals a b).mapIdx fun i v => firstMatch flag v ((cols.map fun p => (pySlice p.1 a b, pySlice p.2 a b)).filterMap
      fun p => (p.1[i]?).bind fun c => (p.2[i]?).map fun r => (c, r))) =
    pySlice (vals.mapIdx fun i v => firstMatch flag v (cols.filterMap fun p => (p.1[i]?).bind fun c => (p.2[i]?).map fun r => (c, r))) a b := by
  apply List.ext_getElem?
  intro k
  rw [List.getElem?_mapIdx, pySlice_getElem?, pySlice_getElem?, List.getElem?_mapIdx]
  by_cases hk : k < b - a
  · rw [if_pos hk, if_pos hk, List.filterMap_map]
    congr 1
    funext v
    congr 1
    apply filterMap_congr'
    intro p _
    simp only [Function.comp, pySlice_getElem?, if_pos hk]
  · rw [if_neg hk, if_neg hk]
    rfl

/-! ### the Modin Series among the operands -/

def CaseOperand.pieces : List (CaseOperand L α) → List (Piece L α)
  | [] => []
  | .frame m index name cells :: os => ⟨m, oneColumn index name cells, true, m.getRowLens, [1]⟩ :: pieces os
  | .plain _ :: os => pieces os

theorem framesOf_pieces (os : List (CaseOperand L α)) : framesOf (os.map (·.given)) = (CaseOperand.pieces os).map (·.m) := by
  induction os with
  | nil => rfl
  | cons o os ih =>
    cases o with
    | frame m index name cells => exact congrArg (m :: ·) ih
    | plain a => exact ih

theorem mem_pieces {os : List (CaseOperand L α)} {p : Piece L α} (h : p ∈ CaseOperand.pieces os) :
    ∃ m index name cells, CaseOperand.frame m index name cells ∈ os ∧ p = ⟨m, oneColumn index name cells, true, m.getRowLens, [1]⟩ := by
  induction os with
  | nil => simp [CaseOperand.pieces] at h
  | cons o os ih =>
    cases o with
    | frame m index name cells =>
      rcases List.mem_cons.1 h with rfl | h
      · exact ⟨m, index, name, cells, by simp, rfl⟩
      · obtain ⟨a, b, c, d, e, f⟩ := ih h
        exact ⟨a, b, c, d, List.mem_cons_of_mem _ e, f⟩
    | plain a =>
      obtain ⟨a, b, c, d, e, f⟩ := ih h
      exact ⟨a, b, c, d, List.mem_cons_of_mem _ e, f⟩

theorem mem_frames {os : List (CaseOperand L α)} {m : MFrame L L α} {index : List L} {name : L} {cells : List α}
    (h : CaseOperand.frame m index name cells ∈ os) : (m, index) ∈ CaseOperand.frames os := by
  induction os with
  | nil => simp at h
  | cons o os ih =>
    rcases List.mem_cons.1 h with rfl | h2
    · simp [CaseOperand.frames]
    · cases o with
      | frame _ _ _ _ => exact List.mem_cons_of_mem _ (ih h2)
      | plain _ => exact ih h2

theorem pieces_nil {os : List (CaseOperand L α)} (h : CaseOperand.frames os = []) : CaseOperand.pieces os = [] := by
  induction os with
  | nil => rfl
  | cons o os ih =>
    cases o with
    | frame _ _ _ _ => simp [CaseOperand.frames] at h
    | plain _ => exact ih h

/-- an operand with its Modin Series replaced -/
def CaseOperand.placed (H : Piece L α → MFrame L L α) : CaseOperand L α → CaseData L α
  | .frame m index name cells => .frame (H ⟨m, oneColumn index name cells, true, m.getRowLens, [1]⟩)
  | .plain a => .plain a

theorem nextFrames_placed (H : Piece L α → MFrame L L α) (os : List (CaseOperand L α)) :
    nextFrames (os.map (·.given)) ((CaseOperand.pieces os).map H) = os.map (·.placed H) := by
  induction os with
  | nil => rfl
  | cons o os ih =>
    cases o with
    | frame m index name cells => exact congrArg (CaseData.frame _ :: ·) ih
    | plain a =>
      refine Eq.trans ?_ (congrArg (CaseData.plain a :: ·) ih)
      show nextFrames (.plain a :: os.map (·.given)) _ = _
      rw [nextFrames]
      · rfl
      · intros; contradiction

theorem operand_piece {m : MFrame L L α} {index : List L} {name : L} {cells : List α} (h : (CaseOperand.frame m index name cells).Ok) :
    Piece.Ok true ⟨m, oneColumn index name cells, true, m.getRowLens, [1]⟩ := by
  obtain ⟨hr, hw⟩ := h
  obtain ⟨rl, cw, hc, hp, hrl, _⟩ := hr.blocks
  have hcw : cw = [1] := width_one hc rfl (by rw [← hp]; exact hw)
  subst hcw
  have hg : m.getRowLens = rl := getRowLens_cut hc hp hrl
  exact ⟨hr.wf, fun _ => by simp only [Frame.IsCutA, ↓reduceIte, hg]; exact hc,
    by simp only [Frame.cutA, ↓reduceIte, hg]; exact hp, fun _ => rfl, hr.getIndex⟩

/-- a frame of the wanted labels and division stays divided that way if no band is empty -/
theorem mk'_kept {index cols : List L} {name : L} {vals : List α} {rl : List Nat} (hc : (oneColumn index name vals).IsCut rl [1])
    (hb : 0 ∉ rl ∨ index = []) (hcols : cols.length = 1) :
    ∃ r, (MFrame.mk ((oneColumn index name vals).cut rl [1]) (some index) (some cols) (some rl) (some [1])).mk' = some r ∧
      r.parts = (oneColumn index name vals).cut rl [1] := by
  have hrs : rl.sum = index.length := hc.rl_sum
  refine ⟨_, if_pos ?_, ?_⟩
  · simp [validAxis, hrs, hcols]
  · unfold filterEmpties
    simp only
    split
    · rfl
    · rename_i hn
      simp only
      rw [keepNonzero_cut]
      rcases hb with hb | hb
      · rw [List.filter_eq_self.2 (by
          intro x hx
          have : x ≠ 0 := fun e => hb (by rw [← e]; exact hx)
          simpa using this)]
        rfl
      · exact absurd (by simp [hb]) hn

/-- the Modin Series among the operands, aligned with the frame -/
theorem alignCases_spec [DecidableEq L] (cfg : Cfg) (hp : 1 ≤ cfg.nPartitions) (hr : 1 ≤ cfg.minRow) (hc : 1 ≤ cfg.minCol) (cond : Bool)
    (fill : α) {m : MFrame L L α} {index : List L} {c0 : L} {vals : List α} {rl : List Nat} (hwf : (oneColumn index c0 vals).WF)
    (hcut : (oneColumn index c0 vals).IsCut rl [1]) (hparts : m.parts = (oneColumn index c0 vals).cut rl [1]) (hrl : m.getRowLens = rl)
    (hidx : m.getIndex = index) (hcols : m.getColumns.length = 1) (os : List (CaseOperand L α)) (hok : ∀ o ∈ os, o.Ok)
    (hcells : ∀ o ∈ os, ∃ cs, o.arg.cells cond fill index vals = some cs)
    (hser : ∀ o ∈ os, ∀ idx cells, o = .plain (.series idx cells) → idx = index)
    (hband : CaseOperand.frames os = [] ∨ 0 ∉ rl ∨ index = [])
    (hre : index.Nodup ∨ (∀ e ∈ CaseOperand.frames os, e.2 = index) ∨ ∀ e ∈ CaseOperand.frames os, e.2 = index → e.1.getRowLens = rl) :
    ∃ fs G, alignCases cfg fill m (os.map (·.given)) = some fs ∧ nextFrames (os.map (·.given)) fs = os.map G ∧
      ∀ o ∈ os, ∀ cs, o.arg.cells cond fill index vals = some cs → DividedAs cond fill rl index vals cs (G o) := by
  have h0 : Piece.Ok true (⟨m, oneColumn index c0 vals, true, rl, [1]⟩ : Piece L α) :=
    ⟨hwf, fun _ => hcut, hparts, fun _ => hrl, hidx⟩
  have hpo : ∀ p ∈ CaseOperand.pieces os, p.Ok true ∧ p.has = true := by
    intro p hpm
    obtain ⟨m', idx, nm, cells, h1, rfl⟩ := mem_pieces hpm
    exact ⟨operand_piece (hok _ h1), rfl⟩
  have hfound : ∀ m' idx nm cells, CaseOperand.frame m' idx nm cells ∈ os → cells.length = idx.length ∧
      ∃ cs, seriesFor fill index idx cells = some cs := by
    intro m' idx nm cells h1
    exact ⟨oneColumn_len (hok _ h1).1.wf, hcells _ h1⟩
  have hco := copartition_left cfg hp hr hc fill h0 rfl (CaseOperand.pieces os) hpo (by
      intro p hpm
      obtain ⟨m', idx, nm, cells, h1, rfl⟩ := mem_pieces hpm
      obtain ⟨_, cs, hcs⟩ := hfound _ _ _ _ h1
      unfold seriesFor at hcs
      split at hcs
      · rename_i h; exact Or.inl h
      · split at hcs
        · rename_i h; exact Or.inr h
        · cases hcs)
    (by
      rcases hre with h | h | h
      · exact Or.inl h
      · refine Or.inr (Or.inl fun p hpm => ?_)
        obtain ⟨m', idx, nm, cells, h1, rfl⟩ := mem_pieces hpm
        exact h _ (mem_frames h1)
      · refine Or.inr (Or.inr fun p hpm => ?_)
        obtain ⟨m', idx, nm, cells, h1, rfl⟩ := mem_pieces hpm
        exact h _ (mem_frames h1))
  -- what each Modin Series becomes
  let T : Piece L α → Grid L L α := fun p => (reindexFn true fill index (leftPositions p.df.index index) p.df).cut rl p.across
  let H : Piece L α → MFrame L L α := fun p => filterEmpties (MFrame.mk (T p) (some index) (some m.getColumns) (some rl) (some [1]))
  have hH : ∀ m' idx nm cells cs, CaseOperand.frame m' idx nm cells ∈ os → seriesFor fill index idx cells = some cs →
      (MFrame.mk (T ⟨m', oneColumn idx nm cells, true, m'.getRowLens, [1]⟩) (some index) (some m.getColumns) (some rl) (some [1])).mk'
        = some (H ⟨m', oneColumn idx nm cells, true, m'.getRowLens, [1]⟩) ∧
      (H ⟨m', oneColumn idx nm cells, true, m'.getRowLens, [1]⟩).parts = (oneColumn index nm cs).cut rl [1] := by
    intro m' idx nm cells cs h1 hcs
    have hl := (hfound _ _ _ _ h1).1
    have hT : T ⟨m', oneColumn idx nm cells, true, m'.getRowLens, [1]⟩ = (oneColumn index nm cs).cut rl [1] := by
      show (reindexFn true fill index (leftPositions idx index) (oneColumn idx nm cells)).cut rl [1] = _
      rw [reindex_oneColumn hl hcs]
    have hb : 0 ∉ rl ∨ index = [] := by
      rcases hband with h | h
      · have := mem_frames h1
        rw [h] at this
        simp at this
      · exact h
    obtain ⟨r, e1, e2⟩ := mk'_kept (name := nm) (vals := cs) (rl := rl) (index := index) (cols := m.getColumns)
      (isCut_congr hcut rfl rfl) hb hcols
    have e3 : H ⟨m', oneColumn idx nm cells, true, m'.getRowLens, [1]⟩ = r := by
      show filterEmpties (MFrame.mk (T _) _ _ _ _) = r
      rw [hT, mk'_eq_filterEmpties e1]
    rw [e3, hT]
    exact ⟨e1, e2⟩
  refine ⟨(CaseOperand.pieces os).map H, CaseOperand.placed H, ?_, nextFrames_placed H os, ?_⟩
  · unfold alignCases
    rw [framesOf_pieces]
    have hco' : copartition leftKeep cfg true fill m ((CaseOperand.pieces os).map (·.m)) = _ := hco
    rw [hco', Option.bind_some]
    simp only [List.drop_succ_cons, List.drop_zero]
    refine mapM_map_some _ _ _ _ ?_
    intro p hpm
    obtain ⟨m', idx, nm, cells, h1, rfl⟩ := mem_pieces hpm
    obtain ⟨_, cs, hcs⟩ := hfound _ _ _ _ h1
    have hca : cacheAfterCheck true m ((CaseOperand.pieces os).map (·.m)) = (some index, some rl) := by
      unfold cacheAfterCheck
      rw [if_neg]
      · show (some m.getIndex, some m.getRowLens) = _
        rw [hidx, hrl]
      · intro h
        have : CaseOperand.pieces os = [] := by simpa using h
        rw [this] at hpm
        simp at hpm
    rw [hca]
    exact (hH _ _ _ _ _ h1 hcs).1
  · intro o ho cs hcs
    cases o with
    | frame m' idx nm cells => exact divided_frame (hH m' idx nm cells cs ho hcs).2
    | plain a => exact divided_plain (hok _ ho) (fun idx cells e => hser _ ho idx cells (by rw [e])) hcs

/-! ### block by block -/

/-- the cells of both sides of every case, over all rows -/
def caseCols [DecidableEq L] (tt nan : α) (index : List L) (vals : List α) (cases : List (CaseArg L α × CaseArg L α)) : List (List α × List α) :=
  cases.map fun c => ((c.1.cells true tt index vals).getD [], (c.2.cells false nan index vals).getD [])

theorem bind_map_some {A B C : Type} {a : Option A} {b : Option B} {f : A → B → C} {c : C} (h : (a.bind fun x => b.map fun y => f x y) = some c) :
    ∃ x y, a = some x ∧ b = some y ∧ f x y = c := by
  cases a with
  | none => cases h
  | some x =>
    cases b with
    | none => cases h
    | some y => exact ⟨x, y, rfl, rfl, Option.some.inj h⟩

theorem caseWhen_cols [DecidableEq L] {flag : α → Bool} {tt nan : α} {index : List L} {vals out : List α} {cases : List (CaseArg L α × CaseArg L α)}
    (h : caseWhen flag tt nan index vals cases = some out) :
    cases ≠ [] ∧ (∀ c ∈ cases, (∃ cs, c.1.cells true tt index vals = some cs) ∧ ∃ rs, c.2.cells false nan index vals = some rs) ∧
      out = vals.mapIdx fun i v => firstMatch flag v ((caseCols tt nan index vals cases).filterMap
        fun p => (p.1[i]?).bind fun c => (p.2[i]?).map fun r => (c, r)) := by
  unfold caseWhen at h
  split at h
  · cases h
  rename_i hne
  obtain ⟨cols, hcols, rfl⟩ := Option.map_eq_some_iff.1 h
  have hall := mapM_some_all hcols
  have hc : ∀ c ∈ cases, (∃ cs, c.1.cells true tt index vals = some cs) ∧ ∃ rs, c.2.cells false nan index vals = some rs := by
    intro c hcm
    obtain ⟨y, hy⟩ := hall c hcm
    obtain ⟨a, b, h1, h2, _⟩ := bind_map_some hy
    exact ⟨⟨a, h1⟩, ⟨b, h2⟩⟩
  refine ⟨by simpa using hne, hc, ?_⟩
  have : cols = caseCols tt nan index vals cases := by
    have e := mapM_congr_some (l := cases)
      (f := fun c : CaseArg L α × CaseArg L α => (c.1.cells true tt index vals).bind fun cs => (c.2.cells false nan index vals).map fun rs => (cs, rs))
      (g := fun c => ((c.1.cells true tt index vals).getD [], (c.2.cells false nan index vals).getD [])) (by
        intro c hcm
        obtain ⟨⟨cs, h1⟩, ⟨rs, h2⟩⟩ := hc c hcm
        simp [h1, h2])
    rw [hcols] at e
    exact Option.some.inj e
  rw [this]

/-- a block whose cases have the cells of its rows -/
theorem caseBlock_slice [DecidableEq L] {flag : α → Bool} {tt nan : α} {index : List L} {vals out : List α} {cases : List (CaseArg L α × CaseArg L α)}
    (h : caseWhen flag tt nan index vals cases = some out) {A : Type} {ds : List A} {f : A → Option (CaseArg L α × CaseArg L α)}
    {idx : List L} {a b : Nat} (arg : A → CaseArg L α × CaseArg L α) (hcs : cases = ds.map arg)
    (hf : ∀ d ∈ ds, ∃ x, f d = some x ∧ ∀ cs rs, (arg d).1.cells true tt index vals = some cs → (arg d).2.cells false nan index vals = some rs →
      x.1.cells true tt idx (pySlice vals a b) = some (pySlice cs a b) ∧ x.2.cells false nan idx (pySlice vals a b) = some (pySlice rs a b))
    (c0 name : L) :
    (ds.mapM f).bind (fun cs => caseBlock flag tt nan name cs (oneColumn idx c0 (pySlice vals a b))) =
      some (oneColumn idx name (pySlice out a b)) := by
  obtain ⟨hne, hcells, rfl⟩ := caseWhen_cols h
  subst hcs
  obtain ⟨bs, h1, h2, h3⟩ := mapM_two (l := ds) (f := f)
    (g := fun c => (c.1.cells true tt idx (pySlice vals a b)).bind fun cs => (c.2.cells false nan idx (pySlice vals a b)).map fun rs => (cs, rs))
    (h := fun d => (pySlice (((arg d).1.cells true tt index vals).getD []) a b, pySlice (((arg d).2.cells false nan index vals).getD []) a b)) (by
      intro d hd
      obtain ⟨x, hx1, hx2⟩ := hf d hd
      obtain ⟨⟨cs, e1⟩, ⟨rs, e2⟩⟩ := hcells (arg d) (List.mem_map_of_mem hd)
      obtain ⟨e3, e4⟩ := hx2 cs rs e1 e2
      exact ⟨x, hx1, by simp [e1, e2, e3, e4]⟩)
  rw [h1, Option.bind_some]
  unfold caseBlock caseWhen
  rw [if_neg (by rw [h3]; simpa using hne), oneColumn_column]
  have hix : (oneColumn idx c0 (pySlice vals a b)).index = idx := rfl
  rw [hix, h2, Option.map_some, Option.map_some]
  congr 2
  have := cases_slice flag vals (caseCols tt nan index vals (ds.map arg)) a b
  rw [← this]
  unfold caseCols
  rw [List.map_map, List.map_map]
  rfl

theorem caseParts_spec [DecidableEq L] {flag : α → Bool} {tt nan : α} {index : List L} {vals out : List α}
    {A : Type} {ds : List A} (arg : A → CaseArg L α × CaseArg L α) (G : A → CaseData L α × CaseData L α) (rl : List Nat)
    (h : caseWhen flag tt nan index vals (ds.map arg) = some out)
    (hG : ∀ d ∈ ds, (∀ cs, (arg d).1.cells true tt index vals = some cs → DividedAs true tt rl index vals cs (G d).1) ∧
      ∀ rs, (arg d).2.cells false nan index vals = some rs → DividedAs false nan rl index vals rs (G d).2) (c0 name : L) :
    ∀ n i, i + n = rl.length →
      caseParts flag tt nan name (ds.map G) i (off rl i) (((((List.range rl.length).map fun i =>
          oneColumn (pySlice index (off rl i) (off rl (i + 1))) c0 (pySlice vals (off rl i) (off rl (i + 1)))).zip rl)).drop i) =
        some (((List.range rl.length).map fun i =>
          [oneColumn (pySlice index (off rl i) (off rl (i + 1))) name (pySlice out (off rl i) (off rl (i + 1)))]).drop i) := by
  intro n
  induction n with
  | zero =>
    intro i hi
    rw [List.drop_eq_nil_of_le (by simp; omega), List.drop_eq_nil_of_le (by simp; omega)]
    rfl
  | succ n ih =>
    intro i hi
    have hi' : i < rl.length := by omega
    rw [List.drop_eq_getElem_cons (i := i) (by simpa using hi'), List.drop_eq_getElem_cons (i := i) (by simpa using hi')]
    simp only [List.getElem_zip, List.getElem_map, List.getElem_range]
    rw [caseParts]
    have hb := caseBlock_slice h (ds := ds) (idx := pySlice index (off rl i) (off rl (i + 1))) (a := off rl i) (b := off rl (i + 1)) arg rfl
      (f := fun d => ((G d).1.chunk i rl[i] (off rl i)).bind fun a => ((G d).2.chunk i rl[i] (off rl i)).map fun r => (a, r)) (by
        intro d hd
        obtain ⟨_, hcells, _⟩ := caseWhen_cols h
        obtain ⟨⟨cs, e1⟩, ⟨rs, e2⟩⟩ := hcells (arg d) (List.mem_map_of_mem hd)
        obtain ⟨A1, a1, a2⟩ := (hG d hd).1 cs e1 i hi'
        obtain ⟨A2, b1, b2⟩ := (hG d hd).2 rs e2 i hi'
        refine ⟨(A1, A2), by simp [a1, b1], ?_⟩
        intro cs' rs' f1 f2
        rw [e1] at f1
        rw [e2] at f2
        cases f1; cases f2
        exact ⟨a2, b2⟩) c0 name
    have hmm : ((ds.map G).mapM fun c : CaseData L α × CaseData L α => (c.1.chunk i rl[i] (off rl i)).bind fun a =>
        (c.2.chunk i rl[i] (off rl i)).map fun r => (a, r)) =
        ds.mapM fun d => ((G d).1.chunk i rl[i] (off rl i)).bind fun a => ((G d).2.chunk i rl[i] (off rl i)).map fun r => (a, r) := by
      rw [List.mapM_map]
      rfl
    rw [hmm]
    cases hd : ds.mapM fun d => ((G d).1.chunk i rl[i] (off rl i)).bind fun a => ((G d).2.chunk i rl[i] (off rl i)).map fun r => (a, r) with
    | none => rw [hd] at hb; cases hb
    | some as =>
      rw [hd] at hb
      simp only [Option.bind_some] at hb ⊢
      rw [hb, Option.bind_some, ← off_succ hi', ih (i + 1) (by omega)]
      rfl

theorem frames_ready [DecidableEq L] (fill : α) (index : List L) (os : List (CaseOperand L α)) :
    CaseOperand.frames (os.map (·.ready fill index)) = CaseOperand.frames os := by
  induction os with
  | nil => rfl
  | cons o os ih =>
    cases o with
    | frame m idx name cells => exact congrArg ((m, idx) :: ·) ih
    | plain a => cases a <;> exact ih

theorem ready_ok [DecidableEq L] {cond : Bool} {fill : α} {index : List L} {vals cs : List α} {o : CaseOperand L α} (hok : o.Ok)
    (h : o.arg.cells cond fill index vals = some cs) : (o.ready fill index).Ok := by
  cases o with
  | frame m idx name cells => exact hok
  | plain a =>
    cases a with
    | series idx cells =>
      have hs : seriesFor fill index idx cells = some cs := h
      show ((seriesFor fill index idx cells).getD []).length = index.length
      rw [hs]
      exact seriesFor_length hok hs
    | array _ => exact hok
    | scalar _ => exact hok
    | fn _ => exact hok

theorem ready_series [DecidableEq L] {fill : α} {index : List L} {o : CaseOperand L α} {idx : List L} {cells : List α}
    (h : o.ready fill index = .plain (.series idx cells)) : idx = index := by
  cases o with
  | frame m idx name cells => cases h
  | plain a =>
    cases a with
    | series i c => cases h; rfl
    | array _ => cases h
    | scalar _ => cases h
    | fn _ => cases h

/-- an operand that is a function or a scalar -/
def CaseOperand.whole : CaseOperand L α → Bool
  | .plain (.scalar _) => true
  | .plain (.fn _) => true
  | _ => false

theorem whole_given (o : CaseOperand L α) : o.given.whole = o.whole := by
  cases o with
  | frame m idx name cells => rfl
  | plain a => cases a <;> rfl

theorem whole_chunk {o : CaseOperand L α} (h : o.whole = true) (i len offset : Nat) : o.given.chunk i len offset = some o.arg := by
  cases o with
  | frame m idx name cells => cases h
  | plain a => cases a <;> first | rfl | cases h

theorem whole_toRows [DecidableEq L] {o : CaseOperand L α} (h : o.whole = true) (num : Nat → L) (fill : α) (index : List L) :
    o.given.toRows num fill index = some o.given := by
  cases o with
  | frame m idx name cells => cases h
  | plain a => cases a <;> first | rfl | cases h

theorem whole_cells [DecidableEq L] {cond : Bool} {fill : α} {index idx : List L} {vals cs : List α} {o : CaseOperand L α} (h : o.whole = true)
    (hok : o.Ok) (hc : o.arg.cells cond fill index vals = some cs) (a b : Nat) :
    o.arg.cells cond fill idx (pySlice vals a b) = some (pySlice cs a b) := by
  cases o with
  | frame m idx name cells => cases h
  | plain x =>
    cases x with
    | series _ _ => cases h
    | array _ => cases h
    | scalar v =>
      simp only [CaseOperand.arg, CaseArg.cells] at hc ⊢
      split at hc
      · cases hc
      · cases hc
        rename_i hn
        rw [if_neg hn, pySlice_const]
    | fn f =>
      obtain ⟨g, hg⟩ := hok
      simp only [CaseOperand.arg, CaseArg.cells, hg, List.length_map, ↓reduceIte, Option.some.injEq] at hc ⊢
      rw [← hc, pySlice_map']

theorem whole_frames {os : List (CaseOperand L α)} (h : ∀ o ∈ os, o.whole = true) : framesOf (os.map (·.given)) = [] ∧
    nextFrames (os.map (·.given)) [] = os.map (·.given) := by
  induction os with
  | nil => exact ⟨rfl, rfl⟩
  | cons o os ih =>
    obtain ⟨h1, h2⟩ := ih fun x hx => h x (List.mem_cons_of_mem _ hx)
    cases o with
    | frame m idx name cells => have := h _ List.mem_cons_self; cases this
    | plain a => exact ⟨h1, congrArg (CaseData.plain a :: ·) h2⟩

theorem alignCases_none [DecidableEq L] (cfg : Cfg) (fill : α) (m : MFrame L L α) {ds : List (CaseData L α)} (h : framesOf ds = []) :
    alignCases cfg fill m ds = some [] := by
  unfold alignCases
  rw [h]
  rfl

/-- `Series.case_when` -/
theorem caseWhen_shows [DecidableEq L] (cfg : Cfg) (hp : 1 ≤ cfg.nPartitions) (hr : 1 ≤ cfg.minRow) (hc : 1 ≤ cfg.minCol) {num : Nat → L}
    (hnum : ∀ i j, num i = num j → i = j) (flag : α → Bool) (tt nan : α) {m : LFrame L L α} {index : List L} {name : L} {vals : List α}
    (hm : m.Shows (oneColumn index name vals)) (hw : gridWidth m.parts = 1) (cases : List (CaseOperand L α × CaseOperand L α))
    (hok : ∀ c ∈ cases, c.1.Ok ∧ c.2.Ok) (hpend : m.defIndex = false ∨ ∀ c ∈ cases, c.1.whole = true ∧ c.2.whole = true)
    (hband : CaseOperand.frames (cases.map (·.1)) ++ CaseOperand.frames (cases.map (·.2)) = [] ∨ 0 ∉ m.getRowLens ∨ index = [])
    (hre : index.Nodup ∨ (∀ e ∈ CaseOperand.frames (cases.map (·.1)) ++ CaseOperand.frames (cases.map (·.2)), e.2 = index) ∨
      ∀ e ∈ CaseOperand.frames (cases.map (·.1)) ++ CaseOperand.frames (cases.map (·.2)), e.2 = index → e.1.getRowLens = m.getRowLens)
    {out : List α} (h : caseWhen flag tt nan index vals (cases.map fun c => (c.1.arg, c.2.arg)) = some out) :
    ∃ m', m.caseWhen cfg num flag tt nan (cases.map fun c => (c.1.given, c.2.given)) = some m' ∧ m'.Shows (oneColumn index name out) := by
  obtain ⟨df0, rl, cw, hwf0, hrows, hcolsl, hcut, hparts, hrl, hcw, hI, hC⟩ := hm.blocks
  have hc1 : df0.columns.length = 1 := hcolsl
  have hcw1 : cw = [1] := width_one hcut hc1 (by rw [← hparts]; exact hw)
  subst hcw1
  obtain ⟨c0, vals0, hdf0, hl0⟩ := exists_oneColumn hwf0 hc1
  have hvals : vals0 = vals := by
    have h2 : (oneColumn df0.index c0 vals0).rows = (oneColumn index name vals).rows := by rw [← hdf0]; exact hrows
    have h3 := congrArg (List.filterMap (·[0]?)) h2
    have h4 := oneColumn_column df0.index c0 vals0
    have h5 := oneColumn_column index name vals
    unfold Frame.column at h4 h5
    rw [h4, h5] at h3
    exact h3
  subst hvals
  generalize hidx0 : df0.index = idx0 at hdf0 hl0 hI
  subst hdf0
  have hlv : vals0.length = index.length := oneColumn_len hm.wf
  obtain ⟨hne, hcells, hout⟩ := caseWhen_cols h
  have houtl : out.length = vals0.length := by rw [hout]; simp
  have hgl : m.getRowLens = rl := getRowLens_cut hcut hparts hrl
  have hname : m.getColumns.head? = some name := by rw [hm.getColumns]; rfl
  unfold LFrame.caseWhen
  rw [hname, Option.bind_some, hm.getIndex]
  have hix : (oneColumn index name vals0).index = index := rfl
  rw [hix]
  have hcl : ∀ c ∈ cases, (∃ cs, c.1.arg.cells true tt index vals0 = some cs) ∧ ∃ rs, c.2.arg.cells false nan index vals0 = some rs :=
    fun c hcm => hcells (c.1.arg, c.2.arg) (List.mem_map_of_mem (f := fun c : CaseOperand L α × CaseOperand L α => (c.1.arg, c.2.arg)) hcm)
  by_cases hwh : ∀ c ∈ cases, c.1.whole = true ∧ c.2.whole = true
  · -- functions and scalars
    have hrowsM : ((cases.map fun c => (c.1.given, c.2.given)).mapM fun (c : CaseData L α × CaseData L α) =>
        (c.1.toRows num tt index).bind fun a => (c.2.toRows num nan index).map fun r => (a, r)) =
        some (cases.map fun c => (c.1.given, c.2.given)) :=
      mapM_map_some _ _ _ _ fun c hcm => by simp [whole_toRows (hwh c hcm).1, whole_toRows (hwh c hcm).2]
    rw [hrowsM, Option.bind_some]
    have e1 : (cases.map fun c => (c.1.given, c.2.given)).map (·.1) = (cases.map (·.1)).map (·.given) := by simp
    have e2 : (cases.map fun c => (c.1.given, c.2.given)).map (·.2) = (cases.map (·.2)).map (·.given) := by simp
    have f1 := whole_frames (os := cases.map (·.1)) (by
      intro o ho
      obtain ⟨c, hcm, rfl⟩ := List.mem_map.1 ho
      exact (hwh c hcm).1)
    have f2 := whole_frames (os := cases.map (·.2)) (by
      intro o ho
      obtain ⟨c, hcm, rfl⟩ := List.mem_map.1 ho
      exact (hwh c hcm).2)
    rw [e1, e2, alignCases_none cfg tt _ f1.1, Option.bind_some, alignCases_none cfg nan _ f2.1, Option.bind_some]
    simp only [f1.2, f2.2]
    have hzip : ((cases.map (·.1)).map (·.given)).zip ((cases.map (·.2)).map (·.given)) = cases.map fun c => (c.1.given, c.2.given) := by
      rw [List.map_map, List.map_map, List.zip_map']
      rfl
    rw [hzip, if_pos (by
      rw [List.all_map, List.all_eq_true]
      intro c hcm
      simp [whole_given, (hwh c hcm).1, (hwh c hcm).2])]
    have hargs : ((cases.map fun c => (c.1.given, c.2.given)).mapM fun (c : CaseData L α × CaseData L α) =>
        (c.1.chunk 0 0 0).bind fun a => (c.2.chunk 0 0 0).map fun r => (a, r)) = some (cases.map fun c => (c.1.arg, c.2.arg)) :=
      mapM_map_some _ _ _ _ fun c hcm => by simp [whole_chunk (hwh c hcm).1, whole_chunk (hwh c hcm).2]
    rw [hargs, Option.bind_some]
    have hblk : ∀ i, caseBlock flag tt nan name (cases.map fun c => (c.1.arg, c.2.arg))
        (oneColumn (pySlice idx0 (off rl i) (off rl (i + 1))) c0 (pySlice vals0 (off rl i) (off rl (i + 1)))) =
        some (oneColumn (pySlice idx0 (off rl i) (off rl (i + 1))) name (pySlice out (off rl i) (off rl (i + 1)))) := by
      intro i
      have := caseBlock_slice h (ds := cases) (f := fun c => some (c.1.arg, c.2.arg)) (idx := pySlice idx0 (off rl i) (off rl (i + 1)))
        (a := off rl i) (b := off rl (i + 1)) (fun c => (c.1.arg, c.2.arg)) rfl (by
          intro c hcm
          refine ⟨_, rfl, ?_⟩
          intro cs rs h1 h2
          exact ⟨whole_cells (hwh c hcm).1 (hok c hcm).1 h1 _ _, whole_cells (hwh c hcm).2 (hok c hcm).2 h2 _ _⟩) c0 name
      rw [mapM_some, Option.bind_some] at this
      exact this
    have hgrid : (m.parts.mapM fun (row : List (Frame L L α)) => row.mapM (caseBlock flag tt nan name (cases.map fun c => (c.1.arg, c.2.arg)))) =
        some ((oneColumn idx0 name out).cut rl [1]) := by
      rw [hparts, oneColumn_cut, oneColumn_cut]
      refine mapM_map_some _ _ _ _ ?_
      intro i _
      rw [List.mapM_cons, hblk i]
      rfl
    rw [hgrid, Option.bind_some]
    have hs : LFrame.Shows (LFrame.mk (MFrame.mk ((oneColumn idx0 name out).cut rl [1]) m.index m.columns m.rowLens m.colWidths) m.defIndex m.defColumns)
        (oneColumn index name out) := by
      refine ⟨oneColumn_wf (by rw [houtl, hlv]), ⟨oneColumn idx0 name out, rl, [1], oneColumn_wf (by rw [houtl, hl0]), rfl, rfl,
        isCut_congr hcut rfl rfl, rfl, hrl, hcw, hI, fun _ => rfl⟩, hm.index, hm.columns⟩
    obtain ⟨r, e3, e4⟩ := mk'_shows hs
    have e3' : (MFrame.mk ((oneColumn idx0 name out).cut rl [1]) m.index m.columns m.rowLens m.colWidths).mk' = some r := e3
    refine ⟨{ r with defIndex := m.defIndex, defColumns := m.defColumns }, ?_, e4⟩
    rw [e3']
    rfl
  · -- divided operands
    have hdi : m.defIndex = false := hpend.resolve_right hwh
    have hi0 : idx0 = index := hI hdi
    subst hi0
    have hrd : ∀ c ∈ cases, (c.1.given.toRows num tt idx0 = some (c.1.ready tt idx0).given ∧ ∀ cs, c.1.arg.cells true tt idx0 vals0 = some cs →
          (c.1.ready tt idx0).arg.cells true tt idx0 vals0 = some cs) ∧
        (c.2.given.toRows num nan idx0 = some (c.2.ready nan idx0).given ∧ ∀ cs, c.2.arg.cells false nan idx0 vals0 = some cs →
          (c.2.ready nan idx0).arg.cells false nan idx0 vals0 = some cs) := by
      intro c hcm
      obtain ⟨⟨cs, a1⟩, ⟨rs, a2⟩⟩ := hcl c hcm
      have b1 := toRows_ready hnum (hok c hcm).1 a1
      have b2 := toRows_ready hnum (hok c hcm).2 a2
      refine ⟨⟨b1.1, fun cs' h' => ?_⟩, ⟨b2.1, fun cs' h' => ?_⟩⟩
      · rw [a1] at h'; cases h'; exact b1.2
      · rw [a2] at h'; cases h'; exact b2.2
    have hrowsM : ((cases.map fun c => (c.1.given, c.2.given)).mapM fun (c : CaseData L α × CaseData L α) =>
        (c.1.toRows num tt idx0).bind fun a => (c.2.toRows num nan idx0).map fun r => (a, r)) =
        some (cases.map fun c => ((c.1.ready tt idx0).given, (c.2.ready nan idx0).given)) :=
      mapM_map_some _ _ _ _ fun c hcm => by simp [(hrd c hcm).1.1, (hrd c hcm).2.1]
    rw [hrowsM, Option.bind_some]
    have e1 : (cases.map fun c => ((c.1.ready tt idx0).given, (c.2.ready nan idx0).given)).map (·.1) =
        ((cases.map (·.1)).map (·.ready tt idx0)).map (·.given) := by simp
    have e2 : (cases.map fun c => ((c.1.ready tt idx0).given, (c.2.ready nan idx0).given)).map (·.2) =
        ((cases.map (·.2)).map (·.ready nan idx0)).map (·.given) := by simp
    have hcutI : (oneColumn idx0 c0 vals0).IsCut rl [1] := hcut
    have hcolsm : m.getColumns.length = 1 := by rw [hm.getColumns]; rfl
    obtain ⟨fs1, G1, a1, a2, a3⟩ := alignCases_spec cfg hp hr hc true tt (m := m.toMFrame) hwf0 hcutI hparts hgl hm.getIndex hcolsm
      ((cases.map (·.1)).map (·.ready tt idx0))
      (by
        intro o ho
        simp only [List.mem_map] at ho
        obtain ⟨o, ⟨c, hcm, rfl⟩, rfl⟩ := ho
        obtain ⟨⟨cs, b1⟩, _⟩ := hcl c hcm
        exact ready_ok (hok c hcm).1 b1)
      (by
        intro o ho
        simp only [List.mem_map] at ho
        obtain ⟨o, ⟨c, hcm, rfl⟩, rfl⟩ := ho
        obtain ⟨⟨cs, b1⟩, _⟩ := hcl c hcm
        exact ⟨cs, (hrd c hcm).1.2 cs b1⟩)
      (by
        intro o ho idx cells e
        simp only [List.mem_map] at ho
        obtain ⟨o, _, rfl⟩ := ho
        exact ready_series e)
      (by
        rw [frames_ready]
        rcases hband with h | h
        · exact Or.inl (List.append_eq_nil_iff.1 h).1
        · rw [hgl] at h; exact Or.inr h)
      (by
        rw [frames_ready]
        rw [hgl] at hre
        exact hre.imp_right (Or.imp (fun h e he => h e (List.mem_append_left _ he)) (fun h e he => h e (List.mem_append_left _ he))))
    obtain ⟨fs2, G2, b1, b2, b3⟩ := alignCases_spec cfg hp hr hc false nan (m := m.toMFrame) hwf0 hcutI hparts hgl hm.getIndex hcolsm
      ((cases.map (·.2)).map (·.ready nan idx0))
      (by
        intro o ho
        simp only [List.mem_map] at ho
        obtain ⟨o, ⟨c, hcm, rfl⟩, rfl⟩ := ho
        obtain ⟨_, ⟨cs, b1⟩⟩ := hcl c hcm
        exact ready_ok (hok c hcm).2 b1)
      (by
        intro o ho
        simp only [List.mem_map] at ho
        obtain ⟨o, ⟨c, hcm, rfl⟩, rfl⟩ := ho
        obtain ⟨_, ⟨cs, b1⟩⟩ := hcl c hcm
        exact ⟨cs, (hrd c hcm).2.2 cs b1⟩)
      (by
        intro o ho idx cells e
        simp only [List.mem_map] at ho
        obtain ⟨o, _, rfl⟩ := ho
        exact ready_series e)
      (by
        rw [frames_ready]
        rcases hband with h | h
        · exact Or.inl (List.append_eq_nil_iff.1 h).2
        · rw [hgl] at h; exact Or.inr h)
      (by
        rw [frames_ready]
        rw [hgl] at hre
        exact hre.imp_right (Or.imp (fun h e he => h e (List.mem_append_right _ he)) (fun h e he => h e (List.mem_append_right _ he))))
    rw [e1, e2, a1, Option.bind_some, b1, Option.bind_some]
    simp only [a2, b2]
    have hzip : (((cases.map (·.1)).map (·.ready tt idx0)).map G1).zip (((cases.map (·.2)).map (·.ready nan idx0)).map G2) =
        cases.map fun c => (G1 (c.1.ready tt idx0), G2 (c.2.ready nan idx0)) := by
      simp only [List.map_map]
      rw [List.zip_map']
      rfl
    rw [hzip, if_neg (by
      intro hall
      apply hwh
      intro c hcm
      rw [List.all_map, List.all_eq_true] at hall
      have := hall c hcm
      simpa [whole_given] using this)]
    have hp0 : m.parts.filterMap (·[0]?) = (List.range rl.length).map fun i =>
        oneColumn (pySlice idx0 (off rl i) (off rl (i + 1))) c0 (pySlice vals0 (off rl i) (off rl (i + 1))) := by
      rw [hparts, oneColumn_cut, List.filterMap_map]
      simp [Function.comp_def]
    have hcp := caseParts_spec (ds := cases) (fun c => (c.1.arg, c.2.arg)) (fun c => (G1 (c.1.ready tt idx0), G2 (c.2.ready nan idx0))) rl h (by
        intro c hcm
        refine ⟨fun cs hcs => ?_, fun rs hrs => ?_⟩
        · exact a3 _ (List.mem_map_of_mem (List.mem_map_of_mem hcm)) cs ((hrd c hcm).1.2 cs hcs)
        · exact b3 _ (List.mem_map_of_mem (List.mem_map_of_mem hcm)) rs ((hrd c hcm).2.2 rs hrs)) c0 name rl.length 0 (by omega)
    rw [off_zero, List.drop_zero, List.drop_zero] at hcp
    rw [hp0, hgl, hcp, Option.bind_some, ← oneColumn_cut, hm.getColumns]
    obtain ⟨r, e3, e4⟩ := mk'_blocks (df := oneColumn idx0 name out) (m := MFrame.mk ((oneColumn idx0 name out).cut rl [1]) (some idx0) (some [name])
      (some rl) (some [1])) (oneColumn_wf (by rw [houtl, hlv])) (isCut_congr hcut rfl rfl) rfl (Or.inr rfl) (Or.inr rfl) (Or.inr rfl) (Or.inr rfl)
    refine ⟨{ r with defIndex := false, defColumns := false }, ?_, represents_shows e4⟩
    have hcn : (oneColumn idx0 name vals0).columns = [name] := rfl
    rw [hcn, e3]
    rfl
