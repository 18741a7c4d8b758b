import Verif.Model.SeriesSet
import Verif.Props.Reindex
/-
C107: `s[key] = value`.
-/

variable {L α : Type}

theorem assign_ofColumn (index : List L) (c : L) (values : List α) (ps : List Nat) (v : α) :
    (Frame.ofColumn index c values).assign ps [0] (fun _ _ => some v) =
      Frame.ofColumn index c (values.mapIdx fun k a => if k ∈ ps then v else a) := by
  unfold Frame.assign Frame.ofColumn
  simp only [Frame.mk.injEq, true_and]
  apply List.ext_getElem?
  intro k
  simp only [List.getElem?_mapIdx, List.getElem?_map, Option.map_map]
  cases values[k]? with
  | none => rfl
  | some a =>
    simp only [Option.map_some, Function.comp_apply, List.mapIdx_cons, List.mapIdx_nil]
    by_cases hk : k ∈ ps
    · rw [if_pos hk]
      cases hl : lastPos ps k with
      | none => exact absurd hk (lastPos_none.1 hl)
      | some i => rfl
    · rw [if_neg hk, lastPos_none.2 hk]

theorem serPut_shows [DecidableEq L] {m : LFrame L L α} {c : L} {index : List L} {values : List α}
    (h : m.Shows (Frame.ofColumn index c values)) {k : LKey L} {ps : List Nat} (hk : k.addressed index = some ps) (v : α) :
    ∃ m', m.serPut k v = some m' ∧ m'.Shows (Frame.ofColumn index c (values.mapIdx fun k a => if k ∈ ps then v else a)) := by
  obtain ⟨rows, l1, rfl, v1, _⟩ := LKey.lookup_spec hk
  obtain ⟨m', e1, e2⟩ := writeItems_shows h (rows := rows) (cols := .range 0 1) (item := .scalar v) v1
    (by simp [Positions.Valid, Frame.ofColumn, Frame.ncols]) trivial (fun xs e => by cases e) (Or.inl ⟨v, rfl⟩)
  refine ⟨m', ?_, ?_⟩
  · unfold LFrame.serPut
    rw [h.getIndex, h.getColumns]
    rw [show (Frame.ofColumn index c values).index = index from rfl, l1]
    exact e1
  · have := assign_ofColumn index c values rows.toList v
    rw [← this]
    exact e2

theorem serMapIdx_zip {A : Type} (f : A → Bool) (v : α) : ∀ (keys : List A) (values : List α), keys.length = values.length →
    (values.mapIdx fun k a => if keys[k]?.any f then v else a) = (keys.zip values).map fun p => if f p.1 then v else p.2
  | [], [], _ => rfl
  | x :: keys, a :: values, hl => by
    rw [List.mapIdx_cons, List.zip_cons_cons, List.map_cons]
    congr 1
    exact serMapIdx_zip f v keys values (by simpa using hl)
  | [], _ :: _, hl => by cases hl
  | _ :: _, [], hl => by cases hl

theorem serLengths {m : LFrame L L α} {c : L} {index : List L} {values : List α} (h : m.Shows (Frame.ofColumn index c values)) :
    index.length = values.length := by
  have := h.wf.rows_len
  simpa [Frame.ofColumn] using this.symm

/-- **C107, one key.**  `s[x] = v` writes `v` at every value labelled `x`; if there is no such label it appends the label and the value.
    All else stays, and so does the name, for every division into blocks.  Partial: when the label is missing the labels must not repeat
    (`SeriesSetDemo.C107_repeated_labels_raise`), and the key must not stand for a position (`SeriesSetDemo.C107_position_enlarges`). -/
theorem C107_set_partial [DecidableEq L] (intOf : L → Option Int) (cfg : Cfg) (hp : 1 ≤ cfg.nPartitions) (hmr : 1 ≤ cfg.minRow)
    (zero nan : α) (m : LFrame L L α) (c : L) (index : List L) (values : List α) (h : m.Shows (Frame.ofColumn index c values))
    (x : L) (hx : x ∈ index ∨ index.Nodup ∧ (intOf x = none ∨ ∃ y ∈ index, intOf y ≠ none)) (v : α) :
    ∃ index' values', serSetOne intOf index values x v = some (index', values') ∧
      ∃ m', m.serSetOne cfg zero x v = some m' ∧ m'.Shows (Frame.ofColumn index' c values') ∧
        m'.toPandas nan = some (Frame.ofColumn index' c values') := by
  have hl := serLengths h
  have hgi : m.getIndex = index := h.getIndex
  by_cases hin : x ∈ index
  · obtain ⟨m', e1, e2⟩ := serPut_shows h (k := .label x) (by unfold LKey.addressed; exact if_pos hin) v
    have hv : (values.mapIdx fun k a => if k ∈ (List.range index.length).filter (fun k => index[k]? == some x) then v else a) =
        (index.zip values).map fun p => if p.1 = x then v else p.2 := by
      have := serMapIdx_zip (fun y => decide (y = x)) v index values hl
      simp only [decide_eq_true_eq] at this
      rw [← this]
      apply mapIdx_congr
      intro k _
      have hiff : k ∈ (List.range index.length).filter (fun k => index[k]? == some x) ↔ index[k]?.any (fun y => decide (y = x)) = true := by
        rw [show (k ∈ (List.range index.length).filter (fun k => index[k]? == some x)) = (k ∈ positionsOf index x) from rfl,
          mem_positionsOf]
        cases index[k]? <;> simp
      simp only [hiff]
    rw [hv] at e2
    refine ⟨_, _, if_pos hin, m', ?_, e2, (e2.observed nan).1⟩
    unfold LFrame.serSetOne
    rw [hgi, if_pos hin]
    exact e1
  · obtain ⟨hnd, hi⟩ := hx.resolve_left hin
    obtain ⟨m1, e1, h1⟩ := reindexRowsTo_some cfg hp hmr zero h (reindexIndex_add h.wf hnd hin zero)
    have hf : (Frame.ofColumn index c values).addRow x (List.replicate (Frame.ofColumn index c values).ncols zero) =
        Frame.ofColumn (index ++ [x]) c (values ++ [zero]) := by
      simp [Frame.addRow, Frame.ofColumn, Frame.ncols]
    rw [hf] at h1
    have hadd : (LKey.label x).addressed (index ++ [x]) = some [index.length] := by
      unfold LKey.addressed
      simp only
      rw [if_pos (by simp)]
      congr 1
      exact positionsOf_unique (by simp) (by rw [List.count_append, List.count_eq_zero.2 hin]; simp)
    obtain ⟨m', e2, e3⟩ := serPut_shows h1 hadd v
    have hv : ((values ++ [zero]).mapIdx fun k a => if k ∈ [index.length] then v else a) = values ++ [v] := by
      rw [List.mapIdx_append]
      congr 1
      · apply mapIdx_eq_self
        intro k hk
        rw [if_neg (by simp; omega)]
      · simp [hl]
    rw [hv] at e3
    refine ⟨index ++ [x], values ++ [v], ?_, m', ?_, e3, (e3.observed nan).1⟩
    · unfold serSetOne
      rw [if_neg hin]
      rcases hi with hi | ⟨y, hy, hne⟩
      · rw [hi]
        cases index.all fun y => (intOf y).isNone <;> rfl
      · have : (index.all fun y => (intOf y).isNone) = false := by
          rw [List.all_eq_false]
          exact ⟨y, hy, by simpa using hne⟩
        rw [this]
    · unfold LFrame.serSetOne
      rw [hgi, if_neg hin]
      rw [show (Frame.ofColumn index c values).index = index from rfl] at e1
      rw [e1]
      exact e2

/-- **C107, a mask.**  `s[mask] = v` writes `v` where the mask is true and nowhere else.  Partial: the mask has the length of the Series
    (`SeriesSetDemo.C107_short_mask_writes`). -/
theorem C107_set_mask_partial [DecidableEq L] (nan : α) (m : LFrame L L α) (c : L) (index : List L) (values : List α)
    (h : m.Shows (Frame.ofColumn index c values)) (bs : List Bool) (hb : bs.length = index.length) (v : α) :
    ∃ values', serSetMask index values bs v = some (index, values') ∧
      ∃ m', m.serSetMask bs v = some m' ∧ m'.Shows (Frame.ofColumn index c values') ∧
        m'.toPandas nan = some (Frame.ofColumn index c values') := by
  have hl := serLengths h
  obtain ⟨m', e1, e2⟩ := serPut_shows h (k := .mask bs) (by unfold LKey.addressed; exact if_pos hb) v
  have hv : (values.mapIdx fun k a => if k ∈ (List.range index.length).filter (fun k => bs[k]? == some true) then v else a) =
      (bs.zip values).map fun p => if p.1 then v else p.2 := by
    rw [← serMapIdx_zip (fun b => b) v bs values (hb.trans hl)]
    apply mapIdx_congr
    intro k hk
    have hk' : k < index.length := by rw [hl]; exact hk
    have hiff : k ∈ (List.range index.length).filter (fun k => bs[k]? == some true) ↔ bs[k]?.any (fun b => b) = true := by
      rw [List.mem_filter]
      cases bs[k]? <;> simp [hk']
    simp only [hiff]
  rw [hv] at e2
  exact ⟨_, if_pos hb, m', e1, e2, (e2.observed nan).1⟩

namespace SeriesSetDemo

/-- the labels are integers and, from 100 on, strings -/
def intOf (x : Int) : Option Int := if x < 100 then some x else none
def cfg : Cfg := ⟨4, 1, 1⟩

/-- a Series of three values in two blocks -/
def df (index : List Int) : Frame Int Int Nat := Frame.ofColumn index 5 [10, 11, 12]
def ser (index : List Int) : LFrame Int Int Nat := ⟨⟨(df index).cut [2, 1] [1], none, none, none, none⟩, false, false⟩

theorem ser_shows : (ser [107, 108, 107]).Shows (df [107, 108, 107]) ∧ (ser [7, 8, 9]).Shows (df [7, 8, 9]) :=
  ⟨represents_shows (m := ⟨(df [107, 108, 107]).cut [2, 1] [1], none, none, none, none⟩) ⟨by constructor <;> decide, ⟨[2, 1], [1],
    by constructor <;> decide, rfl, Or.inl rfl, Or.inl rfl⟩, Or.inl rfl, Or.inl rfl⟩,
  represents_shows (m := ⟨(df [7, 8, 9]).cut [2, 1] [1], none, none, none, none⟩) ⟨by constructor <;> decide, ⟨[2, 1], [1],
    by constructor <;> decide, rfl, Or.inl rfl, Or.inl rfl⟩, Or.inl rfl, Or.inl rfl⟩⟩

/-- hypotheses are met: a label that repeats, a new label, a mask -/
example : ∃ m', (ser [107, 108, 107]).serSetOne cfg 0 107 1 = some m' ∧ m'.toPandas 0 = some (Frame.ofColumn [107, 108, 107] 5 [1, 11, 1]) := by
  obtain ⟨i, v, e, m', e1, _, e2⟩ := C107_set_partial intOf cfg (by decide) (by decide) 0 0 _ 5 [107, 108, 107] [10, 11, 12] ser_shows.1 107
    (Or.inl (by decide)) 1
  rw [show serSetOne intOf [107, 108, 107] [(10 : Nat), 11, 12] 107 1 = some ([107, 108, 107], [1, 11, 1]) from by decide +kernel] at e
  cases e
  exact ⟨m', e1, e2⟩

example : ∃ m', (ser [7, 8, 9]).serSetOne cfg 0 0 1 = some m' ∧ m'.toPandas 0 = some (Frame.ofColumn [7, 8, 9, 0] 5 [10, 11, 12, 1]) := by
  obtain ⟨i, v, e, m', e1, _, e2⟩ := C107_set_partial intOf cfg (by decide) (by decide) 0 0 _ 5 [7, 8, 9] [10, 11, 12] ser_shows.2 0
    (Or.inr ⟨by decide, Or.inr ⟨7, by decide, by decide⟩⟩) 1
  rw [show serSetOne intOf [7, 8, 9] [(10 : Nat), 11, 12] 0 1 = some ([7, 8, 9, 0], [10, 11, 12, 1]) from by decide +kernel] at e
  cases e
  exact ⟨m', e1, e2⟩

example : ∃ m', (ser [7, 8, 9]).serSetMask [true, false, true] 1 = some m' ∧ m'.toPandas 0 = some (Frame.ofColumn [7, 8, 9] 5 [1, 11, 1]) := by
  obtain ⟨v, e, m', e1, _, e2⟩ := C107_set_mask_partial 0 _ 5 [7, 8, 9] [10, 11, 12] ser_shows.2 [true, false, true] rfl 1
  rw [show serSetMask [(7 : Int), 8, 9] [(10 : Nat), 11, 12] [true, false, true] 1 = some ([7, 8, 9], [1, 11, 1]) from by decide +kernel] at e
  cases e
  exact ⟨m', e1, e2⟩

/-- **C107 fails for an integer key when no label is an integer.**  pandas writes the first value; the code adds a label 0 at the end. -/
theorem C107_position_enlarges :
    ((ser [107, 108, 109]).serSetOne cfg 0 0 1).bind (·.toPandas 0) = some (Frame.ofColumn [107, 108, 109, 0] 5 [10, 11, 12, 1]) ∧
    serSetOne intOf [107, 108, 109] [(10 : Nat), 11, 12] 0 1 = some ([107, 108, 109], [1, 11, 12]) := by decide +kernel

/-- **C107 fails for a new label when labels repeat.**  pandas appends; the code raises. -/
theorem C107_repeated_labels_raise :
    ((ser [107, 108, 107]).serSetOne cfg 0 109 1).bind (·.toPandas 0) = none ∧
    serSetOne intOf [107, 108, 107] [(10 : Nat), 11, 12] 109 1 = some ([107, 108, 107, 109], [10, 11, 12, 1]) := by decide +kernel

/-- **C107 fails for a mask that is too short.**  pandas raises; the code writes. -/
theorem C107_short_mask_writes :
    ((ser [7, 8, 9]).serSetMask [true] 1).bind (·.toPandas 0) = some (Frame.ofColumn [7, 8, 9] 5 [1, 11, 12]) ∧
    serSetMask [(7 : Int), 8, 9] [(10 : Nat), 11, 12] [true] 1 = none := by decide +kernel

end SeriesSetDemo
