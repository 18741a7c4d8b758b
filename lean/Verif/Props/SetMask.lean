import Verif.Lemmas.SetMask
/-
C63: `df.loc[mask, cols] = v` with a boolean Series.
-/

variable {ι κ κ' α : Type}

/-- the cells that `df.loc[mask, cols] = v` leaves: `R` has the labels of `df`; the row `i` is written if the flag `flags[i]` for it
    is true, there only the columns named `cols`, and everything else is as before -/
theorem setMask_cells [DecidableEq ι] [DecidableEq κ] {mask : List (ι × Bool)} {cols : List κ} {v : α} {df R : Frame ι κ α}
    (hwf : df.WF) (h : df.setMask mask cols v = some R) :
    ∃ flags, flagsFor mask df.index = some flags ∧ R.index = df.index ∧ R.columns = df.columns ∧ R.WF ∧
      ∀ i j k x, df.columns[j]? = some k → df.cell i j = some x →
        R.cell i j = some (if flags[i]? = some true ∧ k ∈ cols then v else x) := by
  unfold Frame.setMask at h
  split at h
  · cases hf : flagsFor mask df.index with
    | none => rw [hf] at h; cases h
    | some flags =>
      rw [hf, Option.map_some, Option.some.injEq] at h
      subst h
      have hl := flagsFor_length hf
      refine ⟨flags, rfl, rfl, rfl, ⟨?_, ?_⟩, ?_⟩
      · simp [hl, hwf.rows_len]
      · intro r hr
        obtain ⟨i, hi, rfl⟩ := List.mem_iff_getElem.1 hr
        simp only [List.getElem_zipWith]
        have hw := hwf.row_width (df.rows[i]'(by simp at hi; omega)) (List.getElem_mem _)
        split
        · simp [setRow, hw]
        · exact hw
      · intro i j k x hk hx
        unfold Frame.cell at hx ⊢
        simp only [List.getElem?_zipWith]
        cases hr : df.rows[i]? with
        | none => rw [hr] at hx; cases hx
        | some row =>
          rw [hr, Option.bind_some] at hx
          have hi : i < flags.length := by
            have := (List.getElem?_eq_some_iff.1 hr).1
            rw [hl, ← hwf.rows_len]; exact this
          obtain ⟨b, hb⟩ : ∃ b, flags[i]? = some b := ⟨_, List.getElem?_eq_getElem hi⟩
          rw [hb]
          cases b with
          | false => simpa using hx
          | true => simp [setRow, List.getElem?_zipWith, hk, hx]
  · cases h

/-- **C63.** `df.loc[mask, cols] = v`, where `mask` is a boolean Series without repeated labels: what pandas leaves in the frame is
    what Modin leaves, for every division of either into blocks, and Modin raises if pandas does (a row without a flag, a column
    that is not there). -/
theorem C63_setitem_bool_partial [DecidableEq ι] [DecidableEq κ] [DecidableEq κ'] (cfg : Cfg) (hp : 1 ≤ cfg.nPartitions)
    (hmc : 1 ≤ cfg.minCol) {m : LFrame ι κ α} {df : Frame ι κ α} (h : m.Shows df) {mask : LFrame ι κ' Bool} {K : Frame ι κ' Bool}
    (hK : mask.Shows K) (hone : K.columns.length = 1) (hnd : K.index.Nodup) (cols : List κ) (v : α) :
    (∀ R, df.setMask K.series cols v = some R → ∃ m', m.setitemBool cfg mask cols v = some m' ∧ m'.Shows R) ∧
    (df.setMask K.series cols v = none → m.setitemBool cfg mask cols v = none) := by
  obtain ⟨k1, e1, e2⟩ := synced_spec hK
  obtain ⟨rl, cw, hc, hparts, _, _⟩ := e2.blocks
  have hasm : assemble k1.parts = some K := by
    rw [hparts]
    exact assemble_cut e2.wf hc (by unfold Frame.ncols; omega)
  have hnd2 : (K.series.map (·.1)).Nodup := by rw [series_labels e2.wf hone]; exact hnd
  unfold LFrame.setitemBool
  rw [e1, Option.bind_some, hasm, Option.bind_some, setMask_nodup hnd2 cols v h.wf]
  constructor
  · intro R hR
    split at hR
    · rename_i hb
      rw [Bool.and_eq_true] at hb
      cases hR
      apply applyFullRowsAnew_shows cfg hp hmc h _ (h.wf.mapCellsL _) rfl
      · intro a b
        rw [setMask_nodup hnd2 cols v (h.wf.ilocRows a b), if_pos, mapCellsL_ilocRows]
        rw [Bool.and_eq_true]
        refine ⟨hb.1, ?_⟩
        rw [List.all_eq_true]
        intro x hx
        exact List.all_eq_true.1 hb.2 x (List.mem_of_mem_drop (List.mem_of_mem_take hx))
      · exact h.index.imp And.left id
      · exact h.columns.imp And.left id
    · cases hR
  · intro hn
    split at hn
    · cases hn
    · rename_i hb
      apply applyFullRowsAnew_none cfg h
      intro rl' cw' hc'
      by_cases h1 : cols.all (fun k => decide (k ∈ df.columns)) = true
      · rw [h1, Bool.true_and, List.all_eq_true] at hb
        have hx : ∃ x, x ∈ df.index ∧ ¬ (valueFor K.series x).isSome = true := by
          apply Classical.byContradiction
          intro hne
          exact hb fun x hx => Classical.byContradiction fun hv => hne ⟨x, hx, hv⟩
        obtain ⟨x, hx, hv⟩ := hx
        rw [← bandsOf_index hc', List.mem_flatten] at hx
        obtain ⟨l, hl, hxl⟩ := hx
        obtain ⟨b, hb1, rfl⟩ := List.mem_map.1 hl
        refine ⟨b, hb1, ?_⟩
        rw [setMask_nodup hnd2 cols v (bandsOf_wf h.wf rl' b hb1).1, if_neg]
        rw [Bool.and_eq_true, List.all_eq_true (l := b.index)]
        intro hh
        exact hv (hh.2 x hxl)
      · obtain ⟨b, hb1⟩ := List.exists_mem_of_ne_nil _ (bandsOf_ne hc'.rl_ne df)
        refine ⟨b, hb1, ?_⟩
        unfold Frame.setMask
        rw [(bandsOf_wf h.wf rl' b hb1).2, if_neg h1]

/-! ### instances -/

/-- three rows, two row partitions; the row labels are still to be written into the blocks -/
def setMaskFrame : Frame Nat Nat Int := ⟨[10, 20, 30], [0, 1], [[1, 2], [3, 4], [5, 6]]⟩
def setMaskModin : LFrame Nat Nat Int :=
  ⟨⟨(Frame.mk [0, 1, 2] [0, 1] [[1, 2], [3, 4], [5, 6]]).cut [1, 2] [1, 1], some [10, 20, 30], some [0, 1], some [1, 2], none⟩, true, false⟩
def setMaskKey : Frame Nat Nat Bool := ⟨[30, 10, 20, 40], [0], [[true], [false], [true], [true]]⟩
def setMaskKeyModin : LFrame Nat Nat Bool := ⟨⟨setMaskKey.cut [2, 2] [1], none, none, none, none⟩, false, false⟩

theorem setMaskModin_shows : setMaskModin.Shows setMaskFrame :=
  ⟨⟨rfl, by decide⟩, ⟨⟨[0, 1, 2], [0, 1], [[1, 2], [3, 4], [5, 6]]⟩, [1, 2], [1, 1], ⟨rfl, by decide⟩, rfl, rfl,
    ⟨by decide, by decide, by decide, by decide⟩, rfl, Or.inr rfl, Or.inl rfl, by decide, by decide⟩, Or.inr rfl, Or.inr rfl⟩

theorem setMaskKeyModin_shows : setMaskKeyModin.Shows setMaskKey :=
  ⟨⟨rfl, by decide⟩, ⟨setMaskKey, [2, 2], [1], ⟨rfl, by decide⟩, rfl, rfl,
    ⟨by decide, by decide, by decide, by decide⟩, rfl, Or.inl rfl, Or.inl rfl, fun _ => rfl, fun _ => rfl⟩, Or.inl ⟨rfl, rfl⟩, Or.inl ⟨rfl, rfl⟩⟩

/-- the mask has its labels in another order, and one more: the rows 20 and 30 are written -/
example : setMaskFrame.setMask setMaskKey.series [1] 9 = some ⟨[10, 20, 30], [0, 1], [[1, 2], [3, 9], [5, 9]]⟩ := by decide

example : ∃ m', setMaskModin.setitemBool ⟨4, 1, 1⟩ setMaskKeyModin [1] 9 = some m' ∧
    m'.Shows ⟨[10, 20, 30], [0, 1], [[1, 2], [3, 9], [5, 9]]⟩ :=
  (C63_setitem_bool_partial ⟨4, 1, 1⟩ (by decide) (by decide) setMaskModin_shows setMaskKeyModin_shows rfl (by decide) [1] 9).1 _ (by decide)

/-- a row without a flag -/
example : setMaskModin.setitemBool ⟨4, 1, 1⟩ ⟨⟨[[⟨[10, 30], [0], [[true], [true]]⟩]], none, none, none, none⟩, false, false⟩ [1] 9 = none :=
  (C63_setitem_bool_partial ⟨4, 1, 1⟩ (by decide) (by decide) setMaskModin_shows (K := ⟨[10, 30], [0], [[true], [true]]⟩)
    ⟨⟨rfl, by decide⟩, ⟨⟨[10, 30], [0], [[true], [true]]⟩, [2], [1], ⟨rfl, by decide⟩, rfl, rfl,
      ⟨by decide, by decide, by decide, by decide⟩, rfl, Or.inl rfl, Or.inl rfl, fun _ => rfl, fun _ => rfl⟩, Or.inl ⟨rfl, rfl⟩, Or.inl ⟨rfl, rfl⟩⟩
    rfl (by decide) [1] 9).2 (by decide)

/-! ### repeated labels -/

/-- a frame whose row labels repeat, in two row partitions, and a mask computed from it -/
def setMaskRepeated : Frame Nat Nat Int := ⟨[0, 0, 1], [0, 1], [[1, 2], [3, 4], [5, 6]]⟩
def setMaskRepeatedKey : Frame Nat Nat Bool := ⟨[0, 0, 1], [0], [[true], [false], [true]]⟩
def setMaskRepeatedModin : LFrame Nat Nat Int := ⟨⟨setMaskRepeated.cut [1, 2] [2], none, none, none, none⟩, false, false⟩
def setMaskRepeatedKeyModin : LFrame Nat Nat Bool := ⟨⟨setMaskRepeatedKey.cut [1, 2] [1], none, none, none, none⟩, false, false⟩

/-- **Witness.** `df.loc[df.a > 0, cols] = v` on a frame whose row labels repeat: pandas takes a mask with the frame's own labels
    in order and writes; in Modin a row partition looks the repeated label up in the whole mask, finds two flags, and raises. -/
theorem C63_repeated_labels :
    setMaskRepeatedModin.Shows setMaskRepeated ∧ setMaskRepeatedKeyModin.Shows setMaskRepeatedKey ∧
    setMaskRepeated.setMask setMaskRepeatedKey.series [1] 9 = some ⟨[0, 0, 1], [0, 1], [[1, 9], [3, 4], [5, 9]]⟩ ∧
    setMaskRepeatedModin.setitemBool ⟨4, 1, 1⟩ setMaskRepeatedKeyModin [1] 9 = none :=
  ⟨⟨⟨rfl, by decide⟩, ⟨setMaskRepeated, [1, 2], [2], ⟨rfl, by decide⟩, rfl, rfl,
    ⟨by decide, by decide, by decide, by decide⟩, rfl, Or.inl rfl, Or.inl rfl, fun _ => rfl, fun _ => rfl⟩, Or.inl ⟨rfl, rfl⟩, Or.inl ⟨rfl, rfl⟩⟩,
   ⟨⟨rfl, by decide⟩, ⟨setMaskRepeatedKey, [1, 2], [1], ⟨rfl, by decide⟩, rfl, rfl,
    ⟨by decide, by decide, by decide, by decide⟩, rfl, Or.inl rfl, Or.inl rfl, fun _ => rfl, fun _ => rfl⟩, Or.inl ⟨rfl, rfl⟩, Or.inl ⟨rfl, rfl⟩⟩,
   by decide, by decide +kernel⟩
