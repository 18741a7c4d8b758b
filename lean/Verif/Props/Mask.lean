import Verif.Lemmas.Mask
import Verif.Props.Readers
/-
C51: `df[mask]` keeps exactly the rows the mask says true for, however frame and mask are divided.
-/

variable {ι κ κ' α : Type}

/-- **C51.** For a frame and a mask (one boolean column), each divided in any way and with labels recorded or not, whose labels
    are the same, or whose mask labels do not repeat while the frame's rows are sorted by label: `df[mask]` gives pandas' rows in
    pandas' order, and raises exactly when some row has no value in the mask.

    Partial: masks with other labels than an unsorted frame (`C51_reordered_mask_sorts`), longer masks (`C51_longer_mask_fails`),
    repeated mask labels other than the frame's, and `DynamicPartitioning` (`C51_dynamic_wrong_column`). -/
theorem C51_mask_partial [DecidableEq ι] [DecidableEq κ] [DecidableEq κ'] (le : ι → ι → Bool) (cfg : Cfg)
    (hp : 1 ≤ cfg.nPartitions) (hr : 1 ≤ cfg.minRow) (nan : α) (m : LFrame ι κ α) (mask : LFrame ι κ' (Option Bool))
    (df : Frame ι κ α) (kf : Frame ι κ' (Option Bool)) (vals : List Bool) (h : m.Shows df) (hk : mask.Shows kf)
    (h1 : kf.columns.length = 1) (hv : kf.rows = vals.map fun v => [some v])
    (hl : kf.index = df.index ∨
      (kf.index.length = df.index.length ∧ kf.index.Nodup ∧ df.index.Pairwise fun a b => le a b = true)) :
    match df.getMask kf.index vals with
    | none => m.getitemMask le cfg false nan mask = none
    | some r => ∃ m', m.getitemMask le cfg false nan mask = some m' ∧ m'.Shows r ∧
        m'.toPandas nan = some r ∧ m'.getIndex = r.index ∧ m'.getColumns = r.columns := by
  have hlen : kf.index.length = df.index.length := by
    rcases hl with e | e
    · rw [e]
    · exact e.1
  have hl' : kf.index = df.index ∨ (df.index.Pairwise (le · ·) ∧ kf.index.Nodup) := by
    rcases hl with e | e
    · exact Or.inl e
    · exact Or.inr ⟨e.2.2, e.2.1⟩
  obtain ⟨k1, s1, s2⟩ := synced_spec hk
  obtain ⟨m1, t1, t2⟩ := synced_spec h
  have main := getitemMask_frame le cfg hp hr nan t2 s2 h1 hv hl'
  have e : m.getitemMask le cfg false nan mask =
      (m1.toMFrame.broadcastApplyRows (leftJoinSorted le) cfg false nan none selectRowsBlock .drop k1.toMFrame).map
        fun r => { r with defIndex := false, defColumns := false } := by
    unfold LFrame.getitemMask LFrame.operation
    rw [h.getIndex, hk.getIndex, hk.getColumns, if_neg (by simp [hlen]), if_neg (by simp [h1]), s1, Option.bind_some, t1,
      Option.bind_some]
  rw [e]
  cases hg : df.getMask kf.index vals with
  | none =>
    rw [hg] at main
    simp only at main
    rw [main]
    rfl
  | some r =>
    rw [hg] at main
    obtain ⟨m', a1, a2⟩ := main
    rw [a1]
    exact ⟨_, rfl, represents_shows a2, (represents_shows a2).observed nan⟩

/-- **C51.** The same for an array of booleans, for every frame, division and array. -/
theorem C51_bool_array [DecidableEq ι] [DecidableEq κ] (cfg : Cfg) (hp : 1 ≤ cfg.nPartitions) (hr : 1 ≤ cfg.minRow)
    (hc : 1 ≤ cfg.minCol) (known : Nat → Nat → Bool × Bool) (nan : α) (m : LFrame ι κ α) (df : Frame ι κ α) (key : List Bool)
    (h : m.Shows df) :
    match df.getArray key with
    | none => m.getitemBoolArray cfg known key = none
    | some r => ∃ m', m.getitemBoolArray cfg known key = some m' ∧
        m'.toPandas nan = some r ∧ m'.getIndex = r.index ∧ m'.getColumns = r.columns := by
  unfold Frame.getArray LFrame.getitemBoolArray
  rw [h.getIndex, h.getColumns]
  by_cases hk : key.length = df.index.length
  · rw [if_pos hk, if_neg (by simp [hk])]
    simp only
    have hpick : df.takeRows (keepWhere key (List.range df.index.length)) = df.pickRows key := by
      unfold Frame.takeRows Frame.pickRows
      rw [keepWhere_range key df.index hk]
      have := keepWhere_range key df.rows (by rw [hk, h.wf.rows_len])
      rw [h.wf.rows_len] at this
      rw [this]
    by_cases h0 : (keepWhere key (List.range df.index.length)).length = 0
    · rw [if_neg (by simp [h0])]
      have hnil := List.length_eq_zero_iff.1 h0
      have hr' : df.pickRows key = { index := [], columns := df.columns, rows := [] } := by
        rw [← hpick, hnil]
        rfl
      rw [hr']
      have hwf : ({ index := [], columns := df.columns, rows := [] } : Frame ι κ α).WF := ⟨rfl, by simp⟩
      have hcs : ∀ n mb, 1 ≤ mb → ∃ c, computeChunksize n cfg.nPartitions mb = some c := by
        intro n mb hmb
        unfold computeChunksize
        rw [if_neg (by omega), if_neg (by omega)]
        exact ⟨_, rfl⟩
      obtain ⟨rc, hrc⟩ := hcs 0 cfg.minRow hr
      obtain ⟨cc, hcc⟩ := hcs df.columns.length cfg.minCol hc
      rw [fromPandas_eq hwf hrc hcc]
      refine ⟨_, rfl, ?_, rfl, rfl⟩
      unfold LFrame.toPandas LFrame.synced
      simp only [Bool.false_eq_true, ↓reduceIte]
      apply standsFor_toPandas
      refine Or.inr ⟨?_, hwf, rfl, rfl, rfl, ?_⟩
      · simp only [splitPandas, Frame.nrows, List.length_nil]
        have : pyRangeStep 0 rc = [] := by
          unfold pyRangeStep
          have : 0 < rc := by have := computeChunksize_spec hrc; omega
          simp only [Nat.zero_add]
          rw [show (rc - 1) / rc = 0 from Nat.div_eq_of_lt (by omega)]
          rfl
        rw [this]
        rfl
      · have := fromPandasLengths_sum df.columns.length cc (by have := computeChunksize_spec hcc; omega)
        simp [validAxis, Frame.ncols, this]
    · rw [if_pos h0]
      have hmem : ∀ x ∈ keepWhere key (List.range df.index.length), x < df.nrows := by
        intro x hx
        exact List.mem_range.1 (keepWhere_mem hx)
      have hnd : (keepWhere key (List.range df.index.length)).Nodup := by
        unfold keepWhere
        have hz : ((key.zip (List.range df.index.length)).map (·.2)).Nodup := by
          rw [List.map_snd_zip (by simp [hk])]
          exact List.nodup_range
        exact hz.sublist (List.Sublist.map _ List.filter_sublist)
      obtain ⟨m', a1, a2⟩ := take2d_shows cfg hp hr hc h (known := known) (kn := true) (fun _ _ _ => rfl)
        (rows := some (.array (keepWhere key (List.range df.index.length)))) (cols := none)
        (by intro q e; cases e; exact hmem) (by intro q e; cases e) (by intro a b e; cases e) (by intro a b e; cases e)
        (by intro _ q e; cases e; exact hnd) (by intro _ q e; cases e)
      refine ⟨m', a1, ?_⟩
      have e : (df.takeRows (reqList df.nrows (some (.array (keepWhere key (List.range df.index.length)))))).takeCols
          (reqList df.ncols none) = df.pickRows key := by
        show (df.takeRows (keepWhere key (List.range df.index.length))).takeCols (List.range df.ncols) = _
        rw [hpick]
        exact Frame.takeCols_all (Frame.pickRows_wf h.wf key)
      rw [e] at a2
      exact a2.observed nan
  · rw [if_neg hk, if_pos hk]

namespace MaskDemo

def leN (a b : Nat) : Bool := decide (a ≤ b)

def demo : Frame Nat String Int := { index := [0, 1, 2], columns := ["a", "b", "c"], rows := [[1, 2, 3], [4, 5, 6], [7, 8, 9]] }

/-- one row and two rows, two columns and one column -/
def held : LFrame Nat String Int := ⟨⟨demo.cut [1, 2] [2, 1], none, some ["a", "b", "c"], some [1, 2], some [2, 1]⟩, false, false⟩

theorem held_shows : held.Shows demo :=
  ⟨⟨by decide, by decide⟩, ⟨demo, [1, 2], [2, 1], ⟨by decide, by decide⟩, rfl, rfl, ⟨by decide, by decide, by decide, by decide⟩,
    rfl, Or.inr rfl, Or.inr rfl, fun _ => rfl, fun _ => rfl⟩, Or.inl ⟨rfl, rfl⟩, Or.inr rfl⟩

/-- a mask with the labels in another order, divided in another way -/
def mf : Frame Nat String (Option Bool) := { index := [2, 0, 1], columns := ["m"], rows := [[some true], [some false], [some true]] }
def maskHeld : LFrame Nat String (Option Bool) := ⟨⟨mf.cut [2, 1] [1], some [2, 0, 1], none, none, none⟩, false, false⟩

theorem mask_shows : maskHeld.Shows mf :=
  ⟨⟨by decide, by decide⟩, ⟨mf, [2, 1], [1], ⟨by decide, by decide⟩, rfl, rfl, ⟨by decide, by decide, by decide, by decide⟩,
    rfl, Or.inl rfl, Or.inl rfl, fun _ => rfl, fun _ => rfl⟩, Or.inr rfl, Or.inl ⟨rfl, rfl⟩⟩

example : ∃ m', held.getitemMask leN ⟨4, 1, 1⟩ false 0 maskHeld = some m' ∧
    m'.toPandas 0 = some { index := [1, 2], columns := ["a", "b", "c"], rows := [[4, 5, 6], [7, 8, 9]] } := by
  obtain ⟨m', a, _, b, _⟩ := C51_mask_partial leN ⟨4, 1, 1⟩ (by decide) (by decide) 0 held maskHeld demo mf [true, false, true]
    held_shows mask_shows rfl rfl (Or.inr ⟨rfl, by decide, by decide⟩)
  exact ⟨m', a, b⟩

example : ∃ m', held.getitemBoolArray ⟨4, 1, 1⟩ (fun _ _ => (true, true)) [false, true, false] = some m' ∧
    m'.toPandas 0 = some { index := [1], columns := ["a", "b", "c"], rows := [[4, 5, 6]] } := by
  obtain ⟨m', a, b, _⟩ := C51_bool_array ⟨4, 1, 1⟩ (by decide) (by decide) (by decide) (fun _ _ => (true, true)) 0 held demo
    [false, true, false] held_shows
  exact ⟨m', a, b⟩

/-- a frame that is not sorted by label -/
def down : Frame Nat String Int := { index := [9, 5, 7], columns := ["a"], rows := [[90], [50], [70]] }
def downMask : Frame Nat String (Option Bool) := { index := [5, 7, 9], columns := ["m"], rows := [[some true], [some true], [some true]] }
def longMask : Frame Nat String (Option Bool) :=
  { index := [0, 1, 2, 3], columns := ["m"], rows := [[some true], [some true], [some false], [some true]] }

/-- **C51, violated.** A frame with rows 9, 5, 7 and a mask that is true for all of them but lists them as 5, 7, 9:
    pandas returns the frame as it is, Modin returns the rows in the order 5, 7, 9. -/
theorem C51_reordered_mask_sorts :
    down.getMask [5, 7, 9] [true, true, true] = some down ∧
    ((⟨⟨down.cut [3] [1], none, none, none, none⟩, false, false⟩ : LFrame Nat String Int).getitemMask leN ⟨4, 32, 32⟩ false 0
      ⟨⟨downMask.cut [3] [1], none, none, none, none⟩, false, false⟩).bind (·.toPandas 0) =
      some { index := [5, 7, 9], columns := ["a"], rows := [[50], [70], [90]] } := by
  decide +kernel

/-- **C51, violated.** A mask with a value for every row of the frame and one more: pandas selects by label, Modin raises. -/
theorem C51_longer_mask_fails :
    demo.getMask [0, 1, 2, 3] [true, true, false, true] =
      some { index := [0, 1], columns := ["a", "b", "c"], rows := [[1, 2, 3], [4, 5, 6]] } ∧
    held.getitemMask leN ⟨4, 32, 32⟩ false 0 ⟨⟨longMask.cut [4] [1], none, none, none, none⟩, false, false⟩ = none := by
  decide +kernel

/-- the same three columns, one and two -/
def held12 : LFrame Nat String Int := ⟨⟨demo.cut [3] [1, 2], none, some ["a", "b", "c"], none, some [1, 2]⟩, false, false⟩
def allTrue : LFrame Nat String (Option Bool) :=
  ⟨⟨Frame.cut [3] [1] { index := [0, 1, 2], columns := ["m"], rows := [[some true], [some true], [some true]] }, none, none, none, none⟩, false, false⟩

/-- **C51, violated.** With `DynamicPartitioning` the result is divided anew, here into two columns and one, while one and two are
    recorded: `df[mask].iloc[:, [1]]` is column `c` although column 1 is `b`. -/
theorem C51_dynamic_wrong_column :
    held12.Shows demo ∧
    (held12.getitemMask leN ⟨2, 1, 1⟩ true 0 allTrue).bind
      (fun r => (r.take2d ⟨2, 1, 1⟩ (fun _ _ => (false, false)) none (some (.array [1]))).bind fun t =>
        some (t.getColumns, (assemble t.parts).map (·.rows))) =
      some (["b"], some [[3], [6], [9]]) :=
  ⟨⟨⟨by decide, by decide⟩, ⟨demo, [3], [1, 2], ⟨by decide, by decide⟩, rfl, rfl, ⟨by decide, by decide, by decide, by decide⟩,
    rfl, Or.inl rfl, Or.inr rfl, fun _ => rfl, fun _ => rfl⟩, Or.inl ⟨rfl, rfl⟩, Or.inr rfl⟩, by decide +kernel⟩

end MaskDemo
