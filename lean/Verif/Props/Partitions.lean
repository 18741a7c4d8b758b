import Verif.Lemmas.Partitions
import Verif.Props.Readers
/-
C65: `unwrap_partitions` and `from_partitions`.
-/

variable {ι κ α : Type}

/-- **C65, handing out.** For every frame and every division of it, also while new labels wait to be written into the blocks:
    the row partitions handed out, one below the other, are the frame; so are the column partitions side by side, and the blocks
    are the frame cut into bands. -/
theorem C65_unwrap [DecidableEq ι] [DecidableEq κ] {m : LFrame ι κ α} {df : Frame ι κ α} (h : m.Shows df) :
    (∃ l, m.unwrapPartitions .rows = some (.rows l) ∧ Frame.vcat l = some df) ∧
    (∃ l, m.unwrapPartitions .cols = some (.cols l) ∧ Frame.hcat l = some df) ∧
    (∃ rl cw, df.IsCut rl cw ∧ m.unwrapPartitions .none = some (.blocks (df.cut rl cw))) := by
  refine ⟨?_, ?_, ?_⟩
  · obtain ⟨p, e, hf, hp⟩ := unwrap_spec h .rows
    cases p with
    | rows l => exact ⟨l, e, hp.2⟩
    | blocks g => exact hf.elim
    | cols l => exact hf.elim
  · obtain ⟨p, e, hf, hp⟩ := unwrap_spec h .cols
    cases p with
    | cols l => exact ⟨l, e, hp.2⟩
    | blocks g => exact hf.elim
    | rows l => exact hf.elim
  · obtain ⟨p, e, hf, hp⟩ := unwrap_spec h .none
    cases p with
    | blocks g =>
      obtain ⟨_, rl, cw, hc, rfl⟩ := hp
      exact ⟨rl, cw, hc, e⟩
    | rows l => exact hf.elim
    | cols l => exact hf.elim

/-- **C65, building.** Partitions that make up `df` give a frame that shows `df`, under the labels passed for an axis if any are
    passed, whether or not the (right) sizes are passed. -/
theorem C65_from [DecidableEq ι] [DecidableEq κ] (nan : α) {p : Parts ι κ α} {df : Frame ι κ α} (h : p.MakeUp df)
    (index : Option (List ι)) (columns : Option (List κ)) (rowLens colWidths : Option (List Nat))
    (hi : ∀ i ∈ index, i.length = df.nrows) (hc : ∀ c ∈ columns, c.length = df.ncols)
    (hr : ∀ l ∈ rowLens, l = p.heights) (hw : ∀ w ∈ colWidths, w = p.widths) :
    ∃ m, fromPartitions p index columns rowLens colWidths = some m ∧
      m.Shows ⟨index.getD df.index, columns.getD df.columns, df.rows⟩ ∧
      m.toPandas nan = some ⟨index.getD df.index, columns.getD df.columns, df.rows⟩ := by
  obtain ⟨m, e, hm⟩ := from_spec h index columns rowLens colWidths hi hc hr hw
  exact ⟨m, e, hm, (hm.observed nan).1⟩

/-- **C65, there and back.** Taking a frame apart and building a frame from the pieces gives the frame, along every axis, with
    or without passing the frame's labels. -/
theorem C65_roundtrip [DecidableEq ι] [DecidableEq κ] (nan : α) {m : LFrame ι κ α} {df : Frame ι κ α} (h : m.Shows df)
    (axis : PartAxis) (passIndex passColumns : Bool) :
    ∃ p m', m.unwrapPartitions axis = some p ∧
      fromPartitions p (if passIndex then some m.getIndex else none) (if passColumns then some m.getColumns else none) none none =
        some m' ∧ m'.Shows df ∧ m'.toPandas nan = some df := by
  obtain ⟨p, e, _, hp⟩ := unwrap_spec h axis
  obtain ⟨m', e', hm'⟩ := from_spec hp (if passIndex then some m.getIndex else none) (if passColumns then some m.getColumns else none)
    none none (by intro i hi; cases passIndex <;> simp at hi; rw [← hi, h.getIndex]; rfl)
    (by intro i hi; cases passColumns <;> simp at hi; rw [← hi, h.getColumns]; rfl) (by simp) (by simp)
  have : (⟨(if passIndex then some m.getIndex else none).getD df.index, (if passColumns then some m.getColumns else none).getD df.columns,
      df.rows⟩ : Frame ι κ α) = df := by
    cases passIndex <;> cases passColumns <;> simp [h.getIndex, h.getColumns]
  rw [this] at hm'
  exact ⟨p, m', e, e', hm', (hm'.observed nan).1⟩

/-- three rows in two bands, two columns in two bands, the new row labels not yet written into the blocks -/
def partsDemo : LFrame Nat String Int :=
  ⟨⟨[[⟨[0, 1], ["a"], [[1], [2]]⟩, ⟨[0, 1], ["b"], [[4], [5]]⟩], [⟨[2], ["a"], [[3]]⟩, ⟨[2], ["b"], [[6]]⟩]],
    some [7, 8, 9], some ["a", "b"], none, some [1, 1]⟩, true, false⟩

/-- the frame of `partsDemo` -/
def partsDemoFrame : Frame Nat String Int := ⟨[7, 8, 9], ["a", "b"], [[1, 4], [2, 5], [3, 6]]⟩

theorem partsDemo_shows : partsDemo.Shows partsDemoFrame :=
  ⟨⟨rfl, by decide⟩, ⟨⟨[0, 1, 2], ["a", "b"], [[1, 4], [2, 5], [3, 6]]⟩, [2, 1], [1, 1], ⟨rfl, by decide⟩, rfl, rfl,
    ⟨by decide, by decide, rfl, rfl⟩, by decide, Or.inl rfl, Or.inr rfl, (fun h => nomatch h), fun _ => rfl⟩, Or.inr rfl, Or.inr rfl⟩

example : partsDemo.unwrapPartitions .rows =
    some (.rows [⟨[7, 8], ["a", "b"], [[1, 4], [2, 5]]⟩, ⟨[9], ["a", "b"], [[3, 6]]⟩]) := by decide +kernel
example : ∃ p m', partsDemo.unwrapPartitions .cols = some p ∧
    fromPartitions p none (some ["a", "b"]) none none = some m' ∧ m'.Shows partsDemoFrame ∧ m'.toPandas 0 = some partsDemoFrame :=
  C65_roundtrip 0 partsDemo_shows .cols false true
example : ((fromPartitions (.rows [⟨[7, 8], ["a", "b"], [[1, 4], [2, 5]]⟩, ⟨[9], ["a", "b"], [[3, 6]]⟩] : Parts Nat String Int)
    (some [1, 2, 3]) none (some [2, 1]) none).bind (LFrame.toPandas 0)) = some ⟨[1, 2, 3], ["a", "b"], [[1, 4], [2, 5], [3, 6]]⟩ := by
  decide +kernel
