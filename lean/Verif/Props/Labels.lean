import Verif.Lemmas.Labels
import Verif.Props.Select
/-
Properties C22 (labels in force) and C31 (transpose).
-/

/-! ### C22 -/

/-- An operation that needs the labels of both axes (`sort`, `groupby`, `concat`, `filter`, whole-axis functions ...):
    its code, what pandas does (`none`: pandas raises), and the fact, proved elsewhere for each of them, that on a frame
    whose blocks carry the right labels the code does what pandas does. -/
structure BothOp (L α : Type) where
  run : MFrame L L α → Option (MFrame L L α)
  pandas : Frame L L α → Option (Frame L L α)
  sound : ∀ (m : MFrame L L α) (df df' : Frame L L α), m.Represents df → pandas df = some df' →
    ∃ m', run m = some m' ∧ m'.Represents df'

/-- What a user can do to a frame.  The labels of rows and columns have one type here because `transpose` exchanges them. -/
inductive LabelStep (L α : Type) where
  /-- `df.index = labels` -/
  | setIndex (labels : List L)
  /-- `df.columns = labels` -/
  | setColumns (labels : List L)
  /-- `df.copy()` -/
  | copy
  /-- a function of each cell: `-df`, `df.isna()`, `df.map(g)` ... -/
  | cells (g : α → α)
  /-- `df.T` -/
  | transpose
  /-- `df.iloc[rows, cols]` -/
  | iloc (rows cols : Option Positions)
  /-- the frame is looked at (`print(df)`, `df.to_numpy()` ...): the pending labels are written, the value stays -/
  | look
  /-- an operation that needs the labels -/
  | operation (op : BothOp L α)

/-- what pandas does: `df'` is the value of the frame after the step on `df` -/
def LabelStep.pandas {L α : Type} : LabelStep L α → Frame L L α → Frame L L α → Prop
  | .setIndex labels, df, df' => df.setIndex labels = some df'
  | .setColumns labels, df, df' => df.setColumns labels = some df'
  | .copy, df, df' => df' = df
  | .cells g, df, df' => df' = df.mapCells g
  | .transpose, df, df' => df' = df.transpose
  | .iloc rows cols, df, df' =>
    (∀ p, rows = some p → (∀ x ∈ p.toList, x < df.nrows) ∧ p.toList ≠ [] ∧ p.toList.Nodup) ∧
    (∀ p, cols = some p → (∀ x ∈ p.toList, x < df.ncols) ∧ p.toList ≠ [] ∧ p.toList.Nodup) ∧
    df' = (df.takeRows (reqList df.nrows rows)).takeCols (reqList df.ncols cols)
  | .look, df, df' => df' = df
  | .operation op, df, df' => op.pandas df = some df'

/-- what Modin does -/
def LabelStep.run {L α : Type} [DecidableEq L] (cfg : Cfg) (dyn : Bool) (cpu : Nat) (known : Nat → Nat → Bool × Bool) :
    LabelStep L α → LFrame L L α → Option (LFrame L L α)
  | .setIndex labels, m => m.setIndex labels
  | .setColumns labels, m => m.setColumns labels
  | .copy, m => m.copy
  | .cells g, m => m.mapBlocks cfg dyn cpu (Frame.mapCells g)
  | .transpose, m => m.transpose
  | .iloc rows cols, m => m.take2d cfg known rows cols
  | .look, m => m.synced
  | .operation op, m => m.operation op.run

/-- a history in pandas -/
def pandasHistory {L α : Type} : List (LabelStep L α) → Frame L L α → Frame L L α → Prop
  | [], df, df' => df' = df
  | s :: rest, df, df' => ∃ d, s.pandas df d ∧ pandasHistory rest d df'

/-- the same history in Modin -/
def modinHistory {L α : Type} [DecidableEq L] (cfg : Cfg) (dyn : Bool) (cpu : Nat) (known : Nat → Nat → Bool × Bool) :
    List (LabelStep L α) → LFrame L L α → Option (LFrame L L α)
  | [], m => some m
  | s :: rest, m => (s.run cfg dyn cpu known m).bind (modinHistory cfg dyn cpu known rest)

theorem step_shows {L α : Type} [DecidableEq L] (cfg : Cfg) (hp : 1 ≤ cfg.nPartitions) (hmr : 1 ≤ cfg.minRow) (hmc : 1 ≤ cfg.minCol)
    (dyn : Bool) (cpu : Nat) (known : Nat → Nat → Bool × Bool) (s : LabelStep L α) {m : LFrame L L α} {df df' : Frame L L α}
    (h : m.Shows df) (hs : s.pandas df df') : ∃ m', s.run cfg dyn cpu known m = some m' ∧ m'.Shows df' := by
  cases s with
  | setIndex labels => exact setIndex_shows h labels hs
  | setColumns labels => exact setColumns_shows h labels hs
  | copy => cases hs; exact copy_shows h
  | cells g => cases hs; exact mapCells_shows cfg dyn cpu g h
  | transpose => cases hs; exact transpose_shows h
  | look =>
    cases hs
    obtain ⟨m', e1, e2⟩ := synced_spec h
    refine ⟨m', e1, ?_⟩
    obtain ⟨rl, cw, hc, hpt, hrl, hcw⟩ := e2.blocks
    have hf : m'.defIndex = false ∧ m'.defColumns = false := by
      unfold LFrame.synced LFrame.propagate at e1
      cases hi : m.defIndex <;> cases hj : m.defColumns <;> simp only [hi, hj, Bool.and_self, Bool.and_false, Bool.and_true,
        Bool.false_eq_true, ↓reduceIte, Option.some.injEq] at e1
      · subst e1; exact ⟨hi, hj⟩
      all_goals
        split at e1
        · rw [Option.map_eq_some_iff] at e1
          obtain ⟨g, _, rfl⟩ := e1
          exact ⟨rfl, rfl⟩
        · cases e1
    exact ⟨e2.wf, ⟨df, rl, cw, e2.wf, rfl, rfl, hc, hpt, hrl, hcw, fun _ => rfl, fun _ => rfl⟩, e2.index.imp_left (⟨·, hf.1⟩),
      e2.columns.imp_left (⟨·, hf.2⟩)⟩
  | operation op => exact operation_shows h fun m1 hm1 => op.sound m1 df df' hm1 hs
  | iloc rows cols =>
    obtain ⟨h1, h2, rfl⟩ := hs
    have valid : ∀ (n : Nat) (r : Option Positions), (∀ p, r = some p → (∀ x ∈ p.toList, x < n) ∧ p.toList ≠ [] ∧ p.toList.Nodup) →
        (∀ q, r = some q → q.Valid n) ∧ (∀ a b, r = some (.range a b) → a < b) := by
      intro n r hr
      have hlt : ∀ a b, r = some (.range a b) → a < b := by
        intro a b hab
        have := (hr _ hab).2.1
        simp only [Positions.toList, ne_eq, List.range'_eq_nil_iff] at this
        omega
      refine ⟨?_, hlt⟩
      intro q hq
      cases q with
      | array ps => exact (hr _ hq).1
      | range a b =>
        have hab := hlt a b hq
        have := (hr _ hq).1 (b - 1) (by simp only [Positions.toList, List.mem_range'_1]; omega)
        exact ⟨by omega, by omega⟩
    exact take2d_shows cfg hp hmr hmc h (kn := true) (fun _ _ _ => rfl) (valid _ _ h1).1 (valid _ _ h2).1 (valid _ _ h1).2 (valid _ _ h2).2
      (fun _ q hq => (h1 q hq).2.2) (fun _ q hq => (h2 q hq).2.2)

theorem history_shows {L α : Type} [DecidableEq L] (cfg : Cfg) (hp : 1 ≤ cfg.nPartitions) (hmr : 1 ≤ cfg.minRow) (hmc : 1 ≤ cfg.minCol)
    (dyn : Bool) (cpu : Nat) (known : Nat → Nat → Bool × Bool) (steps : List (LabelStep L α)) :
    ∀ {m : LFrame L L α} {df df' : Frame L L α}, m.Shows df → pandasHistory steps df df' →
      ∃ m', modinHistory cfg dyn cpu known steps m = some m' ∧ m'.Shows df' := by
  induction steps with
  | nil => intro m df df' h hs; cases hs; exact ⟨m, rfl, h⟩
  | cons s rest ih =>
    rintro m df df' h ⟨d, h1, h2⟩
    obtain ⟨m1, e1, e2⟩ := step_shows cfg hp hmr hmc dyn cpu known s h h1
    obtain ⟨m', e3, e4⟩ := ih e2 h2
    refine ⟨m', ?_, e4⟩
    unfold modinHistory
    rw [e1, Option.bind_some, e3]

/-- **C22.** The labels shown are the labels in force.  For every frame, division and configuration, and every history of
    label assignments, copies, cell functions, transpositions, positional selections, looks and label-needing operations
    that pandas accepts, Modin accepts it too, and at its end
    * `df.index` and `df.columns` are pandas' labels (those assigned last, carried through the later steps);
    * the materialised frame is pandas' frame, cells and labels;
    * the blocks handed to an operation that needs labels are pieces of pandas' frame, so they carry those labels.

    Partial: functions run by the elementwise operator must not look at labels (see `C22_map_stale_wrong`), a wrong number
    of labels is not always rejected at once (see `C22_late_error`), selections take distinct positions and at least one
    (C08), and operations that need only one axis are not in the history. -/
theorem C22_labels_in_force_partial {L α : Type} [DecidableEq L] (cfg : Cfg) (hp : 1 ≤ cfg.nPartitions) (hmr : 1 ≤ cfg.minRow)
    (hmc : 1 ≤ cfg.minCol) (dyn : Bool) (cpu : Nat) (known : Nat → Nat → Bool × Bool) (nan : α)
    (m : MFrame L L α) (df df' : Frame L L α) (h : m.Represents df) (steps : List (LabelStep L α)) (hs : pandasHistory steps df df') :
    ∃ m', modinHistory cfg dyn cpu known steps { m with defIndex := false, defColumns := false } = some m' ∧
      m'.getIndex = df'.index ∧ m'.getColumns = df'.columns ∧ m'.toPandas nan = some df' ∧
      ∃ (m1 : LFrame L L α) (rl cw : List Nat), m'.synced = some m1 ∧ df'.IsCut rl cw ∧ m1.parts = df'.cut rl cw := by
  obtain ⟨m', e1, e2⟩ := history_shows cfg hp hmr hmc dyn cpu known steps (represents_shows h) hs
  obtain ⟨m1, e3, e4⟩ := synced_spec e2
  obtain ⟨rl, cw, hc, hpt, _⟩ := e4.blocks
  refine ⟨m', e1, e2.getIndex, e2.getColumns, ?_, m1, rl, cw, e3, hc, hpt⟩
  unfold LFrame.toPandas
  rw [e3, Option.bind_some]
  exact e4.toPandas nan

/-- sorting and the like are `BothOp`s; here the smallest real one: `_reorder_labels`, behind `df.sort_index`,
    `df.reindex` and friends -/
def reorderOp (L α : Type) [DecidableEq L] (cfg : Cfg) (hp : 1 ≤ cfg.nPartitions) (hmr : 1 ≤ cfg.minRow) (hmc : 1 ≤ cfg.minCol)
    (order : List Nat) : BothOp L α where
  run m := reorderLabels cfg m (some order) none
  pandas df := if order.all (· < df.nrows) then some (df.takeRows order) else none
  sound := by
    intro m df df' h hd
    split at hd
    · rename_i ho
      cases hd
      obtain ⟨m', e1, e2⟩ := reorderLabels_spec cfg hp hmr hmc h (rp := some order) (cp := none)
        (by intro ps hps; cases hps; simpa using ho) (by intro ps hps; cases hps)
      exact ⟨m', e1, e2⟩
    · cases hd

def labDemo : Frame String String Int :=
  { index := ["r", "s", "t"], columns := ["a", "b"], rows := [[1, 2], [3, 4], [5, 6]] }

def labDemoM : MFrame String String Int :=
  { parts := labDemo.cut [2, 1] [1, 1], index := none, columns := some ["a", "b"], rowLens := some [2, 1], colWidths := none }

def labDemoSteps : List (LabelStep String Int) :=
  [.setColumns ["x", "y"], .cells (10 * ·), .setIndex ["k", "l", "m"], .transpose, .iloc (some (.array [1])) none,
   .setIndex ["z"], .operation (reorderOp String Int ⟨4, 1, 1⟩ (by decide) (by decide) (by decide) [0, 0]),
   .copy, .setColumns ["n", "o", "p"]]

/-- Non-vacuity for C22: a history that meets the hypotheses and ends in a frame with labels from four assignments. -/
example : labDemoM.Represents labDemo ∧
    pandasHistory labDemoSteps labDemo
      { index := ["z", "z"], columns := ["n", "o", "p"], rows := [[20, 40, 60], [20, 40, 60]] } ∧
    (((modinHistory ⟨4, 1, 1⟩ true 8 (fun _ _ => (true, true)) labDemoSteps
      { labDemoM with defIndex := false, defColumns := false }).bind (·.toPandas 0)).map
      fun f => (f.index, f.columns, f.rows)) = some (["z", "z"], ["n", "o", "p"], [[20, 40, 60], [20, 40, 60]]) := by
  refine ⟨⟨⟨rfl, by decide⟩, ⟨[2, 1], [1, 1], ⟨by decide, by decide, by decide, by decide⟩, rfl, Or.inr rfl, Or.inl rfl⟩,
    Or.inl rfl, Or.inr rfl⟩, ?_, by decide⟩
  refine ⟨_, rfl, _, rfl, _, rfl, _, rfl, _, ⟨?_, ?_, rfl⟩, _, rfl, _, rfl, _, rfl, _, rfl, rfl⟩
  · intro p hp; cases hp; decide
  · intro p hp; cases hp

/-- **C22 fails for functions that look at labels and are run by the elementwise operator**: after
    `df.columns = ["x", "y"]`, `df.fillna({"x": 7})` fills nothing, because the blocks still carry the old names (`map`
    does not write pending labels first).  The same goes for `replace`, `round` and `isin` with a dictionary. -/
theorem C22_map_stale_wrong :
    let df : Frame Nat String (Option Int) := { index := [0, 1], columns := ["a", "b"], rows := [[none, some 1], [some 2, none]] }
    let m : LFrame Nat String (Option Int) :=
      { parts := df.cut [2] [2], index := some [0, 1], columns := some ["a", "b"], rowLens := some [2], colWidths := some [2],
        defIndex := false, defColumns := false }
    m.Shows df ∧
    ((df.setColumns ["x", "y"]).map fun d => (d.fillColumns none [("x", some 7)]).rows) = some [[some 7, some 1], [some 2, none]] ∧
    (((m.setColumns ["x", "y"]).bind fun m => m.mapBlocks ⟨4, 1, 1⟩ false 4 (Frame.fillColumns none [("x", some 7)])).bind
      (·.toPandas none)).map (·.rows) = some [[none, some 1], [some 2, none]] := by
  refine ⟨⟨⟨rfl, by decide⟩, ⟨_, [2], [2], ⟨rfl, by decide⟩, rfl, rfl, ⟨by decide, by decide, by decide, by decide⟩, rfl, Or.inr rfl,
    Or.inr rfl, fun _ => rfl, fun _ => rfl⟩, Or.inr rfl, Or.inr rfl⟩, by decide, by decide⟩

/-- **C22, errors come late**: with an index that is not materialised, `df.index = labels` accepts two labels for three
    rows; pandas raises at once.  The error appears when the frame is looked at. -/
theorem C22_late_error :
    labDemoM.Represents labDemo ∧ (labDemo.setIndex ["u", "v"]) = none ∧
    ∃ m', LFrame.setIndex ["u", "v"] { labDemoM with defIndex := false, defColumns := false } = some m' ∧ m'.toPandas 0 = none := by
  refine ⟨⟨⟨rfl, by decide⟩, ⟨[2, 1], [1, 1], ⟨by decide, by decide, by decide, by decide⟩, rfl, Or.inr rfl, Or.inl rfl⟩,
    Or.inl rfl, Or.inr rfl⟩, rfl, _, rfl, by decide⟩

/-! ### C31 -/

variable {ι κ α : Type} [DecidableEq ι] [DecidableEq κ]

omit [DecidableEq ι] [DecidableEq κ] in
/-- what the specification `Frame.transpose` means: labels change places, and cell `(j, i)` of the result is cell `(i, j)` -/
theorem C31_cells (df : Frame ι κ α) (h : df.WF) :
    df.transpose.index = df.columns ∧ df.transpose.columns = df.index ∧ df.transpose.WF ∧
    ∀ i j : Nat, j < df.ncols → (df.transpose.rows[j]?.bind (·[i]?)) = df.rows[i]?.bind fun (r : List α) => r[j]? := by
  refine ⟨rfl, rfl, h.transpose, ?_⟩
  intro i j hj
  simp only [Frame.transpose, List.getElem?_map, List.getElem?_range hj, Option.map_some, Option.bind_some]
  exact (filterMap_col h.row_width hj).2 i

/-- **C31.** `df.T` is exact and an involution: for every frame and every division into blocks, with or without pending
    labels (`m.Shows df`), `df.T` materialises to pandas' transpose, its labels are the exchanged labels, and `df.T.T`
    materialises to `df`. -/
theorem C31_transpose (m : LFrame ι κ α) (df : Frame ι κ α) (h : m.Shows df) (nan : α) :
    ∃ m', m.transpose = some m' ∧ m'.toPandas nan = some df.transpose ∧ m'.getIndex = df.columns ∧ m'.getColumns = df.index ∧
      ∃ m'', m'.transpose = some m'' ∧ m''.toPandas nan = some df := by
  obtain ⟨m', e1, e2⟩ := transpose_shows h
  obtain ⟨m'', e3, e4⟩ := transpose_shows e2
  rw [transpose_transpose h.wf] at e4
  have mat : ∀ {ι' κ' : Type} [DecidableEq ι'] [DecidableEq κ'] {m : LFrame ι' κ' α} {df : Frame ι' κ' α}, m.Shows df →
      m.toPandas nan = some df := by
    intro ι' κ' _ _ m df h
    obtain ⟨m1, a, b⟩ := synced_spec h
    unfold LFrame.toPandas
    rw [a, Option.bind_some]
    exact b.toPandas nan
  exact ⟨m', e1, mat e2, e2.getIndex, e2.getColumns, m'', e3, mat e4⟩

/-- Non-vacuity for C31: three uneven row bands, two column bands, pending column labels. -/
example :
    let df0 : Frame Nat String Int := { index := [7, 8, 9], columns := ["a", "b", "c"], rows := [[1, 2, 3], [4, 5, 6], [7, 8, 9]] }
    let df := { df0 with columns := ["x", "y", "z"] }
    let m : LFrame Nat String Int :=
      { parts := df0.cut [1, 0, 2] [2, 1], index := none, columns := some ["x", "y", "z"], rowLens := none, colWidths := none,
        defIndex := false, defColumns := true }
    m.Shows df ∧ ((m.transpose.bind (·.toPandas 0)).map fun f => (f.index, f.columns, f.rows))
      = some (["x", "y", "z"], [7, 8, 9], [[1, 4, 7], [2, 5, 8], [3, 6, 9]]) := by
  refine ⟨⟨⟨rfl, by decide⟩, ⟨{ index := [7, 8, 9], columns := ["a", "b", "c"], rows := [[1, 2, 3], [4, 5, 6], [7, 8, 9]] },
    [1, 0, 2], [2, 1], ⟨rfl, ?_⟩, rfl, rfl, ⟨by decide, by decide, by decide, by decide⟩, rfl, Or.inl rfl,
    Or.inl rfl, fun _ => rfl, fun h => by cases h⟩, Or.inl ⟨rfl, rfl⟩, Or.inr rfl⟩, by decide⟩
  decide
