import Verif.Lemmas.Columns
/-
Properties C04, C05: functions applied to partitions.
-/

variable {ι κ α β : Type} [DecidableEq ι] [DecidableEq κ]

/-- **C04.** An elementwise operation does not see partition boundaries.  For every frame,
    every division of it into blocks, every cell function, and whatever plan the engine picks
    from `DynamicPartitioning`, `CpuCount` and the grid's shape, the new grid is the *same*
    division of the pandas result `df.mapCells f`, and putting it together gives that result. -/
theorem C04_elementwise_every_plan (cfg : Cfg) (dyn : Bool) (cpu : Nat) (f : α → β)
    (df : Frame ι κ α) (hwf : df.WF) (rl cw : List Nat) (hcut : df.IsCut rl cw) :
    mapPartitions cfg dyn cpu (fun b => some (b.mapCells f)) (df.cut rl cw)
        = some ((df.mapCells f).cut rl cw) ∧
    (0 < df.ncols →
      (mapPartitions cfg dyn cpu (fun b => some (b.mapCells f)) (df.cut rl cw)).bind assemble
        = some (df.mapCells f)) := by
  have main : mapPartitions cfg dyn cpu (fun b => some (b.mapCells f)) (df.cut rl cw)
        = some ((df.mapCells f).cut rl cw) := by
    unfold mapPartitions
    cases dyn with
    | false =>
      simp only [Bool.not_false, ↓reduceIte, baseMapPartitions]
      rw [mapM_congr_some (g := fun row => row.map (·.mapCells f)) (fun row _ => mapM_some _ row),
        Frame.cut_mapCells]
    | true =>
      have hw : gridWidth (df.cut rl cw) = (sliceBounds cw).length :=
        gridWidth_matrix _ _ _ (sliceBounds_ne_nil hcut.rl_ne)
      have hpos : gridWidth (df.cut rl cw) ≠ 0 := by
        rw [hw, sliceBounds_length]
        exact fun h => hcut.cw_ne (List.eq_nil_of_length_eq_zero h)
      simp only [Bool.not_true, Bool.false_eq_true, ↓reduceIte, hpos]
      split
      · rename_i h
        simp only [Bool.and_eq_true, decide_eq_true_eq] at h
        exact mapJoined_cut cfg f _ (by omega) hwf hcut
      · exact mapAxis_keep_cut cfg _ f hwf hcut
  refine ⟨main, fun hc => ?_⟩
  rw [main, Option.bind_some]
  exact assemble_cut (hwf.mapCells f) ⟨hcut.rl_ne, hcut.cw_ne, hcut.rl_sum, hcut.cw_sum⟩ hc

/-- Non-vacuity for C04: a 5×3 frame in 3×2 blocks with 8 CPUs uses the joined-column plan,
    with 2 CPUs the row-axis plan; both double every cell. -/
example :
    let df : Frame Nat String Int :=
      { index := [10, 11, 12, 13, 14], columns := ["a", "b", "c"],
        rows := [[1, 2, 3], [4, 5, 6], [7, 8, 9], [10, 11, 12], [13, 14, 15]] }
    df.WF ∧ df.IsCut [2, 0, 3] [2, 1] ∧
    (∀ cpu ∈ [1, 2, 3, 8],
      ((mapPartitions ⟨4, 1, 1⟩ true cpu (fun b => some (b.mapCells (2 * ·)))
        (df.cut [2, 0, 3] [2, 1])).bind assemble).map (·.rows)
      = some [[2, 4, 6], [8, 10, 12], [14, 16, 18], [20, 22, 24], [26, 28, 30]]) := by
  refine ⟨⟨rfl, by decide⟩, ⟨by decide, by decide, by decide, by decide⟩, by decide⟩

variable {ι' κ' : Type} [DecidableEq ι'] [DecidableEq κ']

/-- **C05**, column direction.  A function that needs whole columns (`cumsum`, `median`, `rank`,
    `sort` of each column, user `apply`, ...) gives the pandas result for every division of the
    frame, every way of splitting the result again (keep the old row division, `num_splits`,
    explicit lengths) and every configuration: the engine never hands it part of a column, and
    no row or column of the result is lost, repeated or moved. -/
theorem C05_full_columns_result (cfg : Cfg) (hp : 1 ≤ cfg.nPartitions) (hm : 1 ≤ cfg.minRow)
    (F : Frame ι κ α → Frame ι' κ' β) (hF : ColumnLocal F)
    (df : Frame ι κ α) (hwf : df.WF) (rl cw : List Nat) (hcut : df.IsCut rl cw)
    (keep : Bool) (ns : Option Nat) (hns : ∀ n, ns = some n → 1 ≤ n)
    (ll : Option (List Nat)) (hkl : keep = true → ll = none)
    (hll : ∀ l, ll = some l → l ≠ [] → l.sum = (F df).nrows) (hc : 0 < (F df).ncols) :
    (mapAxisPartitions cfg true (fun b => some (F b)) (df.cut rl cw) keep ns ll).bind assemble
      = some (F df) := by
  obtain ⟨lens, hne, hs, heq⟩ :=
    mapAxis_rows_cut cfg hp hm hF hwf hcut keep ns hns ll hkl hll
  rw [heq, Option.bind_some]
  have hall : Frame.hcat (((sliceBounds cw).map fun q => df.ilocCols q.1 q.2).map F) = some (F df) :=
    hF.2 _ _ (by intro x hx; simp only [List.mem_map] at hx; obtain ⟨q, _, rfl⟩ := hx
                 exact hwf.ilocCols _ _) (hcat_cols_cut hwf hcut)
  apply assemble_of_rows (sliceBounds lens)
    (fun p => (sliceBounds cw).map fun q => (F (df.ilocCols q.1 q.2)).ilocRows p.1 p.2)
    (fun p => (F df).ilocRows p.1 p.2) (F df) (sliceBounds_ne_nil hne)
  · intro p _
    have := Frame.hcat_ilocRows hall p.1 p.2
    rw [List.map_map, List.map_map] at this
    exact this
  · intro p _
    exact hc
  · exact Frame.vcat_ilocRows (hF.1 _ hwf) (sliceBounds_ne_nil hne) (by rw [← hs]; exact covers_lens lens)

/-- **C05**, row direction. -/
theorem C05_full_rows_result (cfg : Cfg) (hp : 1 ≤ cfg.nPartitions) (hm : 1 ≤ cfg.minCol)
    (F : Frame ι κ α → Frame ι' κ' β) (hF : RowLocal F)
    (df : Frame ι κ α) (hwf : df.WF) (rl cw : List Nat) (hcut : df.IsCut rl cw)
    (keep : Bool) (ns : Option Nat) (hns : ∀ n, ns = some n → 1 ≤ n)
    (ll : Option (List Nat)) (hkl : keep = true → ll = none)
    (hll : ∀ l, ll = some l → l ≠ [] → l.sum = (F df).ncols) (hc : 0 < (F df).ncols) :
    (mapAxisPartitions cfg false (fun b => some (F b)) (df.cut rl cw) keep ns ll).bind assemble
      = some (F df) := by
  obtain ⟨lens, hne, hs, heq⟩ :=
    mapAxis_cols_cut cfg hp hm hF hwf hcut keep ns hns ll hkl hll
  rw [heq, Option.bind_some]
  have hall : Frame.vcat (((sliceBounds rl).map fun q => df.ilocRows q.1 q.2).map F) = some (F df) :=
    hF.2 _ _ (by intro x hx; simp only [List.mem_map] at hx; obtain ⟨q, _, rfl⟩ := hx
                 exact hwf.ilocRows _ _) (vcat_rows_cut hwf hcut)
  have hcol : ∀ p ∈ sliceBounds rl, (F (df.ilocRows p.1 p.2)).ncols = (F df).ncols := by
    intro p hp
    unfold Frame.ncols
    rw [(Frame.vcat_cols hall).2 _ (List.mem_map_of_mem (List.mem_map_of_mem hp))]
  apply assemble_of_rows (sliceBounds rl)
    (fun p => (sliceBounds lens).map fun q => (F (df.ilocRows p.1 p.2)).ilocCols q.1 q.2)
    (fun p => F (df.ilocRows p.1 p.2)) (F df) (sliceBounds_ne_nil hcut.rl_ne)
  · intro p hp
    exact Frame.hcat_ilocCols (hF.1 _ (hwf.ilocRows _ _)) (sliceBounds_ne_nil hne)
      (by rw [hcol p hp, ← hs]; exact covers_lens lens)
  · intro p hp
    rw [hcol p hp]; exact hc
  · rw [List.map_map] at hall
    exact hall

/-- `ColumnLocal` is met by every pandas operation defined column by column. -/
theorem C05_column_operations (g : List ι → List ι') (h : List α → List β)
    (hl : ∀ (idx : List ι) (c : List α), c.length = idx.length → (h c).length = (g idx).length) :
    ColumnLocal (fun f : Frame ι κ α => f.mapColumns g h) :=
  columnLocal_mapColumns g h hl

/-- `RowLocal` is met by every pandas operation defined row by row. -/
theorem C05_row_operations (g : List κ → List κ') (h : List α → List β)
    (hl : ∀ (cs : List κ) (r : List α), r.length = cs.length → (h r).length = (g cs).length) :
    RowLocal (fun f : Frame ι κ α => f.mapRows g h) :=
  rowLocal_mapRows g h hl

/-- running total -/
private def runTot : Int → List Int → List Int
  | _, [] => []
  | acc, x :: xs => (acc + x) :: runTot (acc + x) xs

private theorem runTot_length (l : List Int) (a : Int) : (runTot a l).length = l.length := by
  induction l generalizing a with
  | nil => rfl
  | cons x xs ih => simp [runTot, ih]

/-- Non-vacuity for C05: `cumsum` down the columns is `ColumnLocal`, and on a 5×3 frame in
    3×2 blocks the engine's result is pandas' one. -/
example :
    let F := fun f : Frame Nat String Int => f.mapColumns id (runTot 0)
    let df : Frame Nat String Int :=
      { index := [10, 11, 12, 13, 14], columns := ["a", "b", "c"],
        rows := [[1, 2, 3], [4, 5, 6], [7, 8, 9], [10, 11, 12], [13, 14, 15]] }
    ColumnLocal F ∧ df.WF ∧ df.IsCut [2, 0, 3] [2, 1] ∧ 0 < (F df).ncols ∧
    ((mapAxisPartitions ⟨4, 1, 1⟩ true (fun b => some (F b)) (df.cut [2, 0, 3] [2, 1]) false none
        (some [1, 4])).bind assemble).map (·.rows)
      = some [[1, 2, 3], [5, 7, 9], [12, 15, 18], [22, 26, 30], [35, 40, 45]] := by
  refine ⟨columnLocal_mapColumns _ _ (fun idx c h => by simp [runTot_length, h]),
    ⟨rfl, by decide⟩, ⟨by decide, by decide, by decide, by decide⟩, by decide, by decide⟩
