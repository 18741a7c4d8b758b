import Verif.Model.ValueCounts
import Verif.Lemmas.GroupAgg
import Verif.Lemmas.PivotTable
import Verif.Props.Shuffle
/-
`value_counts` and `groupby(...).size()`.
-/

variable {ι κ α K : Type}

/-- the single block column that holds a column -/
theorem applied_one [DecidableEq κ] {m : MFrame ι κ α} {df : Frame ι κ α} {rl cw : List Nat} (hcut : df.IsCut rl cw)
    (hp : m.parts = df.cut rl cw) (hcw : m.colWidths = none ∨ m.colWidths = some cw) (hcol : m.getColumns = df.columns)
    (hn : df.columns.Nodup) {c : κ} (hc : c ∈ df.columns) :
    ∃ j, m.appliedBlocks (some [c]) = some [j] ∧ j < cw.length ∧ c ∈ (colBand cw df j).columns := by
  obtain ⟨p, hpl, hpc⟩ := List.getElem_of_mem hc
  have hps : [c].flatMap (positionsOf df.columns) = [p] := by
    have := positionsOf_own hn (ps := [p]) (by simpa using hpl)
    rwa [show takeList df.columns [p] = [c] by simp [takeList, List.getElem?_eq_getElem hpl, hpc]] at this
  obtain ⟨d1, d2, d3⟩ := digitize_spec hcut.cw_ne p
  have d3 := d3 (by rw [hcut.cw_sum]; exact hpl)
  refine ⟨digitize (innerEdges cw) p, ?_, d1, ?_⟩
  · unfold MFrame.appliedBlocks
    simp only
    rw [hcol, getIndexerFor_present _ _ (by simpa using hc), mapM_id_some, Option.map_some, getColWidths_cut hcut hp hcw, hps,
      show npSort [p] = [p] from rfl]
    congr 1
    have hmem := fun e => mem_blockDict hcut.cw_ne (ps := [p]) (by simp) (by simp) e
    have hord := blockDict_ordered cw [p]
    match hb : blockDict cw [p] with
    | [] =>
      have := (hmem (digitize (innerEdges cw) p, .list (([p].filter fun x => decide (digitize (innerEdges cw) x =
        digitize (innerEdges cw) p)).map (· - off cw (digitize (innerEdges cw) p))))).2 ⟨d1, ⟨p, by simp, rfl⟩, rfl⟩
      rw [hb] at this
      cases this
    | [e] =>
      obtain ⟨_, ⟨x, hx, hx'⟩, _⟩ := (hmem e).1 (by rw [hb]; simp)
      simp only [List.mem_singleton] at hx
      subst hx
      simp [hx']
    | e :: e' :: l =>
      exfalso
      obtain ⟨_, ⟨x, hx, hx'⟩, _⟩ := (hmem e).1 (by rw [hb]; simp)
      obtain ⟨_, ⟨y, hy, hy'⟩, _⟩ := (hmem e').1 (by rw [hb]; simp)
      simp only [List.mem_singleton] at hx hy
      subst hx hy
      rw [hb, List.pairwise_cons] at hord
      have := hord.1 e' (by simp)
      omega
  · rw [colBand_columns]
    refine List.mem_of_getElem? (i := p - off cw (digitize (innerEdges cw) p)) ?_
    rw [pySlice_getElem?, if_pos (by omega), show off cw (digitize (innerEdges cw) p) + (p - off cw (digitize (innerEdges cw) p)) = p by omega,
      List.getElem?_eq_getElem hpl, hpc]

/-- a block that has the column has all of it -/
theorem withoutOthers_ilocCols [DecidableEq κ] {f : Frame ι κ α} (h : f.WF) (hn : f.columns.Nodup) {c : κ} {a b : Nat}
    (hc : c ∈ (f.ilocCols a b).columns) :
    ((f.ilocCols a b).withoutCols fun l => decide (l ≠ c)) = f.withoutCols fun l => decide (l ≠ c) := by
  have hb : (f.ilocCols a b).WF := h.ilocCols a b
  rw [← ofCols_named (hb.withoutCols _), ← ofCols_named (h.withoutCols _), named_withoutCols hb, named_withoutCols h, named_ilocCols h]
  show Frame.ofCols f.index _ = Frame.ofCols f.index _
  congr 1
  have he : (fun x : κ × List α => !decide (x.1 ≠ c)) = fun x => decide (x.1 = c) := by
    funext x
    by_cases hx : x.1 = c <;> simp [hx]
  rw [he]
  have hc' : c ∈ (pySlice f.named a b).map (·.1) := by
    rw [← pySlice_map', named_labels]
    exact hc
  obtain ⟨q, hq, rfl⟩ := List.mem_map.1 hc'
  have hu := unique_of_nodup (by rw [named_labels]; exact hn) ((List.take_sublist _ _).trans (List.drop_sublist _ _) |>.subset hq)
  rw [hu, filter_slice_unique hu hc']

theorem withoutCols_ilocRows (f : Frame ι κ α) (p : κ → Bool) (a b : Nat) :
    (f.ilocRows a b).withoutCols p = (f.withoutCols p).ilocRows a b := by
  unfold Frame.withoutCols Frame.ilocRows
  simp only [Frame.mk.injEq, true_and]
  rw [pySlice_map']

/-- **The groups and their sizes**, counted block by block in the block column of the first column. -/
theorem groupbySize_spec [DecidableEq ι] [DecidableEq κ] [DecidableEq α] (cfg : Cfg) (hp : 1 ≤ cfg.nPartitions) (hr : 1 ≤ cfg.minRow)
    (G : Grouping (List α)) (hG : G.Ordered) {m by' : MFrame ι κ α} {df bdf : Frame ι κ α} (hm : m.Represents df) (hb : by'.Represents bdf)
    (hidx : bdf.index = df.index) (hlens : by'.getRowLens = m.getRowLens) (na : α) (drop : Bool) (hn : df.columns.Nodup)
    (hne : df.index ≠ []) {c : κ} {rest : List κ} (hc : df.columns = c :: rest) :
    ∃ m', groupbySize cfg G na drop m by' = some m' ∧ m'.Represents (Frame.ofCounts c (countKeys G bdf.rows)) := by
  obtain ⟨rl, cw, hcut, hparts, hrl, hcw⟩ := hm.blocks
  obtain ⟨rlb, cwb, hcutb, hpartsb, hrlb, hcwb⟩ := hb.blocks
  have hl := hlens
  rw [getRowLens_cut hcut hparts hrl, getRowLens_cut hcutb hpartsb hrlb] at hl
  subst hl
  have hcm : c ∈ df.columns := by rw [hc]; simp
  obtain ⟨j, hj, hjl, hjc⟩ := applied_one hcut hparts hcw hm.getColumns hn hcm
  have hcount : by'.parts.length = m.parts.length := by
    rw [hparts, hpartsb]
    simp [Frame.cut]
  generalize hU : (df.withoutCols fun l => decide (l ≠ c)) = U
  have hUwf : U.WF := by rw [← hU]; exact hm.wf.withoutCols _
  have hUc : U.columns = [c] := by
    rw [← hU]
    show df.columns.filter _ = _
    have hne' : ∀ x ∈ rest, x ≠ c := by
      rw [hc, List.nodup_cons] at hn
      exact fun x hx h0 => hn.1 (h0 ▸ hx)
    rw [hc, List.filter_cons, if_pos (by simp)]
    congr 1
    rw [List.filter_eq_nil_iff]
    intro x hx
    simp [hne' x hx]
  have hUi : U.index = df.index := by rw [← hU]; rfl
  have hUcut : U.IsCut rlb [1] := ⟨hcut.rl_ne, by simp, by rw [hcut.rl_sum, Frame.nrows, Frame.nrows, hUi], by simp [Frame.ncols, hUc]⟩
  have hUm : (MFrame.mk (U.cut rlb [1]) none none none none).Represents U :=
    ⟨hUwf, ⟨rlb, [1], hUcut, rfl, Or.inl rfl, Or.inl rfl⟩, Or.inl rfl, Or.inl rfl⟩
  obtain ⟨m', e1, e2⟩ := groupbyReduce_spec cfg hp hr G hG hUm hb (hidx.trans hUi.symm)
    (by rw [hlens, getRowLens_cut hcut hparts hrl, getRowLens_cut hUcut rfl (Or.inl rfl)]) na false
    (⟨List.length, List.sum⟩ : TreeOp α Nat Nat) List.length (by
      intro bs _ _
      show (bs.map List.length).sum = _
      rw [List.length_flatten])
  refine ⟨m', ?_, ?_⟩
  · rw [← e1]
    unfold groupbySize groupbyReduce
    rw [hm.getIndex, if_neg hne, hm.getColumns, hc, List.head?_cons, Option.bind_some, hj, Option.bind_some]
    have hUl : by'.parts.length = (U.cut rlb [1]).length := by
      rw [hpartsb]
      simp [Frame.cut]
    simp only [hcount, ne_eq, not_true_eq_false, ↓reduceIte]
    have hleft : (m.parts.mapM fun row => [j].mapM fun j => row[j]?) =
        some ((sliceBounds rlb).map fun p => [(df.ilocRows p.1 p.2).ilocCols (off cw j) (off cw (j + 1))]) := by
      rw [hparts]
      unfold Frame.cut
      apply mapM_map_some
      intro p _
      rw [List.mapM_cons, List.getElem?_map, sliceBounds_getElem? hjl]
      rfl
    rw [hleft, Option.bind_some]
    have hlen2 : m.parts.length = ((sliceBounds rlb).map fun p => [(df.ilocRows p.1 p.2).ilocCols (off cw j) (off cw (j + 1))]).length := by
      rw [hparts]
      simp [Frame.cut]
    have hlen3 : m.parts.length = (U.cut rlb [1]).length := by rw [← hcount, hUl]
    rw [← hlen2, ← hlen3]
    simp only [not_true_eq_false, ↓reduceIte]
    have hg : broadcastApply0 (sizeMap G na drop c)
        ((sliceBounds rlb).map fun p => [(df.ilocRows p.1 p.2).ilocCols (off cw j) (off cw (j + 1))]) by'.parts =
        broadcastApply0 (groupbyMap G List.length na false) (U.cut rlb [1]) by'.parts := by
      rw [hpartsb]
      unfold broadcastApply0 Frame.cut
      rw [List.zip_map', List.zip_map']
      have key : ∀ p : Nat × Nat, sizeMap G na drop c ((df.ilocRows p.1 p.2).ilocCols (off cw j) (off cw (j + 1))) (bdf.ilocRows p.1 p.2) =
          groupbyMap G List.length na false ((U.ilocRows p.1 p.2).ilocCols 0 1) (bdf.ilocRows p.1 p.2) := by
        intro p
        have hi : (bdf.ilocRows p.1 p.2).index = ((df.ilocRows p.1 p.2).ilocCols (off cw j) (off cw (j + 1))).index := by
          show pySlice bdf.index _ _ = pySlice df.index _ _
          rw [hidx]
        have hUa : (U.ilocRows p.1 p.2).ilocCols 0 1 = U.ilocRows p.1 p.2 := by
          have := Frame.ilocCols_all (hUwf.ilocRows p.1 p.2)
          rwa [show (U.ilocRows p.1 p.2).ncols = 1 by show U.columns.length = 1; rw [hUc]; rfl] at this
        rw [hUa]
        have hk1 : blockKeys na drop ((df.ilocRows p.1 p.2).ilocCols (off cw j) (off cw (j + 1))) (bdf.ilocRows p.1 p.2) =
            some (bdf.ilocRows p.1 p.2).rows := by
          unfold blockKeys keysByLabel
          rw [hi]
          cases drop <;> simp
        have hk2 : blockKeys na false (U.ilocRows p.1 p.2) (bdf.ilocRows p.1 p.2) = some (bdf.ilocRows p.1 p.2).rows := by
          unfold blockKeys keysByLabel
          rw [hi]
          have : (U.ilocRows p.1 p.2).index = ((df.ilocRows p.1 p.2).ilocCols (off cw j) (off cw (j + 1))).index := by
            show pySlice U.index _ _ = pySlice df.index _ _
            rw [hUi]
          rw [this]
          simp
        unfold sizeMap groupbyMap
        rw [hk1, hk2, Option.map_some, Option.map_some]
        have hin : c ∈ ((df.ilocRows p.1 p.2).ilocCols (off cw j) (off cw (j + 1))).columns := hjc
        rw [if_pos (by simpa using hin), withoutOthers_ilocCols (hm.wf.ilocRows p.1 p.2) hn hin, withoutCols_ilocRows, hU]
        rfl
      rw [List.mapM_map, List.mapM_map]
      congr 1
      funext p
      have hch : Frame.hcat ((sliceBounds cwb).map fun q => (bdf.ilocRows p.1 p.2).ilocCols q.1 q.2) = some (bdf.ilocRows p.1 p.2) :=
        Frame.hcat_ilocCols (hb.wf.ilocRows _ _) (sliceBounds_ne_nil hcutb.cw_ne)
          (by rw [show (bdf.ilocRows p.1 p.2).ncols = bdf.ncols from rfl, ← hcutb.cw_sum]; exact covers_lens cwb)
      show ((Frame.hcat _).bind _) = ((Frame.hcat _).bind _)
      rw [hch, Option.bind_some, Option.bind_some]
      have h1 : sliceBounds [1] = [(0, 1)] := rfl
      rw [h1]
      simp only [List.map_cons, List.map_nil, List.mapM_cons, List.mapM_nil, key]
    rw [hg, if_neg (by simp [hlen3]), ← hlen3]
  · have : (valueCols false bdf.columns U).groupByKeys G bdf.rows List.length = Frame.ofCounts c (countKeys G bdf.rows) := by
      unfold valueCols Frame.groupByKeys Frame.ofCounts countKeys
      simp only [Bool.false_eq_true, ↓reduceIte, hUc, Frame.mk.injEq, List.map_map, Function.comp_def, List.map_id', true_and]
      apply List.map_congr_left
      intro k _
      have hUn := Frame.cols_len U
      rw [hUc] at hUn
      obtain ⟨x, hx⟩ : ∃ x, U.cols = [x] := List.length_eq_one_iff.1 hUn.symm
      have hxl : x.length = bdf.rows.length := by
        have := Frame.named_sized hUwf
        have hx' : x ∈ U.named.map (·.2) := by rw [named_cells, hx]; simp
        obtain ⟨e, he, rfl⟩ := List.mem_map.1 hx'
        rw [this e he, hUi, ← hidx, hb.wf.rows_len]
      rw [hx]
      simp only [List.map_cons, List.map_nil, List.cons.injEq, and_true]
      unfold cellsAt
      rw [List.length_map]
      have h1 : ∀ (l : List (List α)) (x : List α), x.length = l.length →
          ((l.zip x).filter fun y => decide (y.1 = k)).length = (l.filter fun y => decide (y = k)).length := by
        intro l x hl
        have : l = (l.zip x).map (·.1) := by rw [List.map_fst_zip (by omega)]
        conv => rhs; rw [this, List.filter_map, List.length_map]
        rfl
      exact h1 _ _ hxl
    rw [← this]
    exact e2

theorem rowBefore_counts (asc : Bool) (a b : K × Nat) :
    rowBefore (fun a b : Nat => decide (a ≤ b)) some true [(0, asc)] (a.1, [a.2]) (b.1, [b.2]) = countsBefore asc a b := by
  cases asc <;> simp [rowBefore, countsBefore, keyBefore, sortKey] <;> omega

theorem sortCounts_spec [DecidableEq κ] [DecidableEq K] (cfg : Cfg) (hp : 2 ≤ cfg.nPartitions) (hmr : 1 ≤ cfg.minRow) (hmc : 1 ≤ cfg.minCol)
    (over : Bool) {draw : Nat → List (Option Nat)}
    (hdraw : ∀ n, 2 ≤ n → draw n ≠ [] ∧ Increasing (fun a b : Nat => decide (a ≤ b)) (draw n)) (ascending : Bool)
    {counts : MFrame K κ Nat} {c : κ} {l : List (K × Nat)} (h : counts.Represents (Frame.ofCounts c l)) :
    ∃ m', sortCounts cfg over draw ascending counts = some m' ∧ m'.Represents (Frame.ofCounts c (sortBy (countsBefore ascending) l)) := by
  obtain ⟨m', e1, e2⟩ := C18_sort_values_partial cfg hp hmr hmc over (le := fun a b : Nat => decide (a ≤ b))
    ⟨by intro a b c h1 h2; simp at *; omega, by intro a b; simp; omega⟩ (isna := fun _ => false) (key := some) (fun _ => rfl) true true hdraw
    h 0 ascending [] (by simp [Frame.ncols, Frame.ofCounts])
  refine ⟨m', e1, ?_⟩
  have hr : (Frame.ofCounts c l).records = l.map fun e => (e.1, [e.2]) := by
    unfold Frame.records Frame.ofCounts
    rw [List.zip_map']
  have : (Frame.ofCounts c l).sortValues (fun a b : Nat => decide (a ≤ b)) some true [(0, ascending)] =
      Frame.ofCounts c (sortBy (countsBefore ascending) l) := by
    unfold Frame.sortValues
    rw [hr, ← sortBy_map (countsBefore ascending) _ (fun e : K × Nat => (e.1, [e.2])) (fun a b => (rowBefore_counts ascending a b).symm)]
    simp [Frame.ofRecords, Frame.ofCounts, List.map_map, Function.comp_def]
  rw [← this]
  exact e2

theorem takeLabels_spec [DecidableEq ι] [DecidableEq κ] (cfg : Cfg) (hp : 1 ≤ cfg.nPartitions) (hmr : 1 ≤ cfg.minRow)
    (hmc : 1 ≤ cfg.minCol) (known : Nat → Nat → Bool × Bool) {m : MFrame ι κ α} {df : Frame ι κ α} (h : m.Represents df)
    (hrows : ∀ rl, m.rowLens = some rl → 0 ∉ rl) {labels : List κ} (hl : ∀ k ∈ labels, k ∈ df.columns) (hn : labels.Nodup) :
    ∃ m', takeLabels cfg known labels m = some m' ∧ m'.Represents (df.takeCols (labels.flatMap (positionsOf df.columns))) ∧
      m'.getRowLens = m.getRowLens := by
  unfold takeLabels
  rw [h.getColumns, getIndexerFor_present _ _ hl, mapM_id_some, Option.bind_some]
  refine take2d_some_cols cfg hp hmr hmc known h hrows ?_ (flatMap_positionsOf_nodup _ hn)
  intro x hx
  obtain ⟨k, _, hx⟩ := List.mem_flatMap.1 hx
  exact (List.getElem?_eq_some_iff.1 (mem_positionsOf.1 hx)).1

theorem normalizeCounts_spec [DecidableEq κ] [DecidableEq K] (cfg : Cfg) (hp : 1 ≤ cfg.nPartitions) (hmr : 1 ≤ cfg.minRow)
    {counts : MFrame K κ Nat} {c : κ} {l : List (K × Nat)} (h : counts.Represents (Frame.ofCounts c l)) :
    ∃ m', normalizeCounts cfg counts = some m' ∧ m'.Represents (Frame.ofCounts c (normalizedCounts l)) := by
  obtain ⟨s, s1, s2⟩ := treeReduce0_spec cfg hp hmr h (by simp [Frame.ncols, Frame.ofCounts]) [unnamed] (fun x => [x.sum]) (by simp)
    (fun _ x => x.sum) List.sum (by
      intro bs hbs
      clear hbs
      induction bs with
      | nil => rfl
      | cons b bs ih =>
        rw [List.map_cons, List.flatten_cons, List.sum_append, List.flatten_cons, List.sum_append, ih]
        simp)
  have hs : treeReduceOp cfg List.sum List.sum counts = some s := s1
  obtain ⟨rl, cw, hcut, hparts, -, -⟩ := s2.blocks
  unfold normalizeCounts
  have ha : assemble s.parts = some ((Frame.ofCounts c l).reduceColumns unnamed List.sum) := by
    rw [hparts]
    exact assemble_cut s2.wf hcut (by simp [Frame.ncols, Frame.ofCounts, Frame.reduceColumns])
  have hcols : (Frame.ofCounts c l).cols = [l.map (·.2)] := by
    unfold Frame.cols Frame.ofCounts
    simp [Frame.ncols, Frame.column, List.filterMap_map, Function.comp_def]
  rw [hs, Option.bind_some, ha, Option.bind_some]
  have ht : ((Frame.ofCounts c l).reduceColumns unnamed List.sum).rows.flatten.head? = some (l.map (·.2)).sum := by
    unfold Frame.reduceColumns
    rw [hcols]
    rfl
  rw [ht, Option.bind_some]
  apply represents_mk'
  have hmap : (Frame.ofCounts c l).mapCells (fun n : Nat => (n : Rat) / ((l.map (·.2)).sum : Nat)) = Frame.ofCounts c (normalizedCounts l) := by
    unfold Frame.mapCells Frame.ofCounts normalizedCounts
    simp [List.map_map, Function.comp_def]
  rw [← hmap]
  obtain ⟨rl', cw', hcut', hparts', hrl, hcw⟩ := h.blocks
  refine ⟨h.wf.mapCells _, ⟨rl', cw', ⟨hcut'.1, by simpa [Frame.mapCells] using hcut'.2, hcut'.3, hcut'.4⟩, ?_, hrl, hcw⟩, h.index, h.columns⟩
  rw [hparts', Frame.cut_mapCells]
