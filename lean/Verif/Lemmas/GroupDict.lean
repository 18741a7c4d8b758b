import Verif.Model.GroupDict
import Verif.Lemmas.ValueCounts
import Verif.Lemmas.GroupAggSpec
import Verif.Lemmas.GroupIter
/-
Lemmas for the aggregation of a dictionary by map and reduce.
-/

variable {ι κ α K β γ ℓ φ : Type}

/-! ### the block columns looked at -/

/-- every block column looked at has one of the columns asked for -/
theorem applied_hit [DecidableEq κ] {m : MFrame ι κ α} {df : Frame ι κ α} {rl cw : List Nat} (hcut : df.IsCut rl cw)
    (hp : m.parts = df.cut rl cw) (hcw : m.colWidths = none ∨ m.colWidths = some cw) (hcol : m.getColumns = df.columns)
    {l : List κ} (hne : l ≠ []) (hin : ∀ c ∈ l, c ∈ df.columns) {idx : List Nat} (hi : m.appliedBlocks (some l) = some idx) :
    ∀ j ∈ idx, ∃ c ∈ l, c ∈ (colBand cw df j).columns := by
  unfold MFrame.appliedBlocks at hi
  simp only at hi
  rw [hcol, getIndexerFor_present _ _ hin, mapM_id_some, Option.map_some, getColWidths_cut hcut hp hcw, Option.some.injEq] at hi
  have hps : npSort (l.flatMap (positionsOf df.columns)) ≠ [] := by
    intro h0
    have hperm := npSort_perm (l.flatMap (positionsOf df.columns))
    rw [h0] at hperm
    have hnil := hperm.symm.eq_nil
    cases l with
    | nil => exact hne rfl
    | cons c l =>
      have h1 := positionsOf_pos (hin c (by simp))
      rw [List.flatMap_cons] at hnil
      rw [(List.append_eq_nil_iff.1 hnil).1] at h1
      exact absurd h1 (by simp)
  intro j hj
  rw [← hi] at hj
  obtain ⟨e, he, rfl⟩ := List.mem_map.1 hj
  obtain ⟨h1, ⟨x, hx, hxd⟩, -⟩ := (mem_blockDict hcut.cw_ne (npSort_pairwise (l.flatMap (positionsOf df.columns))) hps e).1 he
  rw [(npSort_perm _).mem_iff] at hx
  obtain ⟨c, hc, hxc⟩ := List.mem_flatMap.1 hx
  rw [mem_positionsOf] at hxc
  have hlt : x < df.columns.length := (List.getElem?_eq_some_iff.1 hxc).1
  obtain ⟨d1, d2, d3⟩ := digitize_spec hcut.cw_ne x
  have d3 := d3 (by rw [hcut.cw_sum]; exact hlt)
  rw [hxd] at d2 d3
  refine ⟨c, hc, ?_⟩
  rw [colBand_columns]
  refine List.mem_of_getElem? (i := x - off cw e.1) ?_
  rw [pySlice_getElem?, if_pos (by omega), show off cw e.1 + (x - off cw e.1) = x by omega]
  exact hxc

/-! ### the columns a dictionary asks for -/

theorem dictPicks_filter [DecidableEq κ] (d : List (κ × List (ℓ × φ))) (cs : List (κ × List α)) {labels : List κ}
    (h : labels = cs.map (·.1)) : dictPicks (d.filter fun e => labels.contains e.1) cs = dictPicks d cs := by
  unfold dictPicks
  refine flatMap_filter_empty _ ?_
  intro e _ he
  rw [List.flatMap_eq_nil_iff]
  intro p hp
  exfalso
  obtain ⟨h1, h2⟩ := List.mem_filter.1 hp
  have h2 : p.1 = e.1 := by simpa using h2
  have h3 : e.1 ∈ labels := by rw [h, ← h2]; exact List.mem_map.2 ⟨p, h1, rfl⟩
  simp [h3] at he

theorem dictPicks_mapCells [DecidableEq κ] {δ : Type} (t : List α → List δ) (d : List (κ × List (ℓ × φ))) (cs : List (κ × List α)) :
    dictPicks d (cs.map fun p => (p.1, t p.2)) = (dictPicks d cs).map fun x => (x.1, t x.2) := by
  unfold dictPicks
  rw [List.map_flatMap]
  apply flatMap_congr_mem
  intro e _
  rw [List.filter_map, List.flatMap_map, List.map_flatMap]
  apply flatMap_congr_mem
  intro p _
  rw [List.map_map]
  rfl

theorem dictPicks_fns [DecidableEq κ] (d : List (κ × List (ℓ × φ))) {cs : List (κ × List α)} (hn : (cs.map (·.1)).Nodup) :
    ((dictPicks d cs).map (·.1)).Sublist (d.flatMap (·.2)) := by
  unfold dictPicks
  induction d with
  | nil => simp
  | cons e d ih =>
    rw [List.flatMap_cons, List.flatMap_cons, List.map_append]
    refine List.Sublist.append ?_ ih
    by_cases hc : ∃ p ∈ cs, p.1 = e.1
    · obtain ⟨p, hp, he⟩ := hc
      have := unique_of_nodup hn hp
      rw [he] at this
      rw [this]
      simp [Function.comp_def]
    · have : (cs.filter fun p => decide (p.1 = e.1)) = [] := by
        rw [List.filter_eq_nil_iff]
        intro p hp h
        exact hc ⟨p, hp, by simpa using h⟩
      rw [this]
      simp

theorem mem_dictPicks [DecidableEq κ] {d : List (κ × List (ℓ × φ))} {cs : List (κ × List α)} {x : (ℓ × φ) × List α}
    (h : x ∈ dictPicks d cs) : ∃ p ∈ cs, x.2 = p.2 := by
  unfold dictPicks at h
  obtain ⟨e, _, h⟩ := List.mem_flatMap.1 h
  obtain ⟨p, hp, h⟩ := List.mem_flatMap.1 h
  obtain ⟨f, _, rfl⟩ := List.mem_map.1 h
  exact ⟨p, (List.mem_filter.1 hp).1, rfl⟩

/-- results looked up by their labels, which are distinct -/
theorem lookup_fns [DecidableEq ℓ] {τ : Type} : ∀ {es : List (ℓ × φ)} {X : List ((ℓ × φ) × τ)}, (X.map (·.1)).Sublist es →
    (es.map (·.1)).Nodup → (es.flatMap fun f => (X.filter fun x => decide (x.1.1 = f.1)).map fun x => (f, x.2)) = X := by
  intro es
  induction es with
  | nil =>
    intro X h _
    rw [List.map_eq_nil_iff.1 (List.eq_nil_of_sublist_nil h)]
    rfl
  | cons f es ih =>
    intro X h hn
    rw [List.map_cons, List.nodup_cons] at hn
    rw [List.flatMap_cons]
    have hout : ∀ x : (ℓ × φ) × τ, x.1 ∈ es → x.1.1 ≠ f.1 := fun x hx h0 => hn.1 (h0 ▸ List.mem_map.2 ⟨x.1, hx, rfl⟩)
    cases h' : X with
    | nil => subst h'; simp
    | cons x X' =>
      subst h'
      rw [List.map_cons] at h
      rcases List.sublist_cons_iff.1 h with h1 | ⟨r, h1, h2⟩
      · have he : ((x :: X').filter fun x => decide (x.1.1 = f.1)) = [] := by
          rw [List.filter_eq_nil_iff]
          intro y hy h0
          exact hout y (h1.subset (by rw [← List.map_cons]; exact List.mem_map.2 ⟨y, hy, rfl⟩)) (by simpa using h0)
        rw [he, List.map_nil, List.nil_append]
        exact ih (by rw [List.map_cons]; exact h1) hn.2
      · rw [List.cons.injEq] at h1
        obtain ⟨hx, rfl⟩ := h1
        have he : (X'.filter fun x => decide (x.1.1 = f.1)) = [] := by
          rw [List.filter_eq_nil_iff]
          intro y hy h0
          exact hout y (h2.subset (List.mem_map.2 ⟨y, hy, rfl⟩)) (by simpa using h0)
        rw [List.filter_cons, if_pos (by simp [hx]), he]
        simp only [List.map_cons, List.map_nil, List.cons_append, List.nil_append]
        have hx' : (f, x.2) = x := by rw [← hx]
        rw [hx']
        congr 1
        rw [← ih h2 hn.2]
        apply flatMap_congr_mem
        intro g hg
        have hfg : ¬ f.1 = g.1 := fun h0 => hn.1 (h0 ▸ List.mem_map.2 ⟨g, hg, rfl⟩)
        rw [ih h2 hn.2, List.filter_cons, if_neg (by rw [hx]; simpa using hfg)]

theorem dictPicks_reduce [DecidableEq ℓ] {τ : Type} (d : List (κ × List (ℓ × φ))) (hn : ((d.flatMap (·.2)).map (·.1)).Nodup)
    {X : List ((ℓ × φ) × List τ)} (hX : (X.map (·.1)).Sublist (d.flatMap (·.2))) :
    dictPicks (reduceDict d) (X.map fun x => (x.1.1, x.2)) = X := by
  unfold dictPicks reduceDict
  conv => rhs; rw [← lookup_fns hX hn]
  rw [List.flatMap_assoc, List.flatMap_assoc]
  apply flatMap_congr_mem
  intro e _
  rw [List.flatMap_map]
  apply flatMap_congr_mem
  intro f _
  rw [List.filter_map, List.flatMap_map, List.map_eq_flatMap]
  rfl

/-! ### stacking frames of columns -/

theorem ofCols_append {A : Type} (I I' : List ι) (X : List A) (lab : A → κ) (g g' : A → List α) (h : ∀ x ∈ X, (g x).length = I.length) :
    (Frame.ofCols (I ++ I') (X.map fun x => (lab x, g x ++ g' x))).rows =
      (Frame.ofCols I (X.map fun x => (lab x, g x))).rows ++ (Frame.ofCols I' (X.map fun x => (lab x, g' x))).rows := by
  unfold Frame.ofCols
  simp only [List.length_append, List.range_add, List.map_append, List.map_map]
  congr 1
  · apply List.map_congr_left
    intro i hi
    have hi := List.mem_range.1 hi
    rw [List.filterMap_map, List.filterMap_map]
    apply filterMap_congr'
    intro x hx
    simp only [Function.comp_def]
    rw [List.getElem?_append_left (by rw [h x hx]; exact hi)]
  · apply List.map_congr_left
    intro i hi
    simp only [Function.comp_def]
    rw [List.filterMap_map, List.filterMap_map]
    apply filterMap_congr'
    intro x hx
    simp only [Function.comp_def]
    rw [List.getElem?_append_right (by rw [h x hx]; omega), h x hx]
    congr 1
    omega

theorem rows_ofCols_flatMap {A P : Type} (X : List A) (lab : A → κ) (I : P → List ι) (g : P → A → List α) : ∀ (ps : List P),
    (∀ p ∈ ps, ∀ x ∈ X, (g p x).length = (I p).length) →
    (ps.map fun p => (Frame.ofCols (I p) (X.map fun x => (lab x, g p x))).rows).flatten =
      (Frame.ofCols (ps.flatMap I) (X.map fun x => (lab x, ps.flatMap fun p => g p x))).rows := by
  intro ps
  induction ps with
  | nil => intro _; simp [Frame.ofCols]
  | cons p ps ih =>
    intro h
    rw [List.map_cons, List.flatten_cons, ih fun q hq => h q (by simp [hq])]
    simp only [List.flatMap_cons]
    rw [ofCols_append _ _ X lab (g p) (fun x => ps.flatMap fun p => g p x) (h p (by simp))]

theorem vcat_ofCols [DecidableEq κ] {A P : Type} (X : List A) (lab : A → κ) (I : P → List ι) (g : P → A → List α) {ps : List P} (hne : ps ≠ [])
    (h : ∀ p ∈ ps, ∀ x ∈ X, (g p x).length = (I p).length) :
    Frame.vcat (ps.map fun p => Frame.ofCols (I p) (X.map fun x => (lab x, g p x))) =
      some (Frame.ofCols (ps.flatMap I) (X.map fun x => (lab x, ps.flatMap fun p => g p x))) := by
  rw [Frame.vcat_eq (c := X.map lab) (by simpa using hne)]
  · have := rows_ofCols_flatMap X lab I g ps h
    rw [List.map_map, List.map_map]
    simp only [Option.some.injEq]
    show Frame.mk _ _ _ = Frame.mk _ _ _
    congr 1
    simp [Frame.ofCols, Function.comp_def]
  · intro x hx
    obtain ⟨p, _, rfl⟩ := List.mem_map.1 hx
    simp [Frame.ofCols, Function.comp_def]

/-! ### both phases on a block column -/

/-- the results of the first phase of a block column, stacked -/
def dictStack [DecidableEq K] (G : Grouping K) (impl : φ → TreeOp α β γ) (rl : List Nat) (keys : List K) (X : List ((ℓ × φ) × List α)) :
    Frame K ℓ β :=
  Frame.ofCols ((sliceBounds rl).flatMap fun p => G.groups (pySlice keys p.1 p.2))
    (X.map fun x => (x.1.1, (sliceBounds rl).flatMap fun p =>
      (G.groups (pySlice keys p.1 p.2)).map fun k => (impl x.1.2).map (cellsAt k (pySlice keys p.1 p.2) (pySlice x.2 p.1 p.2))))

theorem dictReduce_stack [DecidableEq ℓ] [DecidableEq K] (G : Grouping K) (hG : G.Ordered) (impl : φ → TreeOp α β γ) (h : φ → List α → γ)
    (d : List (κ × List (ℓ × φ))) (hn : ((d.flatMap (·.2)).map (·.1)).Nodup) {X : List ((ℓ × φ) × List α)}
    (hX : (X.map (·.1)).Sublist (d.flatMap (·.2))) {rl : List Nat} {keys : List K} (hrl : rl.sum = keys.length)
    (hlen : ∀ x ∈ X, x.2.length = keys.length)
    (hlaw : ∀ x ∈ X, ∀ bs : List (List α), bs ≠ [] → (∀ b ∈ bs, b ≠ []) → (impl x.1.2).reduce (bs.map (impl x.1.2).map) = h x.1.2 bs.flatten) :
    dictReduce G impl d (dictStack G impl rl keys X) =
      Frame.ofCols (G.groups keys) (X.map fun x => (x.1.1, (G.groups keys).map fun k => h x.1.2 (cellsAt k keys x.2))) := by
  have hidx : G.groups ((sliceBounds rl).flatMap fun p => G.groups (pySlice keys p.1 p.2)) = G.groups keys := by
    have := G.groups_flatten hG (piecesOf rl keys)
    rw [piecesOf_flatten hrl] at this
    rw [← this]
    unfold piecesOf
    rw [List.map_map]
    rfl
  let cellsOf := fun x : (ℓ × φ) × List α => (sliceBounds rl).flatMap fun p =>
      (G.groups (pySlice keys p.1 p.2)).map fun k => (impl x.1.2).map (cellsAt k (pySlice keys p.1 p.2) (pySlice x.2 p.1 p.2))
  have hnamed : (dictStack G impl rl keys X).named = (X.map fun x => (x.1, cellsOf x)).map fun y => (y.1.1, y.2) := by
    unfold dictStack
    rw [named_ofCols]
    · rw [List.map_map]; rfl
    · intro c hc
      obtain ⟨x, _, rfl⟩ := List.mem_map.1 hc
      simp [List.length_flatMap]
  have hpick : dictPicks ((reduceDict d).filter fun e => (dictStack G impl rl keys X).columns.contains e.1) (dictStack G impl rl keys X).named =
      X.map fun x => (x.1, cellsOf x) := by
    rw [dictPicks_filter _ _ (named_labels _).symm, hnamed]
    refine dictPicks_reduce d hn ?_
    rw [List.map_map]
    exact hX
  unfold dictReduce Frame.aggDict
  rw [hpick, List.map_map]
  show Frame.ofCols (G.groups ((sliceBounds rl).flatMap fun p => G.groups (pySlice keys p.1 p.2))) _ = _
  have hi : (dictStack G impl rl keys X).index = (sliceBounds rl).flatMap fun p => G.groups (pySlice keys p.1 p.2) := rfl
  rw [hi, hidx]
  congr 1
  apply List.map_congr_left
  intro x hx
  simp only [Function.comp_def, Prod.mk.injEq, true_and]
  apply List.map_congr_left
  intro k hk
  obtain ⟨hkk, hkd⟩ := G.mem_groups.1 hk
  have hl := hlen x hx
  let ps := (sliceBounds rl).map fun p => (pySlice keys p.1 p.2, pySlice x.2 p.1 p.2)
  have hps : ∀ p ∈ ps, p.1.length = p.2.length := by
    intro p hp
    simp only [ps, List.mem_map] at hp
    obtain ⟨q, _, rfl⟩ := hp
    simp [hl]
  have hpart := cellsAt_partials G hkd (impl x.1.2).map ps hps
  have hflat := cellsAt_flatten k ps hps
  have e1 : (ps.map (·.1)).flatten = keys := by
    simp only [ps, List.map_map]
    exact piecesOf_flatten hrl
  have e2 : (ps.map (·.2)).flatten = x.2 := by
    simp only [ps, List.map_map]
    exact piecesOf_flatten (by rw [hl, hrl])
  rw [e1, e2] at hflat
  have hne : (ps.map fun p => cellsAt k p.1 p.2).filter (· ≠ []) ≠ [] := by
    intro h0
    have := flatten_filter_ne_nil (ps.map fun p => cellsAt k p.1 p.2)
    rw [h0, ← hflat] at this
    exact (cellsAt_eq_nil k hl.symm).1 this.symm hkk
  have := hlaw x hx _ hne (by intro b hb; simpa using (List.mem_filter.1 hb).2)
  rw [flatten_filter_ne_nil, ← hflat] at this
  rw [← this, ← hpart]
  simp only [ps, List.map_map, cellsOf, Function.comp_def, List.flatMap]

/-- the columns of a block column the dictionary asks for -/
def bandPicks [DecidableEq κ] (cw : List Nat) (df : Frame ι κ α) (d : List (κ × List (ℓ × φ))) (j : Nat) : List ((ℓ × φ) × List α) :=
  dictPicks d (colBand cw df j).named

theorem dictMap_block [DecidableEq ι] [DecidableEq κ] [DecidableEq α] (G : Grouping (List α)) (impl : φ → TreeOp α β γ) (na : α)
    (drop : Bool) (d : List (κ × List (ℓ × φ))) {df bdf : Frame ι κ α} (hwf : df.WF) (hidx : bdf.index = df.index) (cw : List Nat) {j : Nat}
    (hj : ∃ c ∈ d.map (·.1), c ∈ (colBand cw df j).columns) (p : Nat × Nat) :
    dictMap G impl na drop d ((df.ilocRows p.1 p.2).ilocCols (off cw j) (off cw (j + 1))) (bdf.ilocRows p.1 p.2) =
      some (Frame.ofCols (G.groups (pySlice bdf.rows p.1 p.2)) ((bandPicks cw df d j).map fun x => (x.1.1,
        (G.groups (pySlice bdf.rows p.1 p.2)).map fun k => (impl x.1.2).map (cellsAt k (pySlice bdf.rows p.1 p.2) (pySlice x.2 p.1 p.2))))) := by
  have hi : (bdf.ilocRows p.1 p.2).index = ((df.ilocRows p.1 p.2).ilocCols (off cw j) (off cw (j + 1))).index := by
    show pySlice bdf.index _ _ = pySlice df.index _ _
    rw [hidx]
  have hk : blockKeys na drop ((df.ilocRows p.1 p.2).ilocCols (off cw j) (off cw (j + 1))) (bdf.ilocRows p.1 p.2) =
      some (pySlice bdf.rows p.1 p.2) := by
    unfold blockKeys keysByLabel
    rw [hi]
    cases drop <;> simp <;> rfl
  unfold dictMap
  rw [hk, Option.map_some, if_neg]
  · congr 1
    unfold Frame.aggDict
    rw [dictPicks_filter _ _ (named_labels _).symm, ilocRows_ilocCols]
    have hb : ((df.ilocCols (off cw j) (off cw (j + 1))).ilocRows p.1 p.2).named =
        (colBand cw df j).named.map fun q => (q.1, pySlice q.2 p.1 p.2) := named_ilocRows (hwf.ilocCols _ _) _ _
    rw [hb, dictPicks_mapCells (fun c => pySlice c p.1 p.2), List.map_map]
    rfl
  · obtain ⟨c, hc, hcb⟩ := hj
    obtain ⟨e, he, rfl⟩ := List.mem_map.1 hc
    intro h0
    rw [List.filter_eq_nil_iff] at h0
    have hcb' : e.1 ∈ ((df.ilocRows p.1 p.2).ilocCols (off cw j) (off cw (j + 1))).columns := hcb
    exact h0 e he (by simpa using hcb')

/-- **The whole aggregation.** -/
theorem groupbyDict_spec [DecidableEq ι] [DecidableEq κ] [DecidableEq α] [DecidableEq ℓ] (cfg : Cfg) (hp : 1 ≤ cfg.nPartitions)
    (hr : 1 ≤ cfg.minRow) (G : Grouping (List α)) (hG : G.Ordered) {m by' : MFrame ι κ α} {df bdf : Frame ι κ α} (hm : m.Represents df)
    (hb : by'.Represents bdf) (hidx : bdf.index = df.index) (hlens : by'.getRowLens = m.getRowLens) (na : α) (drop : Bool)
    (hu : df.columns.Nodup) (hne : df.index ≠ []) (impl : φ → TreeOp α β γ) (h : φ → List α → γ) {d : List (κ × List (ℓ × φ))} (hd : d ≠ [])
    (hin : ∀ e ∈ d, e.1 ∈ df.columns) (hn : ((d.flatMap (·.2)).map (·.1)).Nodup)
    (hlaw : ∀ f ∈ d.flatMap (·.2), ∀ bs : List (List α), bs ≠ [] → (∀ b ∈ bs, b ≠ []) →
      (impl f.2).reduce (bs.map (impl f.2).map) = h f.2 bs.flatten) :
    ∃ (cw : List Nat) (m' : MFrame (List α) ℓ γ), cw.sum = df.ncols ∧ groupbyDict cfg G impl na drop d m by' = some m' ∧
      m'.Represents (df.aggDict G bdf.rows h
        ((List.range cw.length).flatMap fun j => d.filter fun e => (pySlice df.columns (off cw j) (off cw (j + 1))).contains e.1)) ∧
      (m.parts.map List.length).headD 0 = cw.length := by
  obtain ⟨rl, cw, hcut, hparts, hrl, hcw⟩ := hm.blocks
  obtain ⟨rlb, cwb, hcutb, hpartsb, hrlb, hcwb⟩ := hb.blocks
  have hl := hlens
  rw [getRowLens_cut hcut hparts hrl, getRowLens_cut hcutb hpartsb hrlb] at hl
  subst hl
  have hin' : ∀ c ∈ d.map (·.1), c ∈ df.columns := by
    intro c hc
    obtain ⟨e, he, rfl⟩ := List.mem_map.1 hc
    exact hin e he
  obtain ⟨idx, i1, i2, i3, i4, i5, -⟩ := applied_spec hcut hparts hcw hm.getColumns (some (d.map (·.1)))
    (by intro l hl; simp only [Option.some.injEq] at hl; subst hl; exact ⟨by simpa using hd, hin'⟩)
  have hhit := applied_hit hcut hparts hcw hm.getColumns (by simpa using hd) hin' i1
  have hcount : by'.parts.length = m.parts.length := by
    rw [hparts, hpartsb]
    simp [Frame.cut]
  have hkeys : rlb.sum = bdf.rows.length := by rw [hb.wf.rows_len]; exact hcutb.rl_sum
  have hsz : ∀ j, ∀ x ∈ bandPicks cw df d j, x.2.length = bdf.rows.length := by
    intro j x hx
    obtain ⟨p, hp, e⟩ := mem_dictPicks hx
    rw [e, Frame.named_sized (hm.wf.ilocCols _ _) p hp, hb.wf.rows_len, hidx]
    rfl
  have hfn : ∀ j, ((bandPicks cw df d j).map (·.1)).Sublist (d.flatMap (·.2)) := by
    intro j
    refine dictPicks_fns d ?_
    rw [named_labels, colBand_columns]
    exact hu.sublist ((List.take_sublist _ _).trans (List.drop_sublist _ _))
  let cs := fun j => (bandPicks cw df d j).map fun x => (x.1.1, (G.groups bdf.rows).map fun k => h x.1.2 (cellsAt k bdf.rows x.2))
  have hcs : ∀ j, Sized (G.groups bdf.rows).length (cs j) := by
    intro j c hc
    obtain ⟨x, _, rfl⟩ := List.mem_map.1 hc
    simp
  have hred : ∀ j, dictReduce G impl d (dictStack G impl rlb bdf.rows (bandPicks cw df d j)) = Frame.ofCols (G.groups bdf.rows) (cs j) := by
    intro j
    refine dictReduce_stack G hG impl h d hn (hfn j) hkeys (hsz j) ?_
    intro x hx
    exact hlaw x.1 ((hfn j).subset (List.mem_map.2 ⟨x, hx, rfl⟩))
  have hleft : (m.parts.mapM fun row => idx.mapM fun j => row[j]?) =
      some ((sliceBounds rlb).map fun p => idx.map fun j => (df.ilocRows p.1 p.2).ilocCols (off cw j) (off cw (j + 1))) := by
    rw [hparts]
    unfold Frame.cut
    apply mapM_map_some
    intro p _
    apply mapM_congr_some
    intro j hj
    rw [List.getElem?_map, sliceBounds_getElem? (i4 j hj)]
    rfl
  have hlen2 : ((sliceBounds rlb).map fun p => idx.map fun j => (df.ilocRows p.1 p.2).ilocCols (off cw j) (off cw (j + 1))).length =
      m.parts.length := by
    rw [hparts]
    simp [Frame.cut]
  let blk := fun (p : Nat × Nat) (j : Nat) => Frame.ofCols (G.groups (pySlice bdf.rows p.1 p.2)) ((bandPicks cw df d j).map fun x => (x.1.1,
        (G.groups (pySlice bdf.rows p.1 p.2)).map fun k => (impl x.1.2).map (cellsAt k (pySlice bdf.rows p.1 p.2) (pySlice x.2 p.1 p.2))))
  have hmap : broadcastApplyTo (dictMap G impl na drop d)
      ((sliceBounds rlb).map fun p => idx.map fun j => (df.ilocRows p.1 p.2).ilocCols (off cw j) (off cw (j + 1))) by'.parts =
      some ((sliceBounds rlb).map fun p => idx.map fun j => blk p j) := by
    rw [hpartsb]
    unfold broadcastApplyTo Frame.cut
    rw [List.zip_map']
    apply mapM_map_some
    intro p _
    have hch : Frame.hcat ((sliceBounds cwb).map fun q => (bdf.ilocRows p.1 p.2).ilocCols q.1 q.2) = some (bdf.ilocRows p.1 p.2) :=
      Frame.hcat_ilocCols (hb.wf.ilocRows _ _) (sliceBounds_ne_nil hcutb.cw_ne)
        (by rw [show (bdf.ilocRows p.1 p.2).ncols = bdf.ncols from rfl, ← hcutb.cw_sum]; exact covers_lens cwb)
    simp only [hch, Option.bind_some]
    apply mapM_map_some
    intro j hj
    exact dictMap_block G impl na drop d hm.wf hidx cw (hhit j hj) p
  have hk : 1 ≤ min m.parts.length cfg.nPartitions := by
    have h1 := List.length_pos_iff.2 hcut.rl_ne
    have h2 : m.parts.length = rlb.length := by rw [hparts]; simp [Frame.cut, sliceBounds_length]
    omega
  obtain ⟨lens, l1, l2, l3⟩ := deployLens_ok (min m.parts.length cfg.nPartitions) hk false rlb (G.groups bdf.rows).length cfg.minRow hr none
    false (by simp)
  have hdep : (idx.map fun j => (sliceBounds rlb).map fun p => blk p j).mapM (fun parts => deployAxisFunc true
      (fun f => some (dictReduce G impl d f)) (min m.parts.length cfg.nPartitions) false parts cfg.minRow none false) =
      some (idx.map fun j => (sliceBounds lens).map fun p => (Frame.ofCols (G.groups bdf.rows) (cs j)).ilocRows p.1 p.2) := by
    apply mapM_map_some
    intro j _
    have hv : Frame.vcat ((sliceBounds rlb).map fun p => blk p j) = some (dictStack G impl rlb bdf.rows (bandPicks cw df d j)) :=
      vcat_ofCols (bandPicks cw df d j) (fun x => x.1.1) (fun p : Nat × Nat => G.groups (pySlice bdf.rows p.1 p.2)) _
        (sliceBounds_ne_nil hcut.rl_ne) (by intro p _ x _; simp)
    rw [deploy_rows_eq _ _ _ _ _ _ _ _ hv (by rw [hred]; exact ofCols_wf (hcs j)), hred]
    have hpl : deployLens (min m.parts.length cfg.nPartitions) false (((sliceBounds rlb).map fun p => blk p j).map (·.nrows))
        (Frame.ofCols (G.groups bdf.rows) (cs j)).nrows cfg.minRow none false = some lens := by
      rw [← l1]
      unfold deployLens
      simp [Frame.ofCols, Frame.nrows]
    rw [hpl, Option.map_some]
  have hst := stackCols_ofCols (G.groups bdf.rows) cs idx
  have hax : mapAxisPartitions cfg true (fun f => some (dictReduce G impl d f)) ((sliceBounds rlb).map fun p => idx.map fun j => blk p j) false
      (some (min m.parts.length cfg.nPartitions)) none =
      some ((Frame.ofCols (G.groups bdf.rows) (idx.flatMap cs)).cut lens ((idx.map fun j => Frame.ofCols (G.groups bdf.rows) (cs j)).map (·.ncols))) := by
    unfold mapAxisPartitions
    simp only [Bool.false_and, Bool.false_eq_true, ↓reduceIte, axisNumSplits, truthyLengths, Option.isSome_none]
    rw [colBlocks_matrix _ _ _ (sliceBounds_ne_nil hcut.rl_ne), hdep]
    simp only [Option.bind_eq_bind, Option.bind_some]
    rw [← hst, ← colBlocks_bands (G.groups bdf.rows) lens l2 _ (by simpa using i2)]
    · rw [List.map_map]; rfl
    · intro R hR
      obtain ⟨j, _, rfl⟩ := List.mem_map.1 hR
      exact ⟨ofCols_wf (hcs j), rfl⟩
  have hwf : (Frame.ofCols (G.groups bdf.rows) (idx.flatMap cs)).WF := by
    refine ofCols_wf ?_
    intro c hc
    obtain ⟨j, _, hj⟩ := List.mem_flatMap.1 hc
    exact hcs j c hj
  obtain ⟨x, x1, x2⟩ := mk'_blocks (df := Frame.ofCols (G.groups bdf.rows) (idx.flatMap cs))
    (m := MFrame.mk ((Frame.ofCols (G.groups bdf.rows) (idx.flatMap cs)).cut lens
      ((idx.map fun j => Frame.ofCols (G.groups bdf.rows) (cs j)).map (·.ncols))) none none none none) hwf
    (by rw [← hst]; exact stackCols_isCut _ lens l2 l3 _ (by simpa using i2)) rfl (Or.inl rfl) (Or.inl rfl) (Or.inl rfl) (Or.inl rfl)
  refine ⟨cw, x, hcut.cw_sum, ?_, ?_, ?_⟩
  · unfold groupbyDict
    rw [hm.getIndex, if_neg hne, i1, Option.bind_some]
    simp only [hcount, ne_eq, not_true_eq_false, ↓reduceIte]
    rw [hleft, Option.bind_some, hlen2, if_neg (by simp), hmap, Option.bind_some, hax, Option.bind_some, x1]
  · have hcols : idx.flatMap cs = (dictPicks ((List.range cw.length).flatMap fun j =>
        d.filter fun e => (pySlice df.columns (off cw j) (off cw (j + 1))).contains e.1) df.named).map fun x =>
          (x.1.1, (G.groups bdf.rows).map fun k => h x.1.2 (cellsAt k bdf.rows x.2)) := by
      have hsel : idx.flatMap cs = (List.range cw.length).flatMap cs := by
        conv => lhs; rw [ascending_eq i3 i4]
        refine flatMap_filter_empty _ ?_
        intro j hj hnj
        have hj := List.mem_range.1 hj
        have hnj : j ∉ idx := by simpa using hnj
        have hno := i5 j hj hnj _ rfl
        simp only [cs, List.map_eq_nil_iff]
        unfold bandPicks dictPicks
        rw [List.flatMap_eq_nil_iff]
        intro e he
        rw [List.flatMap_eq_nil_iff]
        intro p hp
        exfalso
        obtain ⟨h1, h2⟩ := List.mem_filter.1 hp
        have h2 : p.1 = e.1 := by simpa using h2
        refine hno p.1 ?_ ?_
        · rw [← named_labels]; exact List.mem_map.2 ⟨p, h1, rfl⟩
        · rw [h2]; exact List.mem_map.2 ⟨e, he, rfl⟩
      rw [hsel]
      have hdp : dictPicks ((List.range cw.length).flatMap fun j =>
          d.filter fun e => (pySlice df.columns (off cw j) (off cw (j + 1))).contains e.1) df.named =
          (List.range cw.length).flatMap fun j => bandPicks cw df d j := by
        unfold dictPicks
        rw [List.flatMap_assoc]
        apply flatMap_congr_mem
        intro j _
        unfold bandPicks
        have hb' : (colBand cw df j).named = pySlice df.named (off cw j) (off cw (j + 1)) := named_ilocCols hm.wf _ _
        rw [← dictPicks_filter d (colBand cw df j).named (labels := pySlice df.columns (off cw j) (off cw (j + 1)))
          (by rw [named_labels, colBand_columns])]
        unfold dictPicks
        apply flatMap_congr_mem
        intro e he
        have hec : e.1 ∈ pySlice df.columns (off cw j) (off cw (j + 1)) := by simpa using (List.mem_filter.1 he).2
        have hec' : e.1 ∈ (pySlice df.named (off cw j) (off cw (j + 1))).map (·.1) := by
          rw [← hb', named_labels, colBand_columns]; exact hec
        obtain ⟨q, hq, hqe⟩ := List.mem_map.1 hec'
        have hu' := unique_of_nodup (by rw [named_labels]; exact hu) ((List.take_sublist _ _).trans (List.drop_sublist _ _) |>.subset hq)
        rw [hqe] at hu'
        rw [hb', hu', filter_slice_unique hu' hec']
      rw [hdp, List.map_flatMap]
    unfold Frame.aggDict
    rw [← hcols]
    exact x2
  · rw [hparts]
    unfold Frame.cut
    cases hs : sliceBounds rlb with
    | nil => exact absurd hs (sliceBounds_ne_nil hcut.rl_ne)
    | cons p ps => simp [sliceBounds_length]

theorem aggImpl_law (f : AggName) (bs : List (List (Option Int))) :
    (aggImpl f).reduce (bs.map (aggImpl f).map) = f.value bs.flatten := by
  cases f with
  | sum =>
    have := sumOp_law (skipna := true) (mc := 0) (Or.inl rfl) bs rfl
    simp only [aggImpl, AggName.value, List.map_map, Function.comp_def]
    rw [← this]
    rfl
  | prod =>
    have := prodOp_law (skipna := true) (mc := 0) (Or.inl rfl) bs rfl
    simp only [aggImpl, AggName.value, List.map_map, Function.comp_def]
    rw [← this]
    rfl
  | min =>
    have := minOp_law (skipna := true) (Or.inl rfl) bs rfl
    simp only [aggImpl, AggName.value, List.map_map, Function.comp_def]
    rw [← this]
    rfl
  | max =>
    have := maxOp_law (skipna := true) (Or.inl rfl) bs rfl
    simp only [aggImpl, AggName.value, List.map_map, Function.comp_def]
    rw [← this]
    rfl
  | count =>
    have := countOp_law bs
    simp only [aggImpl, AggName.value, List.map_map, Function.comp_def]
    have e : gbCount.reduce (bs.map fun x => gbCount.map x) = some ((Pandas.count bs.flatten : Nat) : Int) := this
    rw [e]
    rfl
  | size =>
    have := gbSize_law bs
    simp only [aggImpl, AggName.value, List.map_map, Function.comp_def]
    have e : gbSize.reduce (bs.map fun x => gbSize.map x) = some (bs.flatten.length : Int) := this
    rw [e]
    rfl
  | mean => exact gbMean_law bs

/-! ### named arguments -/

theorem namedDict_perm [DecidableEq κ] (pair : κ → φ → ℓ) (spec : List (ℓ × κ × φ)) :
    ((namedDict pair spec).flatMap fun e => e.2.map fun f => (e.1, f)).Perm (spec.map fun s => (s.2.1, (pair s.2.1 s.2.2, s.2.2))) := by
  have := divide_perm (ss := (firsts (spec.map (·.2.1))).map fun c => [c]) (d := spec.map fun s => (s.2.1, (pair s.2.1 s.2.2, s.2.2)))
    (by rw [← List.flatMap_def, List.flatMap_singleton']; exact nodup_firsts _)
    (by
      intro e he
      obtain ⟨s, hs, rfl⟩ := List.mem_map.1 he
      rw [← List.flatMap_def, List.flatMap_singleton', mem_firsts]
      exact List.mem_map.2 ⟨s, hs, rfl⟩)
  refine List.Perm.trans (List.Perm.of_eq ?_) this
  unfold namedDict
  rw [List.flatMap_map, List.flatMap_map]
  apply flatMap_congr_mem
  intro c _
  rw [List.filter_map, List.map_map]
  have hf : (spec.filter ((fun e : κ × ℓ × φ => [c].contains e.1) ∘ fun s => (s.2.1, (pair s.2.1 s.2.2, s.2.2)))) =
      spec.filter fun s => decide (s.2.1 = c) := by
    apply List.filter_congr
    intro s _
    simp
  rw [hf]
  apply List.map_congr_left
  intro s hs
  have : s.2.1 = c := by simpa using (List.mem_filter.1 hs).2
  simp [this]

/-- the cells of the column labelled `c` -/
def cellsOf [DecidableEq κ] (N : List (κ × List α)) (c : κ) : List α := ((N.filter fun p => decide (p.1 = c)).head?.map (·.2)).getD []

theorem filter_cellsOf [DecidableEq κ] {N : List (κ × List α)} (hn : (N.map (·.1)).Nodup) {c : κ} (hc : c ∈ N.map (·.1)) :
    (N.filter fun p => decide (p.1 = c)) = [(c, cellsOf N c)] := by
  obtain ⟨p, hp, rfl⟩ := List.mem_map.1 hc
  have := unique_of_nodup hn hp
  unfold cellsOf
  rw [this]
  rfl

theorem dictPicks_cellsOf [DecidableEq κ] {N : List (κ × List α)} (hn : (N.map (·.1)).Nodup) {d : List (κ × List (ℓ × φ))}
    (hd : ∀ e ∈ d, e.1 ∈ N.map (·.1)) :
    dictPicks d N = (d.flatMap fun e => e.2.map fun f => (e.1, f)).map fun y => (y.2, cellsOf N y.1) := by
  unfold dictPicks
  rw [List.map_flatMap]
  apply flatMap_congr_mem
  intro e he
  rw [filter_cellsOf hn (hd e he), List.flatMap_cons, List.flatMap_nil, List.append_nil, List.map_map]
  rfl

/-- the dictionary's entries by block columns -/
theorem bands_perm [DecidableEq κ] {cw : List Nat} {columns : List κ} (h : columns.length = cw.sum) (hn : columns.Nodup)
    {d : List (κ × List (ℓ × φ))} (hd : ∀ e ∈ d, e.1 ∈ columns) :
    ((List.range cw.length).flatMap fun j => d.filter fun e => (pySlice columns (off cw j) (off cw (j + 1))).contains e.1).Perm d := by
  have := divide_perm (ss := (List.range cw.length).map fun j => pySlice columns (off cw j) (off cw (j + 1))) (d := d)
    (by rw [slices_flatten h]; exact hn) (by rw [slices_flatten h]; exact hd)
  rwa [List.flatMap_map] at this

theorem bands_ordered [DecidableEq κ] {cw : List Nat} {columns : List κ} (h : columns.length = cw.sum) (hn : columns.Nodup)
    {d : List (κ × List (ℓ × φ))} (hd : (d.map (·.1)).Sublist columns) :
    ((List.range cw.length).flatMap fun j => d.filter fun e => (pySlice columns (off cw j) (off cw (j + 1))).contains e.1) = d := by
  have := divide_ordered (ss := (List.range cw.length).map fun j => pySlice columns (off cw j) (off cw (j + 1))) (d := d)
    (by rw [slices_flatten h]; exact hn) (by rw [slices_flatten h]; exact hd)
  rwa [List.flatMap_map] at this

theorem bands_one [DecidableEq κ] {cw : List Nat} {columns : List κ} (h : columns.length = cw.sum) (h1 : cw.length = 1)
    {d : List (κ × List (ℓ × φ))} (hd : ∀ e ∈ d, e.1 ∈ columns) :
    ((List.range cw.length).flatMap fun j => d.filter fun e => (pySlice columns (off cw j) (off cw (j + 1))).contains e.1) = d := by
  have hs := slices_flatten h
  rw [h1] at hs ⊢
  simp only [List.range_succ, List.range_zero, List.nil_append, List.map_cons, List.map_nil, List.flatten_cons, List.flatten_nil,
    List.append_nil, List.flatMap_cons, List.flatMap_nil] at hs ⊢
  rw [hs, List.filter_eq_self]
  intro e he
  simpa using hd e he

/-- **With the keys taken from the frame.** -/
theorem groupbyAggDict_spec [DecidableEq ι] [DecidableEq κ] [DecidableEq α] [DecidableEq ℓ] (cfg : Cfg) (hp : 1 ≤ cfg.nPartitions)
    (hr : 1 ≤ cfg.minRow) (hmc : 1 ≤ cfg.minCol) (known : Nat → Nat → Bool × Bool) (G : Bool → Grouping (List α)) (hG : (G true).Ordered)
    {m : MFrame ι κ α} {df : Frame ι κ α} (hm : m.Represents df) (hrows : ∀ rl, m.rowLens = some rl → 0 ∉ rl) (na : α) (asked : Bool)
    (hu : df.columns.Nodup) (hne : df.index ≠ []) {labels : List κ} (hl : ∀ k ∈ labels, k ∈ df.columns) (hln : labels.Nodup)
    (impl : φ → TreeOp α β γ) (h : φ → List α → γ) {d : List (κ × List (ℓ × φ))} (hd : d ≠ [])
    (hin : ∀ e ∈ d, e.1 ∈ df.columns) (hn : ((d.flatMap (·.2)).map (·.1)).Nodup)
    (hlaw : ∀ f ∈ d.flatMap (·.2), ∀ bs : List (List α), bs ≠ [] → (∀ b ∈ bs, b ≠ []) →
      (impl f.2).reduce (bs.map (impl f.2).map) = h f.2 bs.flatten) :
    ∃ (cw : List Nat) (m' : MFrame (List α) ℓ γ), cw.sum = df.ncols ∧ groupbyAggDict cfg known G impl na asked labels d m = some m' ∧
      m'.Represents (df.aggDict (G true) (df.takeCols (labels.flatMap (positionsOf df.columns))).rows h
        ((List.range cw.length).flatMap fun j => d.filter fun e => (pySlice df.columns (off cw j) (off cw (j + 1))).contains e.1)) ∧
      (m.parts.map List.length).headD 0 = cw.length := by
  obtain ⟨k, k1, k2, k3⟩ := takeLabels_spec cfg hp hr hmc known hm hrows hl hln
  obtain ⟨cw, m', c1, c2, c3, c4⟩ := groupbyDict_spec cfg hp hr (G true) hG hm k2 rfl k3 na true hu hne impl h hd hin hn hlaw
  refine ⟨cw, m', c1, ?_, c3, c4⟩
  unfold groupbyAggDict
  rw [k1, Option.bind_some]
  exact c2

/-- **Named arguments.** -/
theorem groupbyAggNamed_spec [DecidableEq ι] [DecidableEq κ] [DecidableEq α] [DecidableEq ℓ] (cfg : Cfg) (hp : 1 ≤ cfg.nPartitions)
    (hr : 1 ≤ cfg.minRow) (hmc : 1 ≤ cfg.minCol) (known : Nat → Nat → Bool × Bool) (G : Bool → Grouping (List α)) (hG : (G true).Ordered)
    {m : MFrame ι κ α} {df : Frame ι κ α} (hm : m.Represents df) (hrows : ∀ rl, m.rowLens = some rl → 0 ∉ rl) (na : α) (asked : Bool)
    (hu : df.columns.Nodup) (hne : df.index ≠ []) {labels : List κ} (hl : ∀ k ∈ labels, k ∈ df.columns) (hln : labels.Nodup)
    (impl : φ → TreeOp α β γ) (h : φ → List α → γ) (nan : γ) (pair : κ → φ → ℓ) {spec : List (ℓ × κ × φ)} (hs : spec ≠ [])
    (hin : ∀ s ∈ spec, s.2.1 ∈ df.columns) (hn : (spec.map fun s => pair s.2.1 s.2.2).Nodup)
    (hlaw : ∀ f, ∀ bs : List (List α), bs ≠ [] → (∀ b ∈ bs, b ≠ []) → (impl f).reduce (bs.map (impl f).map) = h f bs.flatten) :
    ∃ r, groupbyAggNamed cfg known G impl na asked labels pair spec m = some r ∧
      r.Shows (df.aggNamed (G true) (df.takeCols (labels.flatMap (positionsOf df.columns))).rows h spec) := by
  have hperm := namedDict_perm pair spec
  have hfl : (namedDict pair spec).flatMap (·.2) = ((namedDict pair spec).flatMap fun e => e.2.map fun f => (e.1, f)).map (·.2) := by
    rw [List.map_flatMap]
    apply flatMap_congr_mem
    intro e _
    rw [List.map_map]
    exact (List.map_id' _).symm
  have hdin : ∀ e ∈ namedDict pair spec, e.1 ∈ df.columns := by
    intro e he
    obtain ⟨c, hc, rfl⟩ := List.mem_map.1 he
    obtain ⟨s, hs', rfl⟩ := List.mem_map.1 (mem_firsts.1 hc)
    exact hin s hs'
  have hdne : namedDict pair spec ≠ [] := by
    intro h0
    rw [h0] at hperm
    exact hs (List.map_eq_nil_iff.1 hperm.symm.eq_nil)
  have hdn : (((namedDict pair spec).flatMap (·.2)).map (·.1)).Nodup := by
    rw [hfl, List.map_map]
    refine ((hperm.map _).nodup_iff).2 ?_
    rw [List.map_map]
    exact hn
  obtain ⟨cw, r, c1, c2, c3, -⟩ := groupbyAggDict_spec cfg hp hr hmc known G hG hm hrows na asked hu hne hl hln impl h hdne hdin hdn
    (fun f _ => hlaw f.2)
  generalize hkeys : (df.takeCols (labels.flatMap (positionsOf df.columns))).rows = keys at c3 ⊢
  have hbp := bands_perm (cw := cw) c1.symm hu hdin
  generalize hd' : ((List.range cw.length).flatMap fun j =>
    (namedDict pair spec).filter fun e => (pySlice df.columns (off cw j) (off cw (j + 1))).contains e.1) = d' at c3 hbp
  have hN : (df.named.map (·.1)).Nodup := by rw [named_labels]; exact hu
  let g := fun x : (ℓ × φ) × List α => (x.1.1, ((G true).groups keys).map fun k => h x.1.2 (cellsAt k keys x.2))
  let L := spec.map fun s => (pair s.2.1 s.2.2, ((G true).groups keys).map fun k => h s.2.2 (cellsAt k keys (cellsOf df.named s.2.1)))
  have hsz : ∀ X : List ((ℓ × φ) × List α), Sized ((G true).groups keys).length (X.map g) := by
    intro X c hc
    obtain ⟨x, _, rfl⟩ := List.mem_map.1 hc
    simp [g]
  generalize hR : df.aggDict (G true) keys h d' = R at c3
  have hRn : R.named = (dictPicks d' df.named).map g := by
    rw [← hR]
    exact named_ofCols (hsz _)
  have hRp : R.named.Perm L := by
    rw [hRn]
    have h1 : (dictPicks d' df.named).Perm (dictPicks (namedDict pair spec) df.named) := hbp.flatMap_right _
    rw [dictPicks_cellsOf (d := namedDict pair spec) hN (by intro e he; rw [named_labels]; exact hdin e he)] at h1
    have h2 := (h1.trans (hperm.map _)).map g
    refine h2.trans (List.Perm.of_eq ?_)
    rw [List.map_map, List.map_map]
    rfl
  have hRN : (R.named.map (·.1)).Nodup := by
    refine ((hRp.map _).nodup_iff).2 ?_
    simp only [L, List.map_map]
    exact hn
  have hRc : ∀ k ∈ spec.map (fun s => pair s.2.1 s.2.2), k ∈ R.columns := by
    intro k hk
    rw [← named_labels]
    rw [(hRp.map (·.1)).mem_iff]
    simp only [L, List.map_map]
    exact hk
  obtain ⟨t, t1, t2⟩ := ownKeys_spec cfg hp hr hmc known nan c3 hRc hn
  have hTn := keyFrame_named c3.wf (spec.map fun s => pair s.2.1 s.2.2)
  have hTL : ((spec.map fun s => pair s.2.1 s.2.2).flatMap fun c => R.named.filter fun p => decide (p.1 = c)) = L := by
    rw [List.flatMap_map]
    have : ∀ s ∈ spec, (R.named.filter fun p => decide (p.1 = pair s.2.1 s.2.2)) =
        [(pair s.2.1 s.2.2, ((G true).groups keys).map fun k => h s.2.2 (cellsAt k keys (cellsOf df.named s.2.1)))] := by
      intro s hs'
      exact unique_of_nodup hRN (hRp.mem_iff.2 (List.mem_map.2 ⟨s, hs', rfl⟩))
    rw [flatMap_congr_mem this]
    exact (List.map_eq_flatMap ..).symm
  rw [hTL] at hTn
  have hT : R.takeCols ((spec.map fun s => pair s.2.1 s.2.2).flatMap (positionsOf R.columns)) = Frame.ofCols ((G true).groups keys) L := by
    rw [← ofCols_named t2.wf, hTn, ← hR]
    rfl
  rw [hT] at t2
  have hset : (Frame.ofCols ((G true).groups keys) L).setColumns (spec.map (·.1)) = some (df.aggNamed (G true) keys h spec) := by
    unfold Frame.setColumns
    rw [if_pos (by simp [Frame.ofCols, L])]
    congr 1
    unfold Frame.aggNamed Frame.aggDict
    rw [dictPicks_cellsOf hN (by
      intro e he
      obtain ⟨s, hs', rfl⟩ := List.mem_map.1 he
      rw [named_labels]
      exact hin s hs')]
    unfold Frame.ofCols
    simp only [List.map_flatMap, List.flatMap_map, List.map_map, List.map_cons, List.map_nil, Function.comp_def, Frame.mk.injEq, true_and, L,
      List.filterMap_map]
    refine ⟨List.map_eq_flatMap .., ?_⟩
    apply List.map_congr_left
    intro i _
    rw [← List.map_eq_flatMap, List.filterMap_map]
    rfl
  obtain ⟨q, q1, q2⟩ := setColumns_shows (represents_shows t2) _ hset
  refine ⟨q, ?_, q2⟩
  unfold groupbyAggNamed
  rw [c2, Option.bind_some, t1, Option.bind_some]
  exact q1
