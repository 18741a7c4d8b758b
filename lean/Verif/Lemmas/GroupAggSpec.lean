import Verif.Lemmas.GroupAgg

variable {ι ι' κ ℓ α β κ' : Type}

/-! ### sizes -/

/-- the functions a specification mentions -/
def GroupSpec.Mentions {φ : Type} (f : φ) : GroupSpec κ ℓ φ → Prop
  | .each fns => ∃ c l, (l, f) ∈ fns c
  | .dict d => ∃ e ∈ d, ∃ l, (l, f) ∈ e.2

/-- every function makes `n` cells of `N` -/
def GroupSpec.Fits (spec : GroupSpec κ ℓ (GroupFn α)) (keys : List (List α)) (N n : Nat) : Prop :=
  ∀ f, spec.Mentions f → ∀ cells : List α, cells.length = N → (f keys cells).length = n

theorem GroupSpec.Fits.inBlock [DecidableEq κ] {spec : GroupSpec κ ℓ (GroupFn α)} {keys : List (List α)} {N n : Nat}
    (h : spec.Fits keys N n) (columns : List κ) : (spec.inBlock columns).Fits keys N n := by
  cases spec with
  | each fns => exact h
  | dict d =>
    intro f hf
    obtain ⟨e, he, l, hl⟩ := hf
    exact h f ⟨e, (List.mem_filter.1 he).1, l, hl⟩

theorem cols_sized [DecidableEq κ] {spec : GroupSpec κ ℓ (GroupFn α)} {keys : List (List α)} {N n : Nat} (h : spec.Fits keys N n)
    (by' : List κ) {cs : List (κ × List α)} (hs : Sized N cs) : Sized n (spec.cols by' keys cs) := by
  intro x hx
  cases spec with
  | each fns =>
    simp only [GroupSpec.cols] at hx
    obtain ⟨p, hp, hx⟩ := List.mem_flatMap.1 hx
    obtain ⟨f, hf, rfl⟩ := List.mem_map.1 hx
    exact h f.2 ⟨p.1, f.1, hf⟩ p.2 (hs p (List.mem_filter.1 hp).1)
  | dict d =>
    simp only [GroupSpec.cols] at hx
    obtain ⟨e, he, hx⟩ := List.mem_flatMap.1 hx
    obtain ⟨p, hp, hx⟩ := List.mem_flatMap.1 hx
    obtain ⟨f, hf, rfl⟩ := List.mem_map.1 hx
    exact h f.2 ⟨e, he, f.1, hf⟩ p.2 (hs p (List.mem_filter.1 hp).1)

theorem mentions_map {φ ψ : Type} (t : φ → ψ) {spec : GroupSpec κ ℓ φ} {f : ψ} (h : (spec.map t).Mentions f) : ∃ g, f = t g := by
  cases spec with
  | each fns =>
    obtain ⟨c, l, hl⟩ := h
    obtain ⟨x, _, hx⟩ := List.mem_map.1 hl
    exact ⟨x.2, (congrArg Prod.snd hx).symm⟩
  | dict d =>
    obtain ⟨e, he, l, hl⟩ := h
    obtain ⟨e', _, rfl⟩ := List.mem_map.1 he
    obtain ⟨x, _, hx⟩ := List.mem_map.1 hl
    exact ⟨x.2, (congrArg Prod.snd hx).symm⟩

theorem fits_perGroup [DecidableEq α] (G : Grouping (List α)) (spec : GroupSpec κ ℓ (List α → α)) (keys : List (List α)) (N : Nat) :
    (spec.map (perGroup G)).Fits keys N (G.groups keys).length := by
  intro f hf cells _
  obtain ⟨g, rfl⟩ := mentions_map _ hf
  simp [perGroup]

theorem fits_perRow [DecidableEq α] (G : Grouping (List α)) (nan : α) (spec : GroupSpec κ ℓ (List α → List α)) (keys : List (List α)) (N : Nat) :
    (spec.map (perRow G nan)).Fits keys N keys.length := by
  intro f hf cells _
  obtain ⟨g, rfl⟩ := mentions_map _ hf
  simp [perRow]

/-! ### the keys' sizes -/

theorem groupKeys_length [DecidableEq κ] {by' : List κ} {df : Frame ι κ α} {keys : List (List α)} (h : df.groupKeys by' = some keys) :
    keys.length = df.index.length := by
  unfold Frame.groupKeys at h
  cases hm : by'.mapM fun c => keyColumn c df.named with
  | none => rw [hm] at h; cases h
  | some cols =>
    rw [hm] at h
    cases h
    simp [Frame.nrows]

theorem filterMap_total_length {A B : Type} {g : A → Option B} : ∀ {l : List A}, (∀ x ∈ l, (g x).isSome) → (l.filterMap g).length = l.length := by
  intro l
  induction l with
  | nil => intro _; rfl
  | cons a l ih =>
    intro h
    obtain ⟨y, hy⟩ := Option.isSome_iff_exists.1 (h a (by simp))
    rw [List.filterMap_cons_some hy, List.length_cons, List.length_cons, ih fun x hx => h x (by simp [hx])]

theorem keyCols_sized [DecidableEq κ] {cs : List (κ × List α)} {n : Nat} (hs : Sized n cs) : ∀ {by' : List κ} {cols : List (List α)},
    (by'.mapM fun c => keyColumn c cs) = some cols → cols.length = by'.length ∧ ∀ c ∈ cols, c.length = n := by
  intro by'
  induction by' with
  | nil => intro cols h; cases h; simp
  | cons b bs ih =>
    intro cols h
    rw [List.mapM_cons] at h
    cases hb : keyColumn b cs with
    | none => rw [hb] at h; cases h
    | some x =>
      rw [hb] at h
      cases hbs : bs.mapM fun c => keyColumn c cs with
      | none => rw [hbs] at h; cases h
      | some xs =>
        rw [hbs] at h
        cases h
        obtain ⟨h1, h2⟩ := ih hbs
        refine ⟨by simp [h1], ?_⟩
        intro c hc
        rcases List.mem_cons.1 hc with rfl | hc
        · have := keyColumn_some.1 hb
          have hm : (b, c) ∈ cs.filter fun p => decide (p.1 = b) := by rw [this]; simp
          exact hs _ (List.mem_filter.1 hm).1
        · exact h2 c hc

theorem groupKeys_width [DecidableEq κ] {by' : List κ} {df : Frame ι κ α} (hwf : df.WF) {keys : List (List α)}
    (h : df.groupKeys by' = some keys) : ∀ k ∈ keys, k.length = by'.length := by
  unfold Frame.groupKeys at h
  cases hm : by'.mapM fun c => keyColumn c df.named with
  | none => rw [hm] at h; cases h
  | some cols =>
    rw [hm] at h
    cases h
    obtain ⟨h1, h2⟩ := keyCols_sized (Frame.named_sized hwf) hm
    intro k hk
    obtain ⟨i, hi, rfl⟩ := List.mem_map.1 hk
    rw [← h1]
    refine filterMap_total_length ?_
    intro c hc
    have := List.mem_range.1 hi
    unfold Frame.nrows at this
    simp [h2 c hc, this]

/-! ### the key columns in front -/

/-- the key columns that are not aggregated themselves, from the groups -/
def keyCols [DecidableEq κ] (key : κ → ℓ) (by' taken : List κ) (groups : List (List α)) : List (ℓ × List α) :=
  (by'.zipIdx.filter fun e => !taken.contains e.1).map fun e => (key e.1, groups.filterMap (·[e.2]?))

theorem mem_zipIdx_lt {A : Type} {l : List A} {e : A × Nat} (h : e ∈ l.zipIdx) : e.2 < l.length := by
  have := List.mem_zipIdx' h
  exact this.1

theorem keyCols_sized' [DecidableEq κ] (key : κ → ℓ) (by' taken : List κ) {groups : List (List α)} (hg : ∀ k ∈ groups, k.length = by'.length) :
    Sized groups.length (keyCols key by' taken groups) := by
  intro c hc
  obtain ⟨e, he, rfl⟩ := List.mem_map.1 hc
  have hlt := mem_zipIdx_lt (List.mem_filter.1 he).1
  refine filterMap_total_length ?_
  intro k hk
  simp [hg k hk, hlt]

theorem zipIdx_filterMap {A B : Type} {l : List A} {k : List B} (h : k.length = l.length) :
    (l.zipIdx.filterMap fun e => k[e.2]?) = k := by
  have h1 : (l.zipIdx.filterMap fun e => k[e.2]?) = (l.zipIdx.map (·.2)).filterMap fun i => k[i]? := by
    rw [List.filterMap_map]; rfl
  rw [h1, List.zipIdx_map_snd, ← h, ← List.range_eq_range']
  apply List.ext_getElem?
  intro i
  rw [getElem?_filterMap_total]
  · by_cases hi : i < k.length
    · rw [List.getElem?_range hi]; rfl
    · rw [List.getElem?_eq_none (by simpa using hi), List.getElem?_eq_none (by omega)]; rfl
  · intro x hx
    simpa using List.mem_range.1 hx

theorem withKeys_ofCols [DecidableEq κ] (key : κ → ℓ) (by' taken : List κ) {groups : List (List α)}
    (hg : ∀ k ∈ groups, k.length = by'.length) (cs : List (ℓ × List α)) :
    (Frame.ofCols groups cs).withKeys key by' taken = Frame.ofCols (List.range groups.length) (keyCols key by' taken groups ++ cs) := by
  unfold Frame.withKeys Frame.ofCols
  simp only
  congr 1
  · rw [List.map_append]
    congr 1
    unfold keyCols
    rw [List.map_map]
    show _ = (by'.zipIdx.filter fun e => !taken.contains e.1).map (key ∘ Prod.fst)
    have h := List.filter_map (f := Prod.fst) (p := fun c => !taken.contains c) (l := by'.zipIdx)
    rw [List.zipIdx_map_fst] at h
    rw [h, List.map_map]
    rfl
  · rw [List.length_range]
    apply List.ext_getElem?
    intro i
    rw [List.getElem?_zipWith, List.getElem?_map, List.getElem?_map]
    by_cases hi : i < groups.length
    · rw [List.getElem?_range hi, List.getElem?_eq_getElem hi, Option.map_some, Option.map_some]
      simp only
      rw [List.filterMap_append]
      congr 2
      have hk := hg groups[i] (List.getElem_mem hi)
      have h1 := zip_filterMap_keep (fun c => taken.contains c) (fun e : κ × Nat => e.1) (g := fun e => groups[i][e.2]?)
        (l := by'.zipIdx) (by
          intro e he
          have := mem_zipIdx_lt he
          simp [hk, this])
      rw [zipIdx_filterMap hk, List.zipIdx_map_fst] at h1
      rw [h1]
      unfold keyCols
      rw [List.filterMap_map]
      apply filterMap_congr_mem
      intro e he
      have hlt := mem_zipIdx_lt (List.mem_filter.1 he).1
      simp only [Function.comp]
      rw [getElem?_filterMap_total (by intro k hk'; simp [hg k hk', hlt]), List.getElem?_eq_getElem hi]
      rfl
    · rw [List.getElem?_eq_none (by omega : groups.length ≤ i), List.getElem?_eq_none (by simpa using hi)]
      rfl

/-! ### one block -/

theorem withoutCols_none {f : Frame ι κ α} (hwf : f.WF) {p : κ → Bool} (h : ∀ c ∈ f.columns, p c = false) : f.withoutCols p = f := by
  rw [← ofCols_named hwf, ofCols_withoutCols (Frame.named_sized hwf)]
  congr 1
  rw [List.filter_eq_self]
  intro c hc
  rw [h c.1 (by rw [← named_labels]; exact List.mem_map.2 ⟨c, hc, rfl⟩)]
  rfl

/-- the labels of the new columns are not those of the key columns -/
def GroupSpec.Apart {φ : Type} (key : κ → ℓ) (by' columns : List κ) : GroupSpec κ ℓ φ → Prop
  | .each fns => ∀ c ∈ columns, c ∉ by' → ∀ f ∈ fns c, ∀ k ∈ by', f.1 ≠ key k
  | .dict _ => True

theorem each_labels [DecidableEq κ] {key : κ → ℓ} {by' columns : List κ} {fns : κ → List (ℓ × GroupFn α)}
    (h : (GroupSpec.each fns).Apart key by' columns) {cs : List (κ × List α)} (hcs : ∀ c ∈ cs, c.1 ∈ columns) (keys : List (List α)) :
    ∀ k ∈ by', key k ∉ ((GroupSpec.each fns).cols by' keys cs).map (·.1) := by
  intro k hk hm
  obtain ⟨x, hx, hxk⟩ := List.mem_map.1 hm
  simp only [GroupSpec.cols] at hx
  obtain ⟨p, hp, hx⟩ := List.mem_flatMap.1 hx
  obtain ⟨f, hf, rfl⟩ := List.mem_map.1 hx
  have hp' := List.mem_filter.1 hp
  exact h p.1 (hcs p hp'.1) (by simpa using hp'.2) f hf k hk hxk

theorem misaggregated_nil [DecidableEq κ] [DecidableEq ℓ] {key : κ → ℓ} {by' columns : List κ} {spec : GroupSpec κ ℓ (GroupFn α)}
    (h : spec.Apart key by' columns) {cs : List (κ × List α)} (hcs : ∀ c ∈ cs, c.1 ∈ columns) (keys : List (List α)) (bc : List κ) :
    spec.misaggregated key by' bc (((spec.inBlock bc).cols by' keys cs).map (·.1)) = [] := by
  cases spec with
  | dict d => rfl
  | each fns =>
    simp only [GroupSpec.misaggregated, GroupSpec.inBlock]
    rw [List.filter_eq_nil_iff]
    intro l hl
    obtain ⟨k, hk, rfl⟩ := List.mem_map.1 hl
    simpa using each_labels h hcs keys k (List.mem_filter.1 hk).1

theorem taken_eq [DecidableEq κ] [DecidableEq ℓ] {key : κ → ℓ} {by' columns : List κ} {spec : GroupSpec κ ℓ (GroupFn α)}
    (h : spec.Apart key by' columns) {cs : List (κ × List α)} (hcs : ∀ c ∈ cs, c.1 ∈ columns) (keys : List (List α)) (bc : List κ) :
    spec.taken key by' (((spec.inBlock bc).cols by' keys cs).map (·.1)) = spec.selected := by
  cases spec with
  | dict d => rfl
  | each fns =>
    simp only [GroupSpec.taken, GroupSpec.inBlock, GroupSpec.selected]
    rw [List.filter_eq_nil_iff]
    intro k hk
    simpa using each_labels h hcs keys k hk

theorem colBand_sub {cw : List Nat} {df : Frame ι κ α} {j : Nat} {c : κ} (h : c ∈ (colBand cw df j).columns) : c ∈ df.columns :=
  ((List.take_sublist _ _).trans (List.drop_sublist _ _)).subset h

theorem colBand_sized {df : Frame ι κ α} (hwf : df.WF) (cw : List Nat) (j : Nat) : Sized df.index.length (colBand cw df j).named :=
  Frame.named_sized (colBand_wf hwf cw j)

/-- the block with the key columns it lacks, grouped -/
theorem block_calc [DecidableEq ι] [DecidableEq κ] (labels : List (List α) → List ι → List ι') {by' : List κ} (hn : by'.Nodup)
    (spec : GroupSpec κ ℓ (GroupFn α)) {df : Frame ι κ α} (hwf : df.WF) {keys : List (List α)} (hk : df.groupKeys by' = some keys)
    (cw : List Nat) (j : Nat) :
    ∃ J, addMissed (df.takeCols (by'.flatMap (positionsOf df.columns))) (colBand cw df j) = some J ∧
      J.groupCalc labels by' (spec.inBlock (colBand cw df j).columns) = some (Frame.ofCols (labels keys df.index)
        ((spec.inBlock (colBand cw df j).columns).cols by' keys (colBand cw df j).named)) := by
  obtain ⟨J, h1, h2, h3⟩ := addMissed_spec (takeCols_wf' hwf (by'.flatMap (positionsOf df.columns))) (colBand_wf hwf cw j) rfl
  have hj : J.index = df.index := h2
  refine ⟨J, h1, ?_⟩
  unfold Frame.groupCalc
  rw [joined_keys hwf hn hk cw j hj h3, Option.map_some, hj, h3, joined_cols]
  intro p hp
  have hp' := List.mem_filter.1 hp
  constructor
  · rw [← keyFrame_columns hwf hk, ← named_labels]
    exact List.mem_map.2 ⟨p, hp'.1, rfl⟩
  · simpa using hp'.2

theorem groupBlock_spec [DecidableEq ι] [DecidableEq κ] [DecidableEq ℓ] (labels : List (List α) → List ι → List ι') (key : κ → ℓ)
    {by' : List κ} (hn : by'.Nodup) {spec : GroupSpec κ ℓ (GroupFn α)} {df : Frame ι κ α} (hwf : df.WF) {keys : List (List α)}
    (hk : df.groupKeys by' = some keys) (hf : spec.Fits keys df.index.length (labels keys df.index).length)
    (ha : spec.Apart key by' df.columns) (cw : List Nat) (j : Nat) :
    groupBlock labels key by' spec (df.takeCols (by'.flatMap (positionsOf df.columns))) (colBand cw df j) =
      some (Frame.ofCols (labels keys df.index) ((spec.inBlock (colBand cw df j).columns).cols by' keys (colBand cw df j).named)) := by
  obtain ⟨J, h1, h2⟩ := block_calc labels hn spec hwf hk cw j
  unfold groupBlock
  rw [h1, Option.bind_some, h2, Option.map_some]
  congr 1
  refine withoutCols_none (ofCols_wf (cols_sized (hf.inBlock _) by' (colBand_sized hwf cw j))) ?_
  intro c _
  rw [keyFrame_columns hwf hk]
  simp only [Frame.ofCols]
  rw [misaggregated_nil ha]
  · rfl
  · intro c hc
    exact colBand_sub (by rw [← named_labels]; exact List.mem_map.2 ⟨c, hc, rfl⟩)

theorem groupBlockFlat_spec [DecidableEq ι] [DecidableEq κ] [DecidableEq ℓ] [DecidableEq α] (G : Grouping (List α)) (key : κ → ℓ)
    {by' : List κ} (hn : by'.Nodup) {spec : GroupSpec κ ℓ (GroupFn α)} {df : Frame ι κ α} (hwf : df.WF) {keys : List (List α)}
    (hk : df.groupKeys by' = some keys) (hf : spec.Fits keys df.index.length (G.groups keys).length)
    (ha : spec.Apart key by' df.columns) (cw : List Nat) (j i : Nat) :
    groupBlockFlat G key by' spec (df.takeCols (by'.flatMap (positionsOf df.columns))) i (colBand cw df j) =
      some (Frame.ofCols (List.range (G.groups keys).length) ((if i = 0 then keyCols key by' spec.selected (G.groups keys) else []) ++
        (spec.inBlock (colBand cw df j).columns).cols by' keys (colBand cw df j).named)) := by
  obtain ⟨J, h1, h2⟩ := block_calc (fun keys _ => G.groups keys) hn spec hwf hk cw j
  have hg : ∀ k ∈ G.groups keys, k.length = by'.length := fun k h => groupKeys_width hwf hk k (G.mem_groups.1 h).1
  have hsub : ∀ c ∈ (colBand cw df j).named, c.1 ∈ df.columns := by
    intro c hc
    exact colBand_sub (by rw [← named_labels]; exact List.mem_map.2 ⟨c, hc, rfl⟩)
  unfold groupBlockFlat
  rw [h1, Option.bind_some, h2, Option.map_some]
  congr 1
  have hs : Sized (G.groups keys).length ((spec.inBlock (colBand cw df j).columns).cols by' keys (colBand cw df j).named) :=
    cols_sized (hf.inBlock _) by' (colBand_sized hwf cw j)
  have he : handleAsIndex key by' spec i (Frame.ofCols (G.groups keys)
      ((spec.inBlock (colBand cw df j).columns).cols by' keys (colBand cw df j).named)) =
      Frame.ofCols (List.range (G.groups keys).length) ((if i = 0 then keyCols key by' spec.selected (G.groups keys) else []) ++
        (spec.inBlock (colBand cw df j).columns).cols by' keys (colBand cw df j).named) := by
    unfold handleAsIndex
    split
    · have := taken_eq ha hsub keys (colBand cw df j).columns
      simp only [Frame.ofCols] at this ⊢
      rw [this]
      exact withKeys_ofCols key by' spec.selected hg _
    · simp only [Frame.ofCols, List.nil_append, List.length_range]
  rw [he]
  refine withoutCols_none (ofCols_wf ?_) ?_
  · rw [List.length_range]
    intro c hc
    rcases List.mem_append.1 hc with hc | hc
    · split at hc
      · exact keyCols_sized' key by' _ hg c hc
      · simp at hc
    · exact hs c hc
  · intro c _
    rw [keyFrame_columns hwf hk]
    simp only [Frame.ofCols]
    rw [misaggregated_nil ha hsub]
    rfl

/-! ### the whole frame -/

theorem groupbyAgg_blocks [DecidableEq ι] [DecidableEq κ] (cfg : Cfg) (hp : 1 ≤ cfg.nPartitions) (hmr : 1 ≤ cfg.minRow)
    (hmc : 1 ≤ cfg.minCol) (known : Nat → Nat → Bool × Bool) (nan : α) (dflt : Frame ι κ α → Option (Frame ι' ℓ α))
    (block : Frame ι κ α → Nat → Frame ι κ α → Option (Frame ι' ℓ α)) {by' : List κ} (hb : by' ≠ []) (hn : by'.Nodup) (isList : Bool)
    (spec : GroupSpec κ ℓ (GroupFn α)) {m : LFrame ι κ α} {df : Frame ι κ α} (h : m.Shows df) (hr : 0 < df.nrows) {keys : List (List α)}
    (hk : df.groupKeys by' = some keys)
    (hl : ∀ l, spec.applyLabels isList by' df.columns = some l → l ≠ [] ∧ ∀ c ∈ l, c ∈ df.columns)
    (J : List ι') (cs : List Nat → Nat → Nat → List (ℓ × List α))
    (hbl : ∀ cw j i, block (df.takeCols (by'.flatMap (positionsOf df.columns))) i (colBand cw df j) = some (Frame.ofCols J (cs cw j i)) ∧
      Sized J.length (cs cw j i)) :
    ∃ cw idx m', cw.sum = df.ncols ∧ idx ≠ [] ∧ (idx = (List.range cw.length).filter fun j => idx.contains j) ∧
      (∀ j, j < cw.length → j ∉ idx → ∀ l, spec.applyLabels isList by' df.columns = some l → ∀ c ∈ (colBand cw df j).columns, c ∉ l) ∧
      (spec.applyLabels isList by' df.columns = none → idx = List.range cw.length) ∧
      m.groupbyAgg cfg known nan dflt block by' isList spec = some m' ∧
      m'.Shows (Frame.ofCols J (idx.zipIdx.flatMap fun e => cs cw e.1 e.2)) := by
  have hmem := groupKeys_mem hk
  have hcne : df.columns ≠ [] := by
    obtain ⟨b, bs, rfl⟩ := List.exists_cons_of_ne_nil hb
    exact List.ne_nil_of_mem (hmem b (by simp))
  obtain ⟨k, e1, e2⟩ := takeColLabels_shows cfg hp hmr hmc known h hmem hn
  obtain ⟨m1, e3, e4⟩ := synced_spec h
  obtain ⟨k1, e5, e6⟩ := synced_spec e2
  have e7 := combined_spec e6 (by rw [keyFrame_columns h.wf hk]; exact hb)
  obtain ⟨rl, cw, hcut, hparts, hrl, hcw⟩ := e4.blocks
  obtain ⟨idx, i1, i2, i3, i4, i5, i6⟩ := applied_spec hcut hparts hcw
    (by rcases e4.columns with hc | hc
        · exact e4.getColumns
        · exact e4.getColumns) (spec.applyLabels isList by' df.columns) hl
  have hz : ∀ e ∈ idx.zipIdx, e.1 < cw.length := by
    intro e he
    have := List.mem_zipIdx' he
    exact i4 _ (by rw [this.2]; exact List.getElem_mem _)
  obtain ⟨lens, l1, l2, l3⟩ := applyColBands_cut cfg hmr h.wf hcut (block (df.takeCols (by'.flatMap (positionsOf df.columns)))) J
    (fun j i => Frame.ofCols J (cs cw j i)) i2 (fun e he => ⟨hz e he, (hbl cw e.1 e.2).1, ofCols_wf (hbl cw e.1 e.2).2, rfl⟩)
  have hst := stackCols_ofCols J (fun e : Nat × Nat => cs cw e.1 e.2) idx.zipIdx
  have hwf : (Frame.stackCols J (idx.zipIdx.map fun e => Frame.ofCols J (cs cw e.1 e.2))).WF := by
    rw [hst]
    refine ofCols_wf ?_
    intro c hc
    obtain ⟨e, _, he⟩ := List.mem_flatMap.1 hc
    exact (hbl cw e.1 e.2).2 c he
  obtain ⟨x, x1, x2⟩ := mk'_blocks (m := MFrame.mk ((Frame.stackCols J (idx.zipIdx.map fun e => Frame.ofCols J (cs cw e.1 e.2))).cut lens
      ((idx.zipIdx.map fun e => Frame.ofCols J (cs cw e.1 e.2)).map (·.ncols))) none none none none) hwf
    (stackCols_isCut J lens l1 l2 _ (by simpa using i2)) rfl (Or.inl rfl) (Or.inl rfl) (Or.inl rfl) (Or.inl rfl)
  refine ⟨cw, idx, { x with defIndex := false, defColumns := false }, hcut.cw_sum, i2, ascending_eq i3 i4, i5, i6, ?_, ?_⟩
  · unfold LFrame.groupbyAgg
    rw [if_neg, e1, Option.bind_some, e3, Option.bind_some, e5, Option.bind_some, e7, Option.bind_some, h.getColumns, i1,
      Option.bind_some, hparts, l3, Option.bind_some, x1, Option.map_some]
    rw [h.getColumns, h.getIndex]
    unfold Frame.nrows at hr
    have := List.length_pos_iff.2 hcne
    omega
  · rw [← hst]
    exact represents_shows x2

/-! ### the order of a dictionary's columns -/

theorem divide_ordered [DecidableEq κ] {φ : Type} : ∀ {ss : List (List κ)} {d : List (κ × φ)}, ss.flatten.Nodup →
    (d.map (·.1)).Sublist ss.flatten → (ss.flatMap fun s => d.filter fun e => s.contains e.1) = d := by
  intro ss
  induction ss with
  | nil =>
    intro d _ h
    have := List.eq_nil_of_sublist_nil h
    rw [List.map_eq_nil_iff.1 this]
    rfl
  | cons s ss ih =>
    intro d hn h
    rw [List.flatten_cons] at hn h
    obtain ⟨a, b, hab, ha, hb⟩ := List.sublist_append_iff.1 h
    obtain ⟨d1, d2, rfl, h1, h2⟩ := List.map_eq_append_iff.1 hab
    obtain ⟨n1, n2, n3⟩ := List.nodup_append.1 hn
    have m1 : ∀ e ∈ d1, e.1 ∈ s := fun e he => ha.subset (by rw [← h1]; exact List.mem_map.2 ⟨e, he, rfl⟩)
    have m2 : ∀ e ∈ d2, e.1 ∈ ss.flatten := fun e he => hb.subset (by rw [← h2]; exact List.mem_map.2 ⟨e, he, rfl⟩)
    rw [List.flatMap_cons, List.filter_append]
    have f1 : (d1.filter fun e => s.contains e.1) = d1 := by
      rw [List.filter_eq_self]
      intro e he
      simpa using m1 e he
    have f2 : (d2.filter fun e => s.contains e.1) = [] := by
      rw [List.filter_eq_nil_iff]
      intro e he hc
      exact n3 e.1 (by simpa using hc) e.1 (m2 e he) rfl
    rw [f1, f2, List.append_nil]
    congr 1
    have f3 : (ss.flatMap fun s => (d1 ++ d2).filter fun e => s.contains e.1) = ss.flatMap fun s => d2.filter fun e => s.contains e.1 := by
      apply flatMap_congr_mem
      intro t ht
      have : (d1.filter fun e => t.contains e.1) = [] := by
        rw [List.filter_eq_nil_iff]
        intro e he hc
        exact n3 e.1 (m1 e he) e.1 (List.mem_flatten.2 ⟨t, ht, by simpa using hc⟩) rfl
      rw [List.filter_append, this, List.nil_append]
    rw [f3]
    exact ih n2 (by rw [h2]; exact hb)

theorem divide_perm [DecidableEq κ] {φ : Type} : ∀ {ss : List (List κ)} {d : List (κ × φ)}, ss.flatten.Nodup →
    (∀ e ∈ d, e.1 ∈ ss.flatten) → (ss.flatMap fun s => d.filter fun e => s.contains e.1).Perm d := by
  intro ss
  induction ss with
  | nil =>
    intro d _ h
    cases d with
    | nil => exact List.Perm.refl _
    | cons e d => exact absurd (h e (by simp)) (by simp)
  | cons s ss ih =>
    intro d hn h
    rw [List.flatten_cons] at hn
    obtain ⟨n1, n2, n3⟩ := List.nodup_append.1 hn
    rw [List.flatMap_cons]
    have f3 : (ss.flatMap fun s => d.filter fun e => s.contains e.1) =
        ss.flatMap fun t => (d.filter fun e => !s.contains e.1).filter fun e => t.contains e.1 := by
      apply flatMap_congr_mem
      intro t ht
      rw [List.filter_filter]
      apply List.filter_congr
      intro e he
      cases hc : t.contains e.1 with
      | false => simp
      | true =>
        have : e.1 ∉ s := fun hs => n3 e.1 hs e.1 (List.mem_flatten.2 ⟨t, ht, by simpa using hc⟩) rfl
        simp [this]
    rw [f3]
    refine List.Perm.trans (List.Perm.append_left _ (ih n2 ?_)) (List.filter_append_perm _ _)
    intro e he
    have he' := List.mem_filter.1 he
    have := h e he'.1
    rw [List.flatten_cons, List.mem_append] at this
    rcases this with hs | hs
    · simp [hs] at he'
    · exact hs

theorem slices_flatten {A : Type} {cw : List Nat} {l : List A} (h : l.length = cw.sum) :
    ((List.range cw.length).map fun j => pySlice l (off cw j) (off cw (j + 1))).flatten = l := by
  have := covers_lens cw l h
  rw [sliceBounds_eq, List.map_map] at this
  exact this

theorem divided_ordered [DecidableEq κ] {φ : Type} {cw : List Nat} {columns : List κ} (h : columns.length = cw.sum) (hn : columns.Nodup)
    {d : List (κ × List (ℓ × φ))} (hd : (d.map (·.1)).Sublist columns) : (GroupSpec.dict d).divided cw columns = .dict d := by
  simp only [GroupSpec.divided]
  have := divide_ordered (ss := (List.range cw.length).map fun j => pySlice columns (off cw j) (off cw (j + 1))) (d := d)
    (by rw [slices_flatten h]; exact hn) (by rw [slices_flatten h]; exact hd)
  rw [List.flatMap_map] at this
  rw [this]

theorem divided_perm [DecidableEq κ] {cw : List Nat} {columns : List κ} (h : columns.length = cw.sum) (hn : columns.Nodup)
    {d : List (κ × List (ℓ × GroupFn α))} (hd : ∀ e ∈ d, e.1 ∈ columns) (by' : List κ) (keys : List (List α)) (cs : List (κ × List α)) :
    (((GroupSpec.dict d).divided cw columns).cols by' keys cs).Perm ((GroupSpec.dict d).cols by' keys cs) := by
  simp only [GroupSpec.divided, GroupSpec.cols]
  have := divide_perm (ss := (List.range cw.length).map fun j => pySlice columns (off cw j) (off cw (j + 1))) (d := d)
    (by rw [slices_flatten h]; exact hn) (by rw [slices_flatten h]; exact hd)
  rw [List.flatMap_map] at this
  exact this.flatMap_right _

/-! ### blocks that are left out, and key columns -/

theorem flatMap_zipIdx {A B : Type} (F : A → List B) : ∀ (l : List A) (n : Nat), ((l.zipIdx n).flatMap fun e => F e.1) = l.flatMap F := by
  intro l
  induction l with
  | nil => intro n; rfl
  | cons a l ih => intro n; rw [List.zipIdx_cons, List.flatMap_cons, List.flatMap_cons, ih]

theorem flatMap_first {A B : Type} (K : List B) (F : A → List B) {l : List A} (hl : l ≠ []) :
    (l.zipIdx.flatMap fun e => (if e.2 = 0 then K else []) ++ F e.1) = K ++ l.flatMap F := by
  cases l with
  | nil => exact absurd rfl hl
  | cons a l =>
    rw [List.zipIdx_cons, List.flatMap_cons, List.flatMap_cons, if_pos rfl, List.append_assoc]
    congr 2
    rw [← flatMap_zipIdx F l (0 + 1)]
    apply flatMap_congr_mem
    intro e he
    have := (List.mem_zipIdx he).1
    rw [if_neg (by omega), List.nil_append]

/-- what is not applied to would give no columns -/
theorem left_out [DecidableEq κ] {spec : GroupSpec κ ℓ (GroupFn α)} {isList : Bool} {by' : List κ} {df : Frame ι κ α}
    {cw : List Nat} {j : Nat} (keys : List (List α))
    (h0 : spec.applyLabels isList by' df.columns ≠ none)
    (h : ∀ l, spec.applyLabels isList by' df.columns = some l → ∀ c ∈ (colBand cw df j).columns, c ∉ l) :
    (spec.inBlock (colBand cw df j).columns).cols by' keys (colBand cw df j).named = [] := by
  cases spec with
  | each fns =>
    cases isList with
    | false => exact absurd rfl h0
    | true =>
      have h1 := h _ rfl
      simp only [GroupSpec.inBlock, GroupSpec.cols]
      have : ((colBand cw df j).named.filter fun p => !by'.contains p.1) = [] := by
        rw [List.filter_eq_nil_iff]
        intro p hp
        have hc : p.1 ∈ (colBand cw df j).columns := by rw [← named_labels]; exact List.mem_map.2 ⟨p, hp, rfl⟩
        have := h1 _ hc
        rw [indexDifference_mem] at this
        have hd := colBand_sub hc
        simp only [Bool.not_eq_true', Bool.not_eq_false, List.contains_eq_mem, decide_eq_true_eq]
        by_cases hb : p.1 ∈ by'
        · simp [hb]
        · exact absurd ⟨hd, hb⟩ this
      rw [this]
      rfl
  | dict d =>
    have h1 := h _ rfl
    simp only [GroupSpec.inBlock, GroupSpec.cols]
    have : (d.filter fun e => (colBand cw df j).columns.contains e.1) = [] := by
      rw [List.filter_eq_nil_iff]
      intro e he hc
      exact h1 e.1 (by simpa using hc) (List.mem_map.2 ⟨e, he, rfl⟩)
    rw [this]
    rfl

theorem applied_cols [DecidableEq κ] {spec : GroupSpec κ ℓ (GroupFn α)} {isList : Bool} {by' : List κ} {df : Frame ι κ α} (hwf : df.WF)
    {cw idx : List Nat} (hs : cw.sum = df.ncols) (hi : idx = (List.range cw.length).filter fun j => idx.contains j)
    (hno : spec.applyLabels isList by' df.columns = none → idx = List.range cw.length)
    (h : ∀ j, j < cw.length → j ∉ idx → ∀ l, spec.applyLabels isList by' df.columns = some l → ∀ c ∈ (colBand cw df j).columns, c ∉ l)
    (hn : spec.selected ≠ [] → df.columns.Nodup) (keys : List (List α)) :
    (idx.flatMap fun j => (spec.inBlock (colBand cw df j).columns).cols by' keys (colBand cw df j).named) =
      (spec.divided cw df.columns).cols by' keys df.named := by
  rw [← blocks_cols spec by' keys hwf hs hn]
  by_cases h0 : spec.applyLabels isList by' df.columns = none
  · rw [hno h0]
  · rw [hi]
    refine flatMap_filter_empty _ ?_
    intro j hj hnj
    refine left_out keys h0 ?_
    exact h j (List.mem_range.1 hj) (by simpa using hnj)

/-! ### all together -/

theorem selected_map {φ ψ : Type} (t : φ → ψ) (spec : GroupSpec κ ℓ φ) : (spec.map t).selected = spec.selected := by
  cases spec with
  | each fns => rfl
  | dict d => simp [GroupSpec.map, GroupSpec.selected, Function.comp_def]

theorem apart_map {φ ψ : Type} (t : φ → ψ) {spec : GroupSpec κ ℓ φ} {key : κ → ℓ} {by' columns : List κ} (h : spec.Apart key by' columns) :
    (spec.map t).Apart key by' columns := by
  cases spec with
  | dict d => trivial
  | each fns =>
    intro c hc hn f hf k hk
    obtain ⟨g, hg, rfl⟩ := List.mem_map.1 hf
    exact h c hc hn g hg k hk

theorem groupCalc_some [DecidableEq κ] {labels : List (List α) → List ι → List ι'} {by' : List κ} {spec : GroupSpec κ ℓ (GroupFn α)}
    {df : Frame ι κ α} {r : Frame ι' ℓ α} (h : df.groupCalc labels by' spec = some r) :
    ∃ keys, df.groupKeys by' = some keys ∧ r = Frame.ofCols (labels keys df.index) (spec.cols by' keys df.named) := by
  unfold Frame.groupCalc at h
  cases hk : df.groupKeys by' with
  | none => rw [hk] at h; cases h
  | some keys => rw [hk] at h; cases h; exact ⟨keys, rfl, rfl⟩

theorem groupAgg_shows [DecidableEq ι] [DecidableEq κ] [DecidableEq ℓ] (cfg : Cfg) (hp : 1 ≤ cfg.nPartitions) (hmr : 1 ≤ cfg.minRow)
    (hmc : 1 ≤ cfg.minCol) (known : Nat → Nat → Bool × Bool) (nan : α) (dflt : Frame ι κ α → Option (Frame ι' ℓ α))
    (labels : List (List α) → List ι → List ι') (key : κ → ℓ) {by' : List κ} (hb : by' ≠ []) (hn : by'.Nodup) (isList : Bool)
    (spec : GroupSpec κ ℓ (GroupFn α)) {m : LFrame ι κ α} {df : Frame ι κ α} (h : m.Shows df) (hr : 0 < df.nrows) {keys : List (List α)}
    (hk : df.groupKeys by' = some keys)
    (hl : ∀ l, spec.applyLabels isList by' df.columns = some l → l ≠ [] ∧ ∀ c ∈ l, c ∈ df.columns)
    (hf : spec.Fits keys df.index.length (labels keys df.index).length) (ha : spec.Apart key by' df.columns)
    (hu : spec.selected ≠ [] → df.columns.Nodup) :
    ∃ cw m', df.columns.length = cw.sum ∧
      m.groupbyAgg cfg known nan dflt (fun keyFrame _ b => groupBlock labels key by' spec keyFrame b) by' isList spec = some m' ∧
      m'.Shows (Frame.ofCols (labels keys df.index) ((spec.divided cw df.columns).cols by' keys df.named)) := by
  obtain ⟨cw, idx, m', h1, h2, h3, h4, h5, h6, h7⟩ := groupbyAgg_blocks cfg hp hmr hmc known nan dflt
    (fun keyFrame _ b => groupBlock labels key by' spec keyFrame b) hb hn isList spec h hr hk hl (labels keys df.index)
    (fun cw j _ => (spec.inBlock (colBand cw df j).columns).cols by' keys (colBand cw df j).named)
    (fun cw j i => ⟨groupBlock_spec labels key hn h.wf hk hf ha cw j, cols_sized (hf.inBlock _) by' (colBand_sized h.wf cw j)⟩)
  refine ⟨cw, m', h1.symm, h6, ?_⟩
  rw [flatMap_zipIdx (fun j => (spec.inBlock (colBand cw df j).columns).cols by' keys (colBand cw df j).named),
    applied_cols h.wf h1 h3 h5 h4 hu] at h7
  exact h7

theorem groupAggFlat_shows [DecidableEq ι] [DecidableEq κ] [DecidableEq ℓ] [DecidableEq α] (cfg : Cfg) (hp : 1 ≤ cfg.nPartitions)
    (hmr : 1 ≤ cfg.minRow) (hmc : 1 ≤ cfg.minCol) (known : Nat → Nat → Bool × Bool) (nan : α)
    (dflt : Frame ι κ α → Option (Frame Nat ℓ α)) (G : Grouping (List α)) (key : κ → ℓ) {by' : List κ} (hb : by' ≠ []) (hn : by'.Nodup)
    (isList : Bool) (spec : GroupSpec κ ℓ (GroupFn α)) {m : LFrame ι κ α} {df : Frame ι κ α} (h : m.Shows df) (hr : 0 < df.nrows)
    {keys : List (List α)} (hk : df.groupKeys by' = some keys)
    (hl : ∀ l, spec.applyLabels isList by' df.columns = some l → l ≠ [] ∧ ∀ c ∈ l, c ∈ df.columns)
    (hf : spec.Fits keys df.index.length (G.groups keys).length) (ha : spec.Apart key by' df.columns)
    (hu : spec.selected ≠ [] → df.columns.Nodup) :
    ∃ cw m', df.columns.length = cw.sum ∧
      m.groupbyAgg cfg known nan dflt (groupBlockFlat G key by' spec) by' isList spec = some m' ∧
      m'.Shows ((Frame.ofCols (G.groups keys) ((spec.divided cw df.columns).cols by' keys df.named)).withKeys key by' spec.selected) := by
  have hg : ∀ k ∈ G.groups keys, k.length = by'.length := fun k h' => groupKeys_width h.wf hk k (G.mem_groups.1 h').1
  obtain ⟨cw, idx, m', h1, h2, h3, h4, h5, h6, h7⟩ := groupbyAgg_blocks cfg hp hmr hmc known nan dflt
    (groupBlockFlat G key by' spec) hb hn isList spec h hr hk hl (List.range (G.groups keys).length)
    (fun cw j i => (if i = 0 then keyCols key by' spec.selected (G.groups keys) else []) ++
      (spec.inBlock (colBand cw df j).columns).cols by' keys (colBand cw df j).named)
    (fun cw j i => ⟨groupBlockFlat_spec G key hn h.wf hk hf ha cw j i, by
      rw [List.length_range]
      intro c hc
      rcases List.mem_append.1 hc with hc | hc
      · split at hc
        · exact keyCols_sized' key by' _ hg c hc
        · simp at hc
      · exact cols_sized (hf.inBlock _) by' (colBand_sized h.wf cw j) c hc⟩)
  refine ⟨cw, m', h1.symm, h6, ?_⟩
  rw [flatMap_first _ (fun j => (spec.inBlock (colBand cw df j).columns).cols by' keys (colBand cw df j).named) h2,
    applied_cols h.wf h1 h3 h5 h4 hu] at h7
  rw [withKeys_ofCols key by' _ hg]
  exact h7
