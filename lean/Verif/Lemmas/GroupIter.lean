import Verif.Lemmas.ValueCounts
import Verif.Lemmas.GroupApply
import Verif.Props.Select
import Verif.Model.GroupIter

variable {ι κ α K : Type}

theorem positionsOf_cons [DecidableEq K] (x : K) (keys : List K) (k : K) :
    positionsOf (x :: keys) k = (if x = k then [0] else []) ++ (positionsOf keys k).map (· + 1) := by
  unfold positionsOf
  rw [List.length_cons, List.range_succ_eq_map, List.filter_cons, List.filter_map]
  have : (List.filter ((fun p => (x :: keys)[p]? == some k) ∘ Nat.succ) (List.range keys.length)) =
      List.filter (fun p => keys[p]? == some k) (List.range keys.length) := by
    apply List.filter_congr
    intro p _
    simp [Function.comp]
  rw [this]
  by_cases h : x = k
  · simp [h]
  · simp [h]

/-- the cells of the rows with a key are the cells at its positions -/
theorem picked_cellsAt {τ : Type} [DecidableEq K] (k : K) (keys : List K) (c : List τ) :
    (positionsOf keys k).filterMap (c[·]?) = cellsAt k keys c := by
  induction keys generalizing c with
  | nil => simp [positionsOf, cellsAt]
  | cons x keys ih =>
    rw [positionsOf_cons, List.filterMap_append, List.filterMap_map]
    cases c with
    | nil =>
      have e : ∀ (l : List Nat) (f : Nat → Nat), l.filterMap ((fun p => ([] : List τ)[p]?) ∘ f) = [] := by
        intro l f
        simp [List.filterMap_eq_nil_iff]
      rw [e]
      split <;> simp [cellsAt]
    | cons v c =>
      have e : (fun p => (v :: c)[p]?) ∘ (fun p => p + 1) = fun p => c[p]? := by
        funext p; simp [Function.comp]
      rw [e, ih]
      unfold cellsAt
      rw [List.zip_cons_cons, List.filter_cons]
      by_cases h : x = k
      · simp [h]
      · simp [h]

theorem takeRows_positionsOf [DecidableEq K] (keys : List K) (f : Frame ι κ α) (k : K) : f.takeRows (positionsOf keys k) = f.groupOf keys k := by
  unfold Frame.takeRows Frame.groupOf takeList
  rw [picked_cellsAt, picked_cellsAt]

theorem groups_nodup [DecidableEq K] (G : Grouping K) (keys : List K) : (G.groups keys).Nodup := by
  unfold Grouping.groups
  split
  · exact (sortBy_perm _ _).nodup_iff.2 (firsts_nodup' _)
  · exact firsts_nodup' _

theorem positionsOf_nodup' [DecidableEq K] (keys : List K) (k : K) : (positionsOf keys k).Nodup :=
  List.nodup_range.filter _

theorem groupIndices_ids [DecidableEq K] (le : K → K → Bool) (dropped : K → Bool) (keys : List K) :
    (groupIndices le dropped keys).map (·.1) = (Grouping.mk le true dropped).groups keys := by
  unfold groupIndices
  rw [List.map_map]
  simp [Function.comp_def]

theorem groupIndices_find [DecidableEq K] (le : K → K → Bool) (dropped : K → Bool) (keys : List K) {k : K}
    (h : k ∈ (Grouping.mk le true dropped).groups keys) :
    ((groupIndices le dropped keys).find? fun e => decide (e.1 = k)) = some (k, positionsOf keys k) := by
  unfold groupIndices
  generalize (Grouping.mk le true dropped).groups keys = l at h
  rw [List.find?_map]
  have : l.find? ((fun e : K × List Nat => decide (e.1 = k)) ∘ fun k => (k, (List.range keys.length).filter fun p => keys[p]? == some k)) =
      some k := by
    rw [List.find?_eq_some_iff_getElem]
    obtain ⟨i, hi, e⟩ := List.getElem_of_mem h
    have hf : (l.findIdx? (· == k)).isSome := by
      rw [List.findIdx?_isSome, List.any_eq_true]
      exact ⟨k, h, by simp⟩
    obtain ⟨j, hj⟩ := Option.isSome_iff_exists.1 hf
    rw [List.findIdx?_eq_some_iff_getElem] at hj
    obtain ⟨h1, h2, h3⟩ := hj
    refine ⟨by simp, j, h1, by simpa using h2, ?_⟩
    intro q hq
    have := h3 q hq
    simpa using this
  rw [this]
  rfl

theorem sortBy_groups [DecidableEq K] {G : Grouping K} (hG : G.Ordered) (hs : G.sort = true) (keys : List K) :
    sortBy G.le (G.groups keys) = G.groups keys := by
  refine sortBy_of_pairwise _ ?_
  unfold Grouping.groups
  rw [if_pos hs]
  exact sortBy_pairwise hG.trans hG.total _

/-- the group frames taken by position -/
theorem groupIter_keys [DecidableEq ι] [DecidableEq κ] [DecidableEq α] (cfg : Cfg) (hp : 1 ≤ cfg.nPartitions) (hmr : 1 ≤ cfg.minRow)
    (hmc : 1 ≤ cfg.minCol) (known : Nat → Nat → Bool × Bool) (nan : α) {le : List α → List α → Bool} {dropped : List α → Bool}
    (hG : (Grouping.mk le true dropped).Ordered) (sort : Bool) {m : MFrame ι κ α} {df : Frame ι κ α} (h : m.Represents df)
    {src : GroupSource ι κ α} {keys : List (List α)} (hk : src.keys cfg known nan m = some keys) (hlen : keys.length = df.nrows) :
    ∃ l, groupIter cfg known nan le dropped sort src m = some l ∧ l.map (·.1) = (Grouping.mk le true dropped).groups keys ∧
      ∀ e ∈ l, e.2.Represents (df.groupOf keys e.1) := by
  have hs := sortBy_groups hG rfl keys
  simp only at hs
  have hone : ∀ k ∈ (Grouping.mk le true dropped).groups keys, ∃ g, take2d cfg known m (some (.array (positionsOf keys k))) none = some g ∧
      g.Represents (df.groupOf keys k) := by
    intro k _
    obtain ⟨g, g1, g2, _⟩ := C08_take_partial cfg hp hmr hmc m df h known (some (.array (positionsOf keys k))) none
      (by
        rintro p e x hx
        cases e
        rw [← hlen]
        exact (List.getElem?_eq_some_iff.1 (mem_positionsOf.1 hx)).1)
      (by intro p e; cases e) (by intro a b e; rcases e with e | e <;> cases e)
      (Or.inr (by
        rintro p (e | e)
        · cases e; exact positionsOf_nodup' keys k
        · cases e)) nan
    refine ⟨g, g1, ?_⟩
    have e : (df.takeRows (reqList df.nrows (some (.array (positionsOf keys k))))).takeCols (reqList df.ncols none) = df.groupOf keys k := by
      rw [show reqList df.nrows (some (.array (positionsOf keys k))) = positionsOf keys k from rfl,
        show reqList df.ncols none = List.range df.ncols from rfl]
      rw [← takeRows_positionsOf keys df k]
      exact Frame.takeCols_all (h.wf.takeRows _)
    rw [e] at g2
    exact g2
  unfold groupIter
  rw [hk, Option.bind_some]
  simp only [groupIndices_ids]
  rw [hs, ite_self]
  generalize hg : (Grouping.mk le true dropped).groups keys = gs at hone
  have hfind : ∀ k ∈ gs, ((groupIndices le dropped keys).find? fun e => decide (e.1 = k)) = some (k, positionsOf keys k) := by
    intro k hk
    exact groupIndices_find le dropped keys (hg ▸ hk)
  clear hg hs hk
  induction gs with
  | nil => exact ⟨[], rfl, rfl, by simp⟩
  | cons k gs ih =>
    obtain ⟨l, l1, l2, l3⟩ := ih (fun k hk => hone k (List.mem_cons_of_mem _ hk)) (fun k hk => hfind k (List.mem_cons_of_mem _ hk))
    obtain ⟨g, g1, g2⟩ := hone k (by simp)
    refine ⟨(k, g) :: l, ?_, by rw [List.map_cons, l2], ?_⟩
    · rw [List.mapM_cons, l1, hfind k (by simp), Option.bind_some, g1]
      rfl
    · intro e he
      rcases List.mem_cons.1 he with rfl | he
      · exact g2
      · exact l3 e he

theorem ownKeys_spec [DecidableEq ι] [DecidableEq κ] (cfg : Cfg) (hp : 1 ≤ cfg.nPartitions) (hmr : 1 ≤ cfg.minRow)
    (hmc : 1 ≤ cfg.minCol) (known : Nat → Nat → Bool × Bool) (nan : α) {m : MFrame ι κ α} {df : Frame ι κ α} (h : m.Represents df)
    {labels : List κ} (hl : ∀ k ∈ labels, k ∈ df.columns) (hn : labels.Nodup) :
    ∃ m', takeLabels cfg known labels m = some m' ∧ m'.Represents (df.takeCols (labels.flatMap (positionsOf df.columns))) := by
  unfold takeLabels
  rw [h.getColumns, getIndexerFor_present _ _ hl, mapM_id_some, Option.bind_some]
  obtain ⟨g, g1, g2, _⟩ := C08_take_partial cfg hp hmr hmc m df h known none (some (.array (labels.flatMap (positionsOf df.columns))))
    (by intro p e; cases e)
    (by
      rintro p e x hx
      cases e
      obtain ⟨k, _, hx⟩ := List.mem_flatMap.1 hx
      exact (List.getElem?_eq_some_iff.1 (mem_positionsOf.1 hx)).1)
    (by intro a b e; rcases e with e | e <;> cases e)
    (Or.inr (by
      rintro p (e | e)
      · cases e
      · cases e; exact flatMap_positionsOf_nodup _ hn)) nan
  refine ⟨g, g1, ?_⟩
  rw [show reqList df.nrows none = List.range df.nrows from rfl, Frame.takeRows_all h.wf] at g2
  exact g2

theorem ownKeys_rows [DecidableEq ι] [DecidableEq κ] (cfg : Cfg) (hp : 1 ≤ cfg.nPartitions) (hmr : 1 ≤ cfg.minRow)
    (hmc : 1 ≤ cfg.minCol) (known : Nat → Nat → Bool × Bool) (nan : α) {m : MFrame ι κ α} {df : Frame ι κ α} (h : m.Represents df)
    {labels : List κ} (hl : ∀ k ∈ labels, k ∈ df.columns) (hn : labels.Nodup) :
    (GroupSource.own labels).keys cfg known nan m = some (df.takeCols (labels.flatMap (positionsOf df.columns))).rows ∧
    (df.takeCols (labels.flatMap (positionsOf df.columns))).rows.length = df.nrows := by
  obtain ⟨b, b1, b2⟩ := ownKeys_spec cfg hp hmr hmc known nan h hl hn
  refine ⟨?_, b2.wf.rows_len⟩
  simp only [GroupSource.keys]
  rw [b1, Option.bind_some, b2.toPandas nan]
  rfl

theorem oneKeys_rows [DecidableEq ι] [DecidableEq κ] (cfg : Cfg) (known : Nat → Nat → Bool × Bool) (nan : α) (m : MFrame ι κ α)
    {b : MFrame ι κ α} {df bdf : Frame ι κ α} (hb : b.Represents bdf) (hidx : bdf.index = df.index) (h1 : df.nrows ≠ 1) :
    (GroupSource.one b).keys cfg known nan m = some bdf.rows ∧ bdf.rows.length = df.nrows := by
  have hn : bdf.nrows = df.nrows := by unfold Frame.nrows; rw [hidx]
  refine ⟨?_, by rw [hb.wf.rows_len]; exact hn⟩
  simp only [GroupSource.keys]
  rw [hb.toPandas nan, Option.bind_some, if_neg (by omega)]

theorem groupIter_pairs [DecidableEq ι] [DecidableEq κ] [DecidableEq α] (cfg : Cfg) (hp : 1 ≤ cfg.nPartitions) (hmr : 1 ≤ cfg.minRow)
    (hmc : 1 ≤ cfg.minCol) (known : Nat → Nat → Bool × Bool) (nan : α) {G : Grouping (List α)} (hG : G.Ordered) (hs : G.sort = true)
    (sort : Bool) {m : MFrame ι κ α} {df : Frame ι κ α} (h : m.Represents df)
    {src : GroupSource ι κ α} {keys : List (List α)} (hk : src.keys cfg known nan m = some keys) (hlen : keys.length = df.nrows) :
    ∃ l, groupIter cfg known nan G.le G.dropped sort src m = some l ∧ l.map (·.1) = (df.groupPairs G keys).map (·.1) ∧
      l.map (·.2.toPandas nan) = (df.groupPairs G keys).map (some ·.2) := by
  obtain ⟨le, s, dropped⟩ := G
  simp only at hs
  subst hs
  obtain ⟨l, l1, l2, l3⟩ := groupIter_keys cfg hp hmr hmc known nan hG sort h hk hlen
  refine ⟨l, l1, ?_, ?_⟩
  · rw [l2]; unfold Frame.groupPairs; rw [List.map_map]; exact (List.map_id' _).symm
  · unfold Frame.groupPairs
    rw [List.map_map, ← l2, List.map_map]
    exact List.map_congr_left fun e he => (l3 e he).toPandas nan

theorem groupLabelsOf_spec [DecidableEq ι] [DecidableEq κ] [DecidableEq α] (cfg : Cfg) (known : Nat → Nat → Bool × Bool) (nan : α)
    (G : Grouping (List α)) {m : MFrame ι κ α} {df : Frame ι κ α} (h : m.Represents df)
    {src : GroupSource ι κ α} {keys : List (List α)} (hk : src.keys cfg known nan m = some keys) :
    (∃ l, groupLabelsOf cfg known nan G.le G.dropped src m = some l ∧ l.Perm (df.groupLabels G keys)) ∧
    groupCountOf cfg known nan G.le G.dropped src m = some (G.groups keys).length := by
  have hperm : ((Grouping.mk G.le true G.dropped).groups keys).Perm (G.groups keys) := by
    rw [List.perm_ext_iff_of_nodup (groups_nodup _ _) (groups_nodup _ _)]
    intro k
    rw [Grouping.mem_groups, Grouping.mem_groups]
  unfold groupLabelsOf groupCountOf
  rw [hk]
  refine ⟨⟨_, rfl, ?_⟩, ?_⟩
  · unfold groupIndices Frame.groupLabels
    dsimp only
    rw [List.map_map, h.getIndex]
    refine List.Perm.trans (List.Perm.of_eq ?_) (hperm.map _)
    refine List.map_congr_left fun k _ => ?_
    simp only [Function.comp]
    rw [← picked_cellsAt k keys df.index]
    rfl
  · simp only [Option.map_some]
    unfold groupIndices
    rw [List.length_map, hperm.length_eq]
