import Verif.Model.PivotTable
import Verif.Lemmas.Unstack
import Verif.Lemmas.RowBands
import Verif.Lemmas.Portion
import Verif.Lemmas.GroupAggSpec

variable {ι κ α β γ δ K ι' κ' A : Type}

/-! ### values of a level -/

/-- `le` is a total order -/
structure TotalOrder (le : A → A → Bool) : Prop where
  trans : ∀ a b c, le a b → le b c → le a c
  total : ∀ a b, le a b ∨ le b a
  antisymm : ∀ a b, le a b → le b a → a = b

theorem mem_levelValues [DecidableEq A] {le : A → A → Bool} {l : List A} {a : A} : a ∈ levelValues le l ↔ a ∈ l := by
  unfold levelValues
  rw [(sortBy_perm le _).mem_iff, mem_firsts]

theorem levelValues_nodup [DecidableEq A] (le : A → A → Bool) (l : List A) : (levelValues le l).Nodup := sortBy_nodup (nodup_firsts l)

theorem levelValues_sorted [DecidableEq A] {le : A → A → Bool} (hle : TotalOrder le) (l : List A) : (levelValues le l).Pairwise (le · ·) :=
  sortBy_pairwise hle.trans hle.total _

/-- two sorted lists without repetitions and with the same members -/
theorem sorted_unique [DecidableEq A] {le : A → A → Bool} (hle : TotalOrder le) {l l' : List A} (h1 : l.Nodup) (h2 : l'.Nodup)
    (s1 : l.Pairwise (le · ·)) (s2 : l'.Pairwise (le · ·)) (hm : ∀ a, a ∈ l ↔ a ∈ l') : l = l' :=
  List.Perm.eq_of_pairwise (fun a b _ _ h1 h2 => hle.antisymm a b h1 h2) s1 s2 ((List.perm_ext_iff_of_nodup h1 h2).2 hm)

theorem levelValues_congr [DecidableEq A] {le : A → A → Bool} (hle : TotalOrder le) {l l' : List A} (hm : ∀ a, a ∈ l ↔ a ∈ l') :
    levelValues le l = levelValues le l' :=
  sorted_unique hle (levelValues_nodup _ _) (levelValues_nodup _ _) (levelValues_sorted hle _) (levelValues_sorted hle _)
    (fun a => by rw [mem_levelValues, mem_levelValues, hm])

theorem levelValues_filter [DecidableEq A] {le : A → A → Bool} (hle : TotalOrder le) {l l' : List A} (hm : ∀ a ∈ l', a ∈ l) :
    (levelValues le l).filter (fun a => decide (a ∈ l')) = levelValues le l' :=
  sorted_unique hle ((levelValues_nodup _ _).sublist List.filter_sublist) (levelValues_nodup _ _)
    ((levelValues_sorted hle _).sublist List.filter_sublist) (levelValues_sorted hle _) (fun a => by
      rw [List.mem_filter, mem_levelValues, mem_levelValues, decide_eq_true_eq]
      exact ⟨fun h => h.2, fun h => ⟨hm a h, h⟩⟩)

/-! ### the table from the groups -/

/-- the table `_pivot_table_from_groupby` makes when the groups are `idx` -/
def modinTable [DecidableEq α] (le : α → α → Bool) (h : List α → Option δ) (lab : κ → α → κ') (dropna : Bool) (fill : Option δ)
    (keys : List (α × α)) (vs : List (κ × List α)) (idx : List (α × α)) : Frame α κ' (Option δ) :=
  let rows := levelValues le (idx.map (·.1))
  let table := vs.flatMap fun v => (levelValues le (idx.map (·.2))).map fun b =>
    (lab v.1 b, rows.map fun a => if (a, b) ∈ idx then h (cellsAt (a, b) keys v.2) else none)
  Frame.ofCols rows ((if dropna then table.filter fun c => c.2.any (·.isSome) else table).map fun c => (c.1, c.2.map fun x => x.or fill))

theorem or_none_map (l : List (Option δ)) : (l.map fun x => x.or none) = l := by
  conv => rhs; rw [← List.map_id l]
  apply List.map_congr_left
  intro x _
  cases x <;> rfl

theorem modinTable_eq [DecidableEq α] {le : α → α → Bool} (hle : TotalOrder le) (isna : α → Bool) (h : List α → Option δ) (lab : κ → α → κ')
    (dropna : Bool) (fill : Option δ) (ci cc : List α) (vs : List (κ × List α)) {idx : List (α × α)}
    (hidx : ∀ k, k ∈ idx ↔ k ∈ ci.zip cc ∧ ¬(isna k.1 ∨ isna k.2))
    (hna : dropna = false → ∀ k ∈ ci.zip cc, ¬(isna k.1 ∨ isna k.2))
    (hrow : dropna = true → ∀ k ∈ idx, ∃ b v, (k.1, b) ∈ idx ∧ v ∈ vs ∧ (h (cellsAt (k.1, b) (ci.zip cc) v.2)).isSome)
    (hfill : dropna = true → fill.isSome → vs.length ≤ 1) :
    modinTable le h lab dropna fill (ci.zip cc) vs idx = pivotCells le isna h lab dropna fill ci cc vs := by
  unfold modinTable pivotCells
  dsimp only
  cases dropna with
  | false =>
    have hmem : ∀ k, k ∈ ((firsts (ci.zip cc)).filter fun k => !(false && (isna k.1 || isna k.2))).filter
        (fun k => !false || vs.any fun v => (h (cellsAt k (ci.zip cc) v.2)).isSome) ↔ k ∈ idx := by
      intro k
      rw [hidx]
      simp only [List.mem_filter, Bool.false_and, Bool.not_false, Bool.true_or, and_true, mem_firsts]
      exact ⟨fun hk => ⟨hk, hna rfl k hk⟩, fun hk => hk.1⟩
    generalize hK : ((firsts (ci.zip cc)).filter fun k => !(false && (isna k.1 || isna k.2))).filter
        (fun k => !false || vs.any fun v => (h (cellsAt k (ci.zip cc) v.2)).isSome) = kept at hmem ⊢
    have hr : levelValues le (idx.map (·.1)) = levelValues le (kept.map (·.1)) := levelValues_congr hle (fun a => by
      simp only [List.mem_map, hmem])
    have hc : levelValues le (idx.map (·.2)) = levelValues le (kept.map (·.2)) := levelValues_congr hle (fun a => by
      simp only [List.mem_map, hmem])
    simp only [Bool.false_eq_true, ↓reduceIte, hr, hc, List.map_flatMap, List.map_map]
    congr 1
    apply flatMap_congr_mem
    intro v _
    apply List.map_congr_left
    intro b _
    simp only [Function.comp_apply, Prod.mk.injEq, true_and, List.map_map]
    apply List.map_congr_left
    intro a _
    simp only [Function.comp_apply, hmem]
  | true =>
    have hmem : ∀ k, k ∈ ((firsts (ci.zip cc)).filter fun k => !(true && (isna k.1 || isna k.2))).filter
        (fun k => !true || vs.any fun v => (h (cellsAt k (ci.zip cc) v.2)).isSome) ↔
        k ∈ idx ∧ ∃ v ∈ vs, (h (cellsAt k (ci.zip cc) v.2)).isSome := by
      intro k
      rw [hidx]
      simp only [List.mem_filter, Bool.true_and, Bool.not_true, Bool.false_or, mem_firsts, List.any_eq_true, Bool.not_eq_true',
        Bool.or_eq_false_iff, not_or, Bool.not_eq_true]
    generalize hK : ((firsts (ci.zip cc)).filter fun k => !(true && (isna k.1 || isna k.2))).filter
        (fun k => !true || vs.any fun v => (h (cellsAt k (ci.zip cc) v.2)).isSome) = kept at hmem ⊢
    have hr : levelValues le (idx.map (·.1)) = levelValues le (kept.map (·.1)) := levelValues_congr hle (fun a => by
      simp only [List.mem_map, hmem]
      constructor
      · rintro ⟨k, hk, rfl⟩
        obtain ⟨b, v, h1, h2, h3⟩ := hrow rfl k hk
        exact ⟨(k.1, b), ⟨h1, v, h2, h3⟩, rfl⟩
      · rintro ⟨k, ⟨hk, _⟩, rfl⟩
        exact ⟨k, hk, rfl⟩)
    have hc := levelValues_filter hle (l := idx.map (·.2)) (l' := kept.map (·.2)) (by
      intro b hb
      obtain ⟨k, hk, rfl⟩ := List.mem_map.1 hb
      exact List.mem_map_of_mem ((hmem k).1 hk).1)
    -- a cell of the table
    have hcell : ∀ v ∈ vs, ∀ a b, (if (a, b) ∈ idx then h (cellsAt (a, b) (ci.zip cc) v.2) else none) =
        (if (a, b) ∈ kept then h (cellsAt (a, b) (ci.zip cc) v.2) else none) := by
      intro v hv a b
      by_cases h1 : (a, b) ∈ idx
      · rw [if_pos h1]
        by_cases h2 : (a, b) ∈ kept
        · rw [if_pos h2]
        · rw [if_neg h2]
          cases hx : h (cellsAt (a, b) (ci.zip cc) v.2) with
          | none => rfl
          | some x => exact absurd ((hmem (a, b)).2 ⟨h1, v, hv, by rw [hx]; rfl⟩) h2
      · rw [if_neg h1, if_neg (fun h2 => h1 ((hmem _).1 h2).1)]
    simp only [↓reduceIte, hr, filter_flatMap, List.map_flatMap, List.filter_map, List.map_map]
    congr 1
    apply flatMap_congr_mem
    intro v hv
    have hcol : ∀ b, ((levelValues le (kept.map (·.1))).map fun a => if (a, b) ∈ idx then h (cellsAt (a, b) (ci.zip cc) v.2) else none) =
        (levelValues le (kept.map (·.1))).map fun a => if (a, b) ∈ kept then h (cellsAt (a, b) (ci.zip cc) v.2) else none :=
      fun b => List.map_congr_left fun a _ => hcell v hv a b
    -- the columns kept are those of values of the level that are left
    have hfil : (levelValues le (idx.map (·.2))).filter ((fun c : κ' × List (Option δ) => c.2.any (·.isSome)) ∘ fun b =>
          (lab v.1 b, (levelValues le (kept.map (·.1))).map fun a => if (a, b) ∈ idx then h (cellsAt (a, b) (ci.zip cc) v.2) else none)) =
        (levelValues le (kept.map (·.2))).filter ((fun c : κ' × List (Option δ) => c.2.any (·.isSome)) ∘ fun b =>
          (lab v.1 b, (levelValues le (kept.map (·.1))).map fun a =>
            (if (a, b) ∈ kept then h (cellsAt (a, b) (ci.zip cc) v.2) else none).or fill)) := by
      rw [← hc, List.filter_filter]
      apply List.filter_congr
      intro b hb
      simp only [Function.comp_apply, hcol, List.any_map]
      rw [Bool.eq_iff_iff]
      simp only [Bool.and_eq_true, List.any_eq_true, Function.comp_apply, decide_eq_true_eq]
      constructor
      · rintro ⟨a, ha, hs⟩
        by_cases h2 : (a, b) ∈ kept
        · rw [if_pos h2] at hs
          refine ⟨⟨a, ha, ?_⟩, List.mem_map_of_mem h2⟩
          rw [if_pos h2]
          cases hx : h (cellsAt (a, b) (ci.zip cc) v.2) with
          | none => rw [hx] at hs; cases hs
          | some x => rfl
        · rw [if_neg h2] at hs; cases hs
      · rintro ⟨⟨a, ha, hs⟩, hb⟩
        cases fill with
        | none =>
          refine ⟨a, ha, ?_⟩
          simpa using hs
        | some y =>
          obtain ⟨k, hk, rfl⟩ := List.mem_map.1 hb
          obtain ⟨_, w, hw, hs2⟩ := (hmem k).1 hk
          have : w = v := by
            have := hfill rfl rfl
            match vs, this, hv, hw with
            | [x], _, hv, hw => rw [List.mem_singleton.1 hv, List.mem_singleton.1 hw]
          subst this
          refine ⟨k.1, mem_levelValues.2 (List.mem_map_of_mem hk), ?_⟩
          rw [if_pos hk]
          exact hs2
    rw [hfil]
    apply List.map_congr_left
    intro b _
    simp only [Function.comp_apply, hcol, List.map_map]
    rfl

/-! ### one column partition -/

theorem columnLocal_ofCols [DecidableEq ι] [DecidableEq ι'] (I : List ι → List ι') (g : List ι → κ × List α → List (κ' × List β))
    (hg : ∀ l c, Sized (I l).length (g l c)) :
    ColumnLocal (fun f : Frame ι κ α => Frame.ofCols (I f.index) (f.named.flatMap (g f.index))) := by
  refine ⟨fun f _ => ofCols_wf (by
    intro c hc
    obtain ⟨d, _, hc⟩ := List.mem_flatMap.1 hc
    exact hg _ d c hc), fun fs f hwf h => ?_⟩
  obtain ⟨hne, hidx⟩ := Frame.hcat_index h
  have hn := named_hcat hwf h
  have hmap : fs.map (fun f : Frame ι κ α => Frame.ofCols (I f.index) (f.named.flatMap (g f.index))) =
      fs.map fun b => Frame.ofCols (I f.index) (b.named.flatMap (g f.index)) := by
    apply List.map_congr_left
    intro b hb
    rw [hidx b hb]
  rw [hmap, Frame.hcat_eq (r := I f.index) (by simpa using hne) (by
    intro x hx
    obtain ⟨b, _, rfl⟩ := List.mem_map.1 hx
    rfl)]
  have := stackCols_ofCols (I f.index) (fun b : Frame ι κ α => b.named.flatMap (g f.index)) fs
  unfold Frame.stackCols at this
  rw [this]
  show some _ = some (Frame.ofCols (I f.index) (f.named.flatMap (g f.index)))
  rw [hn, ← List.flatMap_def, List.flatMap_assoc]

theorem columnLocal_comp [DecidableEq ι] [DecidableEq ι'] [DecidableEq K] {F : Frame ι κ α → Frame ι' κ' β}
    {H : Frame ι' κ' β → Frame K A γ} (hF : ColumnLocal F) (hH : ColumnLocal H) : ColumnLocal (fun f => H (F f)) := by
  refine ⟨fun f hf => hH.1 _ (hF.1 f hf), fun fs f hwf h => ?_⟩
  have := hH.2 (fs.map F) (F f) (by
    intro b hb
    obtain ⟨a, ha, rfl⟩ := List.mem_map.1 hb
    exact hF.1 a (hwf a ha)) (hF.2 fs f hwf h)
  rwa [List.map_map] at this

/-- the row labels of two levels, the level that stays in front -/
def labelPairs (last : Bool) (index : List (List α)) : List (α × α) :=
  if last then (index.mapM keyPair).getD [] else ((index.mapM keyPair).getD []).map fun p => (p.2, p.1)

/-- what is left of one unstacked column -/
def finishCols (dropna : Bool) (fill : Option δ) (cs : List (κ × List (Option δ))) : List (κ × List (Option δ)) :=
  (if dropna then cs.filter fun c => c.2.any (·.isSome) else cs).map fun c => (c.1, c.2.map fun x => x.or fill)

def pivotBlock [DecidableEq α] (le : α → α → Bool) (lab : κ → α → κ') (dropna : Bool) (fill : Option δ) (last : Bool)
    (f : Frame (List α) κ (Option δ)) : Frame α κ' (Option δ) :=
  Frame.ofCols (levelValues le ((labelPairs last f.index).map (·.1)))
    (f.named.flatMap fun c => finishCols dropna fill (unstackColumn le le none lab (labelPairs last f.index) c))

theorem finishCols_sized {n : Nat} (dropna : Bool) (fill : Option δ) {cs : List (κ × List (Option δ))} (h : Sized n cs) :
    Sized n (finishCols dropna fill cs) := by
  intro c hc
  unfold finishCols at hc
  obtain ⟨d, hd, rfl⟩ := List.mem_map.1 hc
  rw [List.length_map]
  apply h d
  split at hd
  · exact (List.mem_filter.1 hd).1
  · exact hd

theorem finishCols_flatMap (dropna : Bool) (fill : Option δ) {T : Type} (l : List T) (f : T → List (κ × List (Option δ))) :
    finishCols dropna fill (l.flatMap f) = l.flatMap fun x => finishCols dropna fill (f x) := by
  unfold finishCols
  cases dropna <;> simp [List.map_flatMap, filter_flatMap]

theorem pivotBlock_local [DecidableEq α] (le : α → α → Bool) (lab : κ → α → κ') (dropna : Bool) (fill : Option δ) (last : Bool) :
    ColumnLocal (pivotBlock (κ := κ) le lab dropna fill last) :=
  columnLocal_ofCols (fun index => levelValues le ((labelPairs last index).map fun p : α × α => p.1))
    (fun index c => finishCols dropna fill (unstackColumn le le none lab (labelPairs last index) c))
    (fun index c => finishCols_sized dropna fill (by
      have := unstackColumns_sized le le none lab (labelPairs last index) [c]
      rwa [List.flatMap_singleton] at this))

theorem fillEmpty_ofCols (fill : Option δ) {I : List ι} {cs : List (κ × List (Option δ))} :
    (Frame.ofCols I cs).fillEmpty fill = Frame.ofCols I (cs.map fun c => (c.1, c.2.map fun x => x.or fill)) := by
  unfold Frame.fillEmpty Frame.ofCols
  simp only [List.map_map, Frame.mk.injEq, true_and]
  refine ⟨rfl, ?_⟩
  apply List.map_congr_left
  intro i _
  rw [Function.comp_apply, List.filterMap_map, List.map_filterMap]
  apply filterMap_congr'
  intro c _
  simp

theorem pivotFinish_ofCols (dropna : Bool) (fill : Option δ) {I : List ι} {cs : List (κ × List (Option δ))} (h : Sized I.length cs) :
    pivotFinish dropna fill (Frame.ofCols I cs) = Frame.ofCols I (finishCols dropna fill cs) := by
  unfold pivotFinish finishCols
  cases dropna with
  | false => exact fillEmpty_ofCols fill
  | true =>
    simp only [↓reduceIte]
    unfold Frame.dropEmptyCols
    rw [named_ofCols h]
    exact fillEmpty_ofCols fill

theorem named_relabelled {f : Frame ι κ α} (idx : List ι') : (Frame.mk idx f.columns f.rows).named = f.named := rfl

theorem pivotFinal_eq [DecidableEq κ] [DecidableEq α] (le : α → α → Bool) {c n1 n2 : κ} (values : PivotValues κ) (dropna : Bool)
    (fill : Option δ) (last : Bool) (hl : last = true → n2 = c) (hl' : last = false → n2 ≠ c ∧ n1 = c)
    {f : Frame (List α) κ (Option δ)} {p : List (α × α)} (hp : f.index.mapM keyPair = some p) (hn : p.Nodup) :
    pivotFinal le c values dropna fill [n1, n2] f = some (pivotBlock le values.tableLabel dropna fill last f) := by
  have hsz : ∀ q : List (α × α), Sized (levelValues le (q.map (·.1))).length
      (f.named.flatMap (unstackColumn le le none (values.tableLabel (α := α)) q)) := fun q => unstackColumns_sized le le none _ q _
  simp only [pivotFinal, hp, Option.bind_some]
  unfold pivotBlock labelPairs
  rw [hp, Option.getD_some]
  cases last with
  | true =>
    rw [if_pos (hl rfl)]
    unfold Frame.unstackInner
    rw [if_pos hn, Option.map_some, named_relabelled, pivotFinish_ofCols dropna fill (hsz p), finishCols_flatMap]
    rfl
  | false =>
    obtain ⟨h1, h2⟩ := hl' rfl
    rw [if_neg h1, if_pos h2]
    unfold Frame.unstackOuter Frame.unstackInner
    have hn' : (p.map fun l => (l.2, l.1)).Nodup := by
      unfold List.Nodup
      rw [List.pairwise_map]
      exact hn.imp fun hab e => hab (Prod.ext (Prod.mk.inj e).2 (Prod.mk.inj e).1)
    rw [if_pos hn', Option.map_some, named_relabelled, named_relabelled]
    dsimp only
    rw [pivotFinish_ofCols dropna fill (hsz _), finishCols_flatMap]
    rfl

/-! ### a finalizer after the reduce phase -/

theorem groupbyReduceFinal_spec [DecidableEq ι] [DecidableEq κ] [DecidableEq α] [DecidableEq ι'] [DecidableEq κ'] (cfg : Cfg)
    (hp : 1 ≤ cfg.nPartitions) (hr : 1 ≤ cfg.minRow) (G : Grouping (List α)) (hG : G.Ordered) {m by' : MFrame ι κ α} {df bdf : Frame ι κ α}
    (hm : m.Represents df) (hb : by'.Represents bdf) (hidx : bdf.index = df.index)
    (hlens : by'.getRowLens = m.getRowLens) (na : α) (drop : Bool) (op : TreeOp α β γ) (h : List α → γ)
    (hlaw : ∀ bs : List (List α), bs ≠ [] → (∀ b ∈ bs, b ≠ []) → op.reduce (bs.map op.map) = h bs.flatten)
    {fin : Frame (List α) κ γ → Option (Frame ι' κ' δ)} {F : Frame (List α) κ γ → Frame ι' κ' δ} (hF : ColumnLocal F)
    (hfin : ∀ f : Frame (List α) κ γ, f.index = G.groups bdf.rows → fin f = some (F f)) :
    ∃ m', groupbyReduceFinal cfg G op.map op.reduce fin na drop m by' = some m' ∧
      m'.Represents (F ((valueCols drop bdf.columns df).groupByKeys G bdf.rows h)) := by
  obtain ⟨M, rl', cw', h1, hMcut, hcount, hne, hmap, hR⟩ := groupbyMapped_spec G hG hm hb hidx hlens na drop op h hlaw
  unfold groupbyReduceFinal
  simp only [hcount, ne_eq, not_true_eq_false, ↓reduceIte]
  rw [hmap, Option.bind_some]
  have hF' : ColumnLocal fun f => F (groupbyRed G op.reduce f) := columnLocal_comp (columnLocal_groupbyRed (κ := κ) G op.reduce) hF
  obtain ⟨lens, ⟨h2, h3, _, _, _⟩, h5⟩ := mapAxis_rows_cut' cfg hp hr hF' h1 hMcut false
    (some (min m.parts.length cfg.nPartitions)) (by intro n hn; simp only [Option.some.injEq] at hn; omega)
    none (by simp) (by simp)
  have hgi : G.groups M.index = G.groups bdf.rows := congrArg Frame.index hR
  rw [← mapAxis_rows_congr cfg h1 hMcut false _ none (func := fun f => fin (groupbyRed G op.reduce f))
    (fun a b => hfin _ (show G.groups (M.ilocCols a b).index = _ from hgi))] at h5
  rw [← hR]
  generalize hFM : (fun f => F (groupbyRed G op.reduce f)) = H at h2 h3 h5 hF'
  rw [show F (groupbyRed G op.reduce M) = H M by rw [← hFM]]
  simp only [show ∀ f, F (groupbyRed G op.reduce f) = H f by intro f; rw [← hFM]] at h3 h5
  have hwf' := hF'.1 M h1
  have hcat : Frame.hcat (((sliceBounds cw').map fun q => M.ilocCols q.1 q.2).map H) = some (H M) :=
    hF'.2 _ _ (by intro x hx; simp only [List.mem_map] at hx; obtain ⟨q, _, rfl⟩ := hx; exact h1.ilocCols _ _)
      (hcat_cols_cut h1 hMcut)
  obtain ⟨hne2, hidx2, hst⟩ := hcat_parts hcat
  have hwfq : ∀ q : Nat × Nat, (H (M.ilocCols q.1 q.2)).WF := fun q => hF'.1 _ (h1.ilocCols _ _)
  have h6 : ((sliceBounds lens).map fun p => (sliceBounds cw').map fun q => (H (M.ilocCols q.1 q.2)).ilocRows p.1 p.2)
      = (H M).cut lens ((sliceBounds cw').map fun q => (H (M.ilocCols q.1 q.2)).ncols) := by
    have hb := colBlocks_bands (H M).index lens h2 (((sliceBounds cw').map fun q => M.ilocCols q.1 q.2).map H) hne2
      (fun R hR => ⟨by
        obtain ⟨b, hb, rfl⟩ := List.mem_map.1 hR
        obtain ⟨q, _, rfl⟩ := List.mem_map.1 hb
        exact hwfq q, hidx2 R hR⟩)
    rw [colBlocks_matrix _ (sliceBounds lens) (fun R p => R.ilocRows p.1 p.2) hne2, ← hst] at hb
    simpa [List.map_map, Function.comp_def] using hb
  rw [h6] at h5
  have hc' : (H M).IsCut lens ((sliceBounds cw').map fun q => (H (M.ilocCols q.1 q.2)).ncols) := by
    have := stackCols_isCut (H M).index lens h2 h3 _ hne2
    rw [← hst] at this
    simpa [List.map_map, Function.comp_def] using this
  rw [h5, Option.bind_some]
  exact represents_mk' ⟨hwf', ⟨lens, _, hc', rfl, Or.inl rfl, Or.inl rfl⟩, Or.inl rfl, Or.inl rfl⟩

/-! ### the groups of two key columns -/

theorem cellsAt_inj {A B τ : Type} [DecidableEq A] [DecidableEq B] {f : A → B} (hf : ∀ x y, f x = f y → x = y) (k : A) (keys : List A)
    (c : List τ) : cellsAt (f k) (keys.map f) c = cellsAt k keys c := by
  unfold cellsAt
  rw [List.zip_map_left, List.filter_map, List.map_map]
  have : ((fun x : B × τ => decide (x.1 = f k)) ∘ Prod.map f id) = fun x : A × τ => decide (x.1 = k) := by
    funext x
    simp only [Function.comp_apply, Prod.map_fst, decide_eq_decide]
    exact ⟨fun h => hf _ _ h, fun h => by rw [h]⟩
  rw [this]
  rfl

theorem named_groupByKeys [DecidableEq K] (G : Grouping K) (keys : List K) (h : List α → β) (f : Frame ι κ α) :
    (f.groupByKeys G keys h).named = f.named.map fun e => (e.1, (G.groups keys).map fun k => h (cellsAt k keys e.2)) := by
  have : f.groupByKeys G keys h = Frame.ofCols (G.groups keys) (f.named.map fun e => (e.1, (G.groups keys).map fun k => h (cellsAt k keys e.2))) := by
    unfold Frame.groupByKeys Frame.ofCols
    rw [Frame.mk.injEq]
    refine ⟨rfl, ?_, ?_⟩
    · rw [List.map_map, ← named_labels f]
      rfl
    · apply List.ext_getElem?
      intro i
      rw [List.getElem?_map, List.getElem?_map]
      by_cases hi : i < (G.groups keys).length
      · rw [List.getElem?_range hi, List.getElem?_eq_getElem hi, Option.map_some, Option.map_some, List.filterMap_map, ← named_cells f,
          List.map_map, ← List.filterMap_eq_map]
        congr 1
        apply filterMap_congr'
        intro e _
        simp [hi]
      · rw [List.getElem?_eq_none (by simpa using hi), List.getElem?_eq_none (by simpa using hi)]
        rfl
  rw [this, named_ofCols]
  intro c hc
  obtain ⟨e, _, rfl⟩ := List.mem_map.1 hc
  simp

theorem mapM_keyPair {ps : List (α × α)} : (ps.map fun p => [p.1, p.2]).mapM keyPair = some ps := by
  induction ps with
  | nil => rfl
  | cons p ps ih => simp [List.map_cons, List.mapM_cons, ih, keyPair]

theorem as_pairs {ps : List (α × α)} {l : List (List α)} (h : ∀ k ∈ l, k ∈ ps.map fun p => [p.1, p.2]) :
    ∃ qs : List (α × α), l = qs.map fun p => [p.1, p.2] := by
  induction l with
  | nil => exact ⟨[], rfl⟩
  | cons k l ih =>
    obtain ⟨qs, rfl⟩ := ih fun x hx => h x (List.mem_cons_of_mem _ hx)
    obtain ⟨p, _, rfl⟩ := List.mem_map.1 (h k (List.mem_cons_self ..))
    exact ⟨p :: qs, rfl⟩

theorem pair_inj (x y : α × α) (h : [x.1, x.2] = [y.1, y.2]) : x = y := by
  simp only [List.cons.injEq, and_true] at h
  exact Prod.ext h.1 h.2

theorem two_columns {f : Frame ι κ α} (hf : f.WF) {n1 n2 : κ} {c1 c2 : List α} (h : f.named = [(n1, c1), (n2, c2)]) :
    f.rows = (c1.zip c2).map fun p => [p.1, p.2] := by
  have hs := Frame.named_sized hf
  rw [h] at hs
  have h1 : c1.length = f.index.length := hs (n1, c1) (by simp)
  have h2 : c2.length = f.index.length := hs (n2, c2) (by simp)
  have := ofCols_named hf
  rw [h] at this
  rw [← this]
  show ((List.range f.index.length).map fun i => [(n1, c1), (n2, c2)].filterMap (·.2[i]?)) = _
  apply List.ext_getElem?
  intro i
  rw [List.getElem?_map, List.getElem?_map]
  by_cases hi : i < f.index.length
  · rw [List.getElem?_range hi, List.getElem?_eq_getElem (by simp; omega)]
    simp [h1, h2, hi]
  · rw [List.getElem?_eq_none (by simpa using hi), List.getElem?_eq_none (by simp; omega)]
    rfl

theorem find_map_self {X Y : Type} [BEq X] [LawfulBEq X] [DecidableEq X] (F : X → Y) (d : Y) (x : X) : ∀ l : List X,
    (((l.map fun q => (q, F q)).find? (·.1 == x)).map (·.2)).getD d = if x ∈ l then F x else d := by
  intro l
  induction l with
  | nil => rfl
  | cons y l ih =>
    rw [List.map_cons, List.find?_cons]
    by_cases hy : y = x
    · simp [hy]
    · have : ((y, F y).1 == x) = false := by simpa using hy
      rw [this]
      simp only [ih, List.mem_cons]
      have : ¬ x = y := fun e => hy e.symm
      simp [this]

/-- the block function on the groups of the keys `keys` -/
theorem pivotBlock_groups [DecidableEq α] (le : α → α → Bool) (lab : κ → α → κ') (dropna : Bool) (fill : Option δ) (last : Bool)
    (G : Grouping (List α)) (h : List α → Option δ) (ci cc : List α) (f : Frame ι κ α) {qs : List (α × α)}
    (hq : G.groups (if last then (ci.zip cc).map fun p => [p.1, p.2] else (cc.zip ci).map fun p => [p.1, p.2]) = qs.map fun p => [p.1, p.2]) :
    pivotBlock le lab dropna fill last (f.groupByKeys G (if last then (ci.zip cc).map fun p => [p.1, p.2] else (cc.zip ci).map fun p => [p.1, p.2]) h) =
      modinTable le h lab dropna fill (ci.zip cc) f.named (if last then qs else qs.map fun p => (p.2, p.1)) := by
  have hidx : labelPairs last (f.groupByKeys G (if last then (ci.zip cc).map fun p => [p.1, p.2] else (cc.zip ci).map fun p => [p.1, p.2]) h).index
      = if last then qs else qs.map fun p => (p.2, p.1) := by
    unfold labelPairs
    show (if last = true then ((G.groups _).mapM keyPair).getD [] else (((G.groups _).mapM keyPair).getD []).map _) = _
    rw [hq, mapM_keyPair, Option.getD_some]
  have hswap : ∀ (x : α × α) (c : List α), cellsAt [x.2, x.1] ((cc.zip ci).map fun p => [p.1, p.2]) c = cellsAt x (ci.zip cc) c := by
    intro x c
    have e : ((cc.zip ci).map fun p => [p.1, p.2]) = (ci.zip cc).map fun p => [p.2, p.1] := by
      clear hq hidx
      induction cc generalizing ci with
      | nil => simp
      | cons y cc ih =>
        cases ci with
        | nil => rfl
        | cons z ci => simp [ih]
    rw [e]
    exact cellsAt_inj (f := fun p : α × α => [p.2, p.1]) (fun x y h => by
      simp only [List.cons.injEq, and_true] at h
      exact Prod.ext h.2 h.1) x (ci.zip cc) c
  unfold pivotBlock
  rw [hidx, named_groupByKeys, hq]
  have hcol : ∀ e : κ × List α, unstackColumn le le none lab (if last then qs else qs.map fun p => (p.2, p.1))
      (e.1, (qs.map fun p => [p.1, p.2]).map fun k => h (cellsAt k (if last then (ci.zip cc).map fun p => [p.1, p.2] else (cc.zip ci).map fun p => [p.1, p.2]) e.2)) =
      (levelValues le ((if last then qs else qs.map fun p => (p.2, p.1)).map (·.2))).map fun b => (lab e.1 b,
        (levelValues le ((if last then qs else qs.map fun p => (p.2, p.1)).map (·.1))).map fun a =>
          if (a, b) ∈ (if last then qs else qs.map fun p => (p.2, p.1)) then h (cellsAt (a, b) (ci.zip cc) e.2) else none) := by
    intro e
    have hz : ((if last then qs else qs.map fun p => (p.2, p.1)).zip ((qs.map fun p => [p.1, p.2]).map fun k =>
        h (cellsAt k (if last then (ci.zip cc).map fun p => [p.1, p.2] else (cc.zip ci).map fun p => [p.1, p.2]) e.2))) =
        (if last then qs else qs.map fun p => (p.2, p.1)).map fun q => (q, h (cellsAt q (ci.zip cc) e.2)) := by
      cases last with
      | true =>
        simp only [↓reduceIte, List.map_map]
        conv => lhs; arg 1; rw [← List.map_id qs]
        rw [List.zip_map']
        apply List.map_congr_left
        intro q _
        simp only [id, Function.comp_apply, Prod.mk.injEq, true_and]
        rw [cellsAt_inj (f := fun p : α × α => [p.1, p.2]) pair_inj]
      | false =>
        simp only [Bool.false_eq_true, ↓reduceIte, List.map_map]
        rw [List.zip_map']
        apply List.map_congr_left
        intro q _
        simp only [Function.comp_apply, Prod.mk.injEq, true_and]
        rw [← hswap]
    unfold unstackColumn
    dsimp only
    rw [hz]
    apply List.map_congr_left
    intro b _
    congr 1
    apply List.map_congr_left
    intro a _
    exact find_map_self (fun q => h (cellsAt q (ci.zip cc) e.2)) none (a, b) _
  rw [List.flatMap_map]
  simp only [hcol]
  rw [← finishCols_flatMap]
  rfl

/-! ### separating keys and data -/

theorem take2d_some_cols [DecidableEq ι] [DecidableEq κ] (cfg : Cfg) (hp : 1 ≤ cfg.nPartitions) (hmr : 1 ≤ cfg.minRow)
    (hmc : 1 ≤ cfg.minCol) (known : Nat → Nat → Bool × Bool) {m : MFrame ι κ α} {df : Frame ι κ α} (h : m.Represents df)
    (hrows : ∀ rl, m.rowLens = some rl → 0 ∉ rl) {ps : List Nat} (hps : ∀ p ∈ ps, p < df.ncols) (hn : ps.Nodup) :
    ∃ m', take2d cfg known m none (some (.array ps)) = some m' ∧ m'.Represents (df.takeCols ps) ∧ m'.getRowLens = m.getRowLens := by
  obtain ⟨m', e1, e2⟩ := take2d_spec cfg hp hmr hmc h (known := known) (kn := true) (fun _ _ _ => rfl)
    (rows := none) (cols := some (.array ps)) (by simp) (by intro q hq; cases hq; exact hps) (by simp) (by simp) (by simp)
    (by intro _ q hq; cases hq; exact hn)
  rw [show reqList df.nrows none = List.range df.nrows from rfl, takeRows_all h.wf] at e2
  refine ⟨m', e1, e2, ?_⟩
  obtain ⟨rl, cw, hcut, hparts, hrl, hcw⟩ := h.blocks
  have hR : RowsH m.parts rl := by rw [hparts]; exact rowsH_cut hcut
  have hL : LensOk rl m.rowLens := by
    rcases hrl with h0 | h0
    · exact Or.inl h0
    · exact Or.inr ⟨h0, hrows rl h0⟩
  have : RowsH m'.parts rl ∧ LensOk rl m'.rowLens := by
    unfold take2d at e1
    simp only [show ∀ n, normPositions n none = none from fun _ => rfl] at e1
    split at e1
    · cases e1; exact ⟨hR, hL⟩
    · split at e1
      · rename_i hj
        simp [jumps] at hj
      · exact maskThenReorder_rows hR hL e1
  obtain ⟨cw', hcut', hparts'⟩ := represents_rows e2 this.1
  rw [getRowLens_cut hcut hparts hrl, getRowLens_cut hcut' hparts' (by
    rcases this.2 with h0 | h0
    · exact Or.inl h0
    · exact Or.inr h0.1)]

theorem positions_filter [DecidableEq κ] {labels : List κ} (hn : labels.Nodup) (p : κ → Bool) :
    (labels.filter p).flatMap (positionsOf labels) = (List.range labels.length).filter fun i => labels[i]?.any p := by
  rw [← takeList_filter labels p]
  exact positionsOf_own hn (fun x hx => by simpa using (List.mem_filter.1 hx).1)

theorem takeColsInOrder_spec [DecidableEq ι] [DecidableEq κ] (cfg : Cfg) (hp : 1 ≤ cfg.nPartitions) (hmr : 1 ≤ cfg.minRow)
    (hmc : 1 ≤ cfg.minCol) (known : Nat → Nat → Bool × Bool) {m : MFrame ι κ α} {df : Frame ι κ α} (h : m.Represents df)
    (hn : df.columns.Nodup) (hrows : ∀ rl, m.rowLens = some rl → 0 ∉ rl) (labels : List κ) :
    ∃ m', takeColsInOrder cfg known labels m = some m' ∧
      m'.Represents (df.takeCols ((df.columns.filter fun k => labels.contains k).flatMap (positionsOf df.columns))) ∧
      m'.getRowLens = m.getRowLens := by
  unfold takeColsInOrder
  rw [h.getColumns, getIndexerFor_present _ _ (fun x hx => (List.mem_filter.1 hx).1), mapM_id_some, Option.bind_some]
  refine take2d_some_cols cfg hp hmr hmc known h hrows ?_ (flatMap_positionsOf_nodup _ (hn.sublist List.filter_sublist))
  intro x hx
  obtain ⟨k, _, hx⟩ := List.mem_flatMap.1 hx
  exact (List.getElem?_eq_some_iff.1 (mem_positionsOf.1 hx)).1

theorem dataToGroup_spec [DecidableEq ι] [DecidableEq κ] (cfg : Cfg) (hp : 1 ≤ cfg.nPartitions) (hmr : 1 ≤ cfg.minRow)
    (hmc : 1 ≤ cfg.minCol) (known : Nat → Nat → Bool × Bool) {m : MFrame ι κ α} {df : Frame ι κ α} (h : m.Represents df)
    (hn : df.columns.Nodup) (hrows : ∀ rl, m.rowLens = some rl → 0 ∉ rl) (i c : κ) (values : PivotValues κ) :
    ∃ m', dataToGroup cfg known [i, c] values m = some m' ∧
      m'.Represents (df.takeCols ((df.columns.filter fun k => (values.labels i c df.columns).contains k).flatMap (positionsOf df.columns))) ∧
      m'.getRowLens = m.getRowLens := by
  cases values with
  | column v => exact takeColsInOrder_spec cfg hp hmr hmc known h hn hrows [v]
  | columns vs => exact takeColsInOrder_spec cfg hp hmr hmc known h hn hrows vs
  | missing =>
    have he : (df.columns.filter fun k => (PivotValues.missing.labels i c df.columns).contains k) =
        df.columns.filter fun k => !([i, c].contains k) := by
      apply List.filter_congr
      intro k hk
      rw [Bool.eq_iff_iff]
      unfold PivotValues.labels
      simp [hk]
    rw [he, positions_filter hn]
    unfold dataToGroup dropColLabels
    simp only [h.getColumns]
    refine take2d_some_cols cfg hp hmr hmc known h hrows ?_ (List.nodup_range.filter _)
    intro x hx
    show x < df.columns.length
    simpa using (List.mem_filter.1 hx).1

theorem two_of_nodup {l : List A} {x y : A} (hn : l.Nodup) (hxy : x ≠ y) (h : ∀ a, a ∈ l ↔ a = x ∨ a = y) : l = [x, y] ∨ l = [y, x] := by
  match l with
  | [] => exact absurd ((h x).2 (Or.inl rfl)) (by simp)
  | [a] =>
    have h1 := List.mem_singleton.1 ((h x).2 (Or.inl rfl))
    have h2 := List.mem_singleton.1 ((h y).2 (Or.inr rfl))
    exact absurd (h1.trans h2.symm) hxy
  | [a, b] =>
    have hab : a ≠ b := by simpa using hn
    have ha := (h a).1 (by simp)
    have hb := (h b).1 (by simp)
    rcases ha with rfl | rfl <;> rcases hb with rfl | rfl
    · exact absurd rfl hab
    · exact Or.inl rfl
    · exact Or.inr rfl
    · exact absurd rfl hab
  | a :: b :: d :: l =>
    simp only [List.nodup_cons, List.mem_cons, not_or] at hn
    obtain ⟨⟨hab, had, _⟩, ⟨hbd, _⟩, _⟩ := hn
    have ha := (h a).1 (by simp)
    have hb := (h b).1 (by simp)
    have hd := (h d).1 (by simp)
    rcases ha with ha | ha <;> rcases hb with hb | hb <;> rcases hd with hd | hd <;> simp_all

theorem pivotTable_core [DecidableEq ι] [DecidableEq κ] [DecidableEq α] (cfg : Cfg) (hp : 1 ≤ cfg.nPartitions) (hmr : 1 ≤ cfg.minRow)
    (hmc : 1 ≤ cfg.minCol) (known : Nat → Nat → Bool × Bool) (G : Grouping (List α)) (hG : G.Ordered) (isna : α → Bool)
    (hdrop : ∀ k, G.dropped k = k.any isna) {le : α → α → Bool} (hle : TotalOrder le) (na : α) (op : TreeOp α β (Option δ))
    (h : List α → Option δ)
    (hlaw : ∀ bs : List (List α), bs ≠ [] → (∀ b ∈ bs, b ≠ []) → op.reduce (bs.map op.map) = h bs.flatten)
    {m : MFrame ι κ α} {df : Frame ι κ α} (hm : m.Represents df) (hn : df.columns.Nodup) (hrows : ∀ rl, m.rowLens = some rl → 0 ∉ rl)
    {i c : κ} (hi : i ∈ df.columns) (hc : c ∈ df.columns) (hic : i ≠ c) (values : PivotValues κ)
    (hv : ∀ v ∈ values.labels i c df.columns, v ∈ df.columns ∧ v ≠ i ∧ v ≠ c) (hv0 : values.labels i c df.columns ≠ [])
    (hne : df.index ≠ []) (dropna : Bool) (fill : Option δ)
    (hna : dropna = false → ∀ k ∈ (df.cellsOf i).zip (df.cellsOf c), ¬(isna k.1 ∨ isna k.2))
    (hrow : dropna = true → ∀ k ∈ (df.cellsOf i).zip (df.cellsOf c), ¬(isna k.1 ∨ isna k.2) →
      ∃ b, ∃ v ∈ values.labels i c df.columns, (k.1, b) ∈ (df.cellsOf i).zip (df.cellsOf c) ∧ ¬isna b ∧
        (h (cellsAt (k.1, b) ((df.cellsOf i).zip (df.cellsOf c)) (df.cellsOf v))).isSome)
    (hfill : dropna = true → fill.isSome → (df.columns.filter fun k => (values.labels i c df.columns).contains k).length ≤ 1) :
    ∃ m', pivotTable cfg known G le op na i c values dropna fill m = some m' ∧
      m'.Represents (pivotCells le isna h values.tableLabel dropna fill (df.cellsOf i) (df.cellsOf c)
        ((df.columns.filter fun k => (values.labels i c df.columns).contains k).map fun k => (k, df.cellsOf k))) := by
  obtain ⟨d, d1, d2, d3⟩ := dataToGroup_spec cfg hp hmr hmc known hm hn hrows i c values
  obtain ⟨k, k1, k2, k3⟩ := takeColsInOrder_spec cfg hp hmr hmc known hm hn hrows [i, c]
  have hvs : ∀ v, v ∈ (df.columns.filter fun k => (values.labels i c df.columns).contains k) ↔ v ∈ values.labels i c df.columns := by
    intro v
    simp only [List.mem_filter, List.contains_iff_mem]
    exact ⟨fun h => h.2, fun h => ⟨(hv v h).1, h⟩⟩
  generalize hvsF : (df.columns.filter fun k => (values.labels i c df.columns).contains k) = vsF at hvs d2 hfill ⊢
  have hvn : vsF.Nodup := by rw [← hvsF]; exact hn.sublist List.filter_sublist
  have hdn := named_takeLabels hm.wf hn (labels := vsF) (fun v hv' => (hv v ((hvs v).1 hv')).1)
  have hkm : ∀ x, x ∈ (df.columns.filter fun k => [i, c].contains k) ↔ x = i ∨ x = c := by
    intro x
    simp only [List.mem_filter, List.contains_iff_mem, List.mem_cons, List.not_mem_nil, or_false]
    constructor
    · exact fun h => h.2
    · intro h
      refine ⟨?_, h⟩
      rcases h with rfl | rfl
      · exact hi
      · exact hc
  have hkn := named_takeLabels hm.wf hn (labels := df.columns.filter fun k => [i, c].contains k) (fun v hv' => (List.mem_filter.1 hv').1)
  have hdc : (df.takeCols (vsF.flatMap (positionsOf df.columns))).columns = vsF := by
    rw [← named_labels, hdn, List.map_map]
    conv => rhs; rw [← List.map_id vsF]
    rfl
  have hkc : (df.takeCols ((df.columns.filter fun k => [i, c].contains k).flatMap (positionsOf df.columns))).columns =
      df.columns.filter fun k => [i, c].contains k := by
    rw [← named_labels, hkn, List.map_map]
    conv => rhs; rw [← List.map_id (df.columns.filter _)]
    rfl
  unfold pivotTable
  rw [if_neg hic, d1, Option.bind_some, k1, Option.bind_some, d2.getColumns, d2.getIndex, k2.getColumns, hkc, hdc]
  have hv0' : vsF ≠ [] := by
    intro h0
    obtain ⟨v, hv'⟩ := List.exists_mem_of_ne_nil _ hv0
    have := (hvs v).2 hv'
    rw [h0] at this
    cases this
  rw [if_neg (by
    rintro (h0 | h0)
    · exact hv0' h0
    · exact hne h0)]
  -- the keys
  obtain ⟨last, hnames, hlast⟩ : ∃ last : Bool, (df.columns.filter fun k => [i, c].contains k) = (if last then [i, c] else [c, i]) ∧
      True := by
    rcases two_of_nodup (hn.sublist List.filter_sublist) hic hkm with h0 | h0
    · exact ⟨true, h0, trivial⟩
    · exact ⟨false, h0, trivial⟩
  have hkrows : (df.takeCols ((df.columns.filter fun k => [i, c].contains k).flatMap (positionsOf df.columns))).rows =
      if last then ((df.cellsOf i).zip (df.cellsOf c)).map fun p => [p.1, p.2] else ((df.cellsOf c).zip (df.cellsOf i)).map fun p => [p.1, p.2] := by
    cases last with
    | true => exact two_columns k2.wf (by rw [hkn, hnames]; rfl)
    | false => exact two_columns k2.wf (by rw [hkn, hnames]; rfl)
  obtain ⟨qs, hq⟩ := as_pairs (l := G.groups (if last then ((df.cellsOf i).zip (df.cellsOf c)).map fun p => [p.1, p.2]
      else ((df.cellsOf c).zip (df.cellsOf i)).map fun p => [p.1, p.2]))
    (ps := if last then (df.cellsOf i).zip (df.cellsOf c) else (df.cellsOf c).zip (df.cellsOf i)) (by
      intro x hx
      have := (G.mem_groups.1 hx).1
      cases last <;> exact this)
  have hqn : qs.Nodup := by
    have := G.nodup_groups (if last then ((df.cellsOf i).zip (df.cellsOf c)).map fun p => [p.1, p.2]
      else ((df.cellsOf c).zip (df.cellsOf i)).map fun p => [p.1, p.2])
    rw [hq] at this
    unfold List.Nodup at this
    rw [List.pairwise_map] at this
    exact this.imp fun hab e => hab (by rw [e])
  obtain ⟨m', e1, e2⟩ := groupbyReduceFinal_spec cfg hp hmr G hG d2 k2 rfl (k3.trans d3.symm) na true op h hlaw
    (fin := pivotFinal le c values dropna fill (df.columns.filter fun k => [i, c].contains k))
    (F := pivotBlock le values.tableLabel dropna fill last) (pivotBlock_local le _ dropna fill last) (by
      intro f hf
      rw [hkrows, hq] at hf
      have hpk : f.index.mapM keyPair = some qs := by rw [hf, mapM_keyPair]
      rw [hnames]
      cases last with
      | true => exact pivotFinal_eq le values dropna fill true (fun _ => rfl) (by simp) hpk hqn
      | false => exact pivotFinal_eq le values dropna fill false (by simp) (fun _ => ⟨hic, rfl⟩) hpk hqn)
  refine ⟨m', e1, ?_⟩
  have hval : valueCols true (df.takeCols ((df.columns.filter fun k => [i, c].contains k).flatMap (positionsOf df.columns))).columns
      (df.takeCols (vsF.flatMap (positionsOf df.columns))) = df.takeCols (vsF.flatMap (positionsOf df.columns)) := by
    unfold valueCols
    rw [if_pos rfl]
    refine withoutCols_none d2.wf ?_
    intro v hv'
    rw [hdc] at hv'
    have := hv v ((hvs v).1 hv')
    rw [hkc]
    simpa using fun _ => this.2
  rw [hval, hkrows, pivotBlock_groups le values.tableLabel dropna fill last G h (df.cellsOf i) (df.cellsOf c) _ hq, hdn] at e2
  have hmem : ∀ k, k ∈ (if last then qs else qs.map fun p => (p.2, p.1)) ↔
      k ∈ (df.cellsOf i).zip (df.cellsOf c) ∧ ¬(isna k.1 ∨ isna k.2) := by
    intro x
    have hin : ∀ (ps : List (α × α)) (y : α × α), [y.1, y.2] ∈ (ps.map fun p => [p.1, p.2]) ↔ y ∈ ps := by
      intro ps y
      constructor
      · intro hy
        obtain ⟨z, hz, e⟩ := List.mem_map.1 hy
        rwa [← pair_inj z y e]
      · exact fun hy => List.mem_map.2 ⟨y, hy, rfl⟩
    have hgr : ∀ y : α × α, y ∈ qs ↔ [y.1, y.2] ∈ G.groups (if last then ((df.cellsOf i).zip (df.cellsOf c)).map fun p => [p.1, p.2]
        else ((df.cellsOf c).zip (df.cellsOf i)).map fun p => [p.1, p.2]) := by
      intro y
      rw [hq, hin]
    have hsw : ∀ (a b : List α) (y : α × α), (y.2, y.1) ∈ b.zip a ↔ y ∈ a.zip b := by
      intro a
      induction a with
      | nil => intro b y; simp
      | cons u a ih =>
        intro b y
        cases b with
        | nil => simp
        | cons w b =>
          simp only [List.zip_cons_cons, List.mem_cons, ih, Prod.mk.injEq]
          rw [Prod.ext_iff (x := y)]
          simp only [and_comm]
    cases last with
    | true =>
      simp only [↓reduceIte] at hgr ⊢
      rw [hgr, G.mem_groups, hin, hdrop]
      simp
    | false =>
      simp only [Bool.false_eq_true, ↓reduceIte] at hgr ⊢
      have : x ∈ (qs.map fun p => (p.2, p.1)) ↔ (x.2, x.1) ∈ qs := by
        constructor
        · intro hx
          obtain ⟨y, hy, rfl⟩ := List.mem_map.1 hx
          exact hy
        · exact fun hx => List.mem_map.2 ⟨_, hx, rfl⟩
      rw [this, hgr, G.mem_groups, hin (y := (x.2, x.1)), hsw, hdrop]
      simp [and_comm]
  rw [modinTable_eq hle isna h values.tableLabel dropna fill (df.cellsOf i) (df.cellsOf c) _ hmem hna (by
    intro hd k hk
    obtain ⟨h1, h2⟩ := (hmem k).1 hk
    obtain ⟨b, v, hv', h3, h4, h5⟩ := hrow hd k h1 h2
    exact ⟨b, (v, df.cellsOf v), (hmem _).2 ⟨h3, fun h0 => h0.elim (fun h0 => h2 (Or.inl h0)) h4⟩,
      List.mem_map_of_mem ((hvs v).2 hv'), h5⟩) (by
    intro h1 h2
    rw [List.length_map]
    exact hfill h1 h2)] at e2
  exact e2

/-- a list without repetitions is no longer than one that has all its members -/
theorem nodup_length_le [DecidableEq κ] : ∀ {a b : List κ}, a.Nodup → (∀ x ∈ a, x ∈ b) → a.length ≤ b.length
  | [], _, _, _ => Nat.zero_le _
  | y :: a, b, hn, hs => by
    rw [List.nodup_cons] at hn
    have hy : y ∈ b := hs y (List.mem_cons_self ..)
    have ih := nodup_length_le (b := b.erase y) hn.2
      fun x hx => (List.mem_erase_of_ne (show x ≠ y from fun h => hn.1 (h ▸ hx))).mpr (hs x (List.mem_cons_of_mem _ hx))
    rw [List.length_erase_of_mem hy] at ih
    have := List.length_pos_of_mem hy
    rw [List.length_cons]
    omega
