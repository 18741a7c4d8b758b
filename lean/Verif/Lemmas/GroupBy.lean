import Verif.Model.GroupBy
import Verif.Lemmas.Reduce
import Verif.Lemmas.Sort

variable {ι κ α ι' κ' β γ K : Type}

/-! ### groups -/

section groups
variable [DecidableEq K]

theorem mem_firsts {l : List K} {k : K} : k ∈ firsts l ↔ k ∈ l := by
  induction l with
  | nil => simp [firsts]
  | cons x xs ih =>
    simp only [firsts, List.mem_cons, List.mem_filter, ih, decide_eq_true_eq]
    by_cases h : k = x <;> simp [h]

theorem nodup_firsts (l : List K) : (firsts l).Nodup := by
  induction l with
  | nil => simp [firsts]
  | cons x xs ih =>
    simp only [firsts, List.nodup_cons, List.mem_filter, decide_eq_true_eq, ne_eq, not_true_eq_false, and_false,
      not_false_eq_true, true_and]
    exact ih.sublist List.filter_sublist

theorem firsts_of_nodup {l : List K} (h : l.Nodup) : firsts l = l := by
  induction l with
  | nil => rfl
  | cons x xs ih =>
    simp only [List.nodup_cons] at h
    simp only [firsts, ih h.2, List.cons.injEq, true_and, List.filter_eq_self, decide_eq_true_eq]
    intro a ha hax
    exact h.1 (hax ▸ ha)

theorem firsts_append (a b : List K) : firsts (a ++ b) = firsts a ++ (firsts b).filter (· ∉ a) := by
  induction a with
  | nil =>
    show firsts b = _
    rw [List.filter_eq_self.2 (by simp)]
    rfl
  | cons x xs ih =>
    simp only [List.cons_append, firsts, ih, List.filter_append, List.filter_filter, List.cons_append,
      List.cons.injEq, true_and, List.append_cancel_left_eq]
    apply List.filter_congr
    intro y _
    simp [List.mem_cons, not_or]

theorem firsts_flatten (ls : List (List K)) : firsts (ls.map firsts).flatten = firsts ls.flatten := by
  induction ls with
  | nil => rfl
  | cons l ls ih =>
    simp only [List.map_cons, List.flatten_cons, firsts_append, ih, firsts_of_nodup (nodup_firsts l)]
    simp only [mem_firsts]

omit [DecidableEq K] in
theorem sortBy_nodup {le : K → K → Bool} {l : List K} (h : l.Nodup) : (sortBy le l).Nodup :=
  (sortBy_perm le l).nodup_iff.2 h

theorem Grouping.mem_groups (G : Grouping K) {keys : List K} {k : K} :
    k ∈ G.groups keys ↔ k ∈ keys ∧ G.dropped k = false := by
  unfold Grouping.groups
  split <;> simp [mem_sortBy, mem_firsts]

theorem Grouping.nodup_groups (G : Grouping K) (keys : List K) : (G.groups keys).Nodup := by
  unfold Grouping.groups
  split
  · exact sortBy_nodup (nodup_firsts _)
  · exact nodup_firsts _

/-- grouping the groups of the pieces is grouping the whole -/
theorem Grouping.groups_flatten (G : Grouping K) (hG : G.Ordered) (ls : List (List K)) :
    G.groups (ls.map G.groups).flatten = G.groups ls.flatten := by
  cases hs : G.sort with
  | true =>
    have hmem : ∀ k, k ∈ G.groups (ls.map G.groups).flatten ↔ k ∈ G.groups ls.flatten := by
      intro k
      simp only [G.mem_groups, List.mem_flatten, List.mem_map]
      constructor
      · rintro ⟨⟨_, ⟨l, hl, rfl⟩, hk⟩, hd⟩
        exact ⟨⟨l, hl, (G.mem_groups.1 hk).1⟩, hd⟩
      · rintro ⟨⟨l, hl, hk⟩, hd⟩
        exact ⟨⟨_, ⟨l, hl, rfl⟩, G.mem_groups.2 ⟨hk, hd⟩⟩, hd⟩
    have hsorted : ∀ keys, (G.groups keys).Pairwise (fun a b => G.le a b = true) := by
      intro keys
      unfold Grouping.groups
      rw [if_pos hs]
      exact sortBy_pairwise hG.trans hG.total _
    exact List.Perm.eq_of_pairwise (fun a b _ _ h1 h2 => hG.antisymm a b h1 h2) (hsorted _) (hsorted _)
      ((List.perm_ext_iff_of_nodup (G.nodup_groups _) (G.nodup_groups _)).2 hmem)
  | false =>
    have hg : ∀ keys, G.groups keys = firsts (keys.filter fun k => !G.dropped k) := by
      intro keys
      unfold Grouping.groups
      rw [if_neg (by simp [hs])]
    rw [hg, hg, List.filter_flatten, List.filter_flatten, List.map_map]
    have : (List.map ((List.filter fun k => !G.dropped k) ∘ G.groups) ls)
        = (ls.map (List.filter fun k => !G.dropped k)).map firsts := by
      rw [List.map_map]
      apply List.map_congr_left
      intro l _
      simp only [Function.comp_def]
      refine Eq.trans (List.filter_eq_self.2 ?_) (hg l)
      intro k hk
      simp [(G.mem_groups.1 hk).2]
    rw [this, firsts_flatten]

end groups

/-! ### cells with a label -/

section cells
variable [DecidableEq K]

theorem cellsAt_append {τ : Type} (k : K) {l₁ l₂ : List K} {c₁ c₂ : List τ} (h : l₁.length = c₁.length) :
    cellsAt k (l₁ ++ l₂) (c₁ ++ c₂) = cellsAt k l₁ c₁ ++ cellsAt k l₂ c₂ := by
  unfold cellsAt
  rw [List.zip_append h, List.filter_append, List.map_append]

theorem cellsAt_nodup_map {τ : Type} (k : K) (f : K → τ) {gs : List K} (hn : gs.Nodup) :
    cellsAt k gs (gs.map f) = if k ∈ gs then [f k] else [] := by
  unfold cellsAt
  induction gs with
  | nil => simp
  | cons g gs ih =>
    simp only [List.nodup_cons] at hn
    simp only [List.map_cons, List.zip_cons_cons, List.filter_cons, List.mem_cons]
    have ih := ih hn.2
    by_cases hgk : g = k
    · subst hgk
      rw [if_neg hn.1] at ih
      simp [ih]
    · have : ¬ k = g := fun h => hgk h.symm
      simp [hgk, this, ih]

theorem cellsAt_eq_nil {τ : Type} (k : K) {l : List K} {c : List τ} (h : l.length = c.length) :
    cellsAt k l c = [] ↔ k ∉ l := by
  induction l generalizing c with
  | nil => simp [cellsAt]
  | cons x xs ih =>
    cases c with
    | nil => simp at h
    | cons y ys =>
      have ih := ih (c := ys) (by simpa using h)
      unfold cellsAt at ih ⊢
      simp only [List.zip_cons_cons, List.filter_cons, List.mem_cons, not_or]
      by_cases hx : x = k
      · simp [hx]
      · have : ¬ k = x := fun h => hx h.symm
        simp [hx, this, ← ih]

theorem cellsAt_flatten {τ : Type} (k : K) (ps : List (List K × List τ)) (h : ∀ p ∈ ps, p.1.length = p.2.length) :
    cellsAt k (ps.map (·.1)).flatten (ps.map (·.2)).flatten = (ps.map fun p => cellsAt k p.1 p.2).flatten := by
  induction ps with
  | nil => simp [cellsAt]
  | cons p ps ih =>
    simp only [List.map_cons, List.flatten_cons]
    rw [cellsAt_append k (h p (by simp)), ih (fun q hq => h q (by simp [hq]))]

/-- the partial results of a group: one for each piece in which the group occurs -/
theorem cellsAt_partials (G : Grouping K) {k : K} (hk : G.dropped k = false) (mp : List α → β)
    (ps : List (List K × List α)) (h : ∀ p ∈ ps, p.1.length = p.2.length) :
    cellsAt k (ps.map fun p => G.groups p.1).flatten
        (ps.map fun p => (G.groups p.1).map fun k' => mp (cellsAt k' p.1 p.2)).flatten
      = ((ps.map fun p => cellsAt k p.1 p.2).filter (· ≠ [])).map mp := by
  induction ps with
  | nil => simp [cellsAt]
  | cons p ps ih =>
    simp only [List.map_cons, List.flatten_cons]
    rw [cellsAt_append k (by simp), ih (fun q hq => h q (by simp [hq])), List.filter_cons,
      cellsAt_nodup_map k _ (G.nodup_groups _)]
    have hnil := cellsAt_eq_nil k (h p (by simp)) (c := p.2)
    by_cases hm : k ∈ p.1
    · have h1 : ¬ cellsAt k p.1 p.2 = [] := fun h => hnil.1 h hm
      rw [if_pos (G.mem_groups.2 ⟨hm, hk⟩)]
      simp [h1]
    · rw [if_neg (fun h => hm (G.mem_groups.1 h).1)]
      simp [hnil.2 hm]

omit [DecidableEq K] in
theorem flatten_filter_ne_nil {τ : Type} (ls : List (List τ)) : (ls.filter (· ≠ [])).flatten = ls.flatten := by
  induction ls with
  | nil => rfl
  | cons l ls ih =>
    rw [List.filter_cons]
    by_cases h : l = []
    · simp only [h, ne_eq, not_true_eq_false, decide_false, Bool.false_eq_true, ↓reduceIte, List.flatten_cons, List.nil_append]
      exact ih
    · simp only [ne_eq, h, not_false_eq_true, decide_true, ↓reduceIte, List.flatten_cons]
      rw [← ih]

end cells

/-! ### frames -/

theorem groupByKeys_eq [DecidableEq K] (G : Grouping K) (keys : List K) (h : List α → β) (f : Frame ι κ α) :
    f.groupByKeys G keys h
      = f.mapColumns (fun _ => G.groups keys) (fun c => (G.groups keys).map fun k => h (cellsAt k keys c)) := by
  unfold Frame.groupByKeys Frame.mapColumns
  simp only [Frame.mk.injEq, true_and]
  apply List.ext_getElem
  · simp
  · intro i h1 h2
    simp only [List.length_map] at h1
    simp only [List.getElem_map, List.getElem_range]
    rw [← List.filterMap_eq_map]
    apply filterMap_congr'
    intro c _
    simp [h1]

theorem Frame.withoutCols_ilocRows (p : κ → Bool) (f : Frame ι κ α) (a b : Nat) :
    (f.ilocRows a b).withoutCols p = (f.withoutCols p).ilocRows a b := by
  simp only [Frame.withoutCols, Frame.ilocRows, pySlice_map]

/-- the cells of a row that stay when columns are left out -/
def keepRow (p : κ → Bool) (cs : List κ) (r : List α) : List α := ((cs.zip r).filter (fun x => !p x.1)).map (·.2)

theorem zip_filter_fst (p : κ → Bool) {cs : List κ} {r : List α} (h : r.length = cs.length) :
    ((cs.zip r).filter (fun x => !p x.1)).map (·.1) = cs.filter (fun c => !p c) := by
  have : (fun x : κ × α => !p x.1) = (fun c => !p c) ∘ Prod.fst := rfl
  rw [this, ← List.filter_map, List.map_fst_zip (by omega)]

theorem keepRow_length (p : κ → Bool) {cs : List κ} {r : List α} (h : r.length = cs.length) :
    (keepRow p cs r).length = (cs.filter (fun c => !p c)).length := by
  rw [← zip_filter_fst p h, keepRow, List.length_map, List.length_map]

theorem Frame.WF.withoutCols {f : Frame ι κ α} (hwf : f.WF) (p : κ → Bool) : (f.withoutCols p).WF := by
  constructor
  · simp [Frame.withoutCols, hwf.rows_len]
  · intro r hr
    simp only [Frame.withoutCols, List.mem_map] at hr ⊢
    obtain ⟨r', hr', rfl⟩ := hr
    exact keepRow_length p (hwf.row_width r' hr')

/-- the widths of column bands after leaving out columns -/
def keptWidths (p : κ → Bool) (cw : List Nat) (cs : List κ) : List Nat :=
  (piecesOf cw cs).map fun l => (l.filter (fun c => !p c)).length

theorem keptWidths_length (p : κ → Bool) (cw : List Nat) (cs : List κ) : (keptWidths p cw cs).length = cw.length := by
  simp [keptWidths, piecesOf, sliceBounds_length]

theorem filter_piece {τ : Type} (q : τ → Bool) {cw : List Nat} {zs : List τ} (h : cw.sum = zs.length) {lens : List Nat}
    (hlens : lens = (piecesOf cw zs).map fun l => (l.filter q).length) (k : Nat) (hk : k < (sliceBounds cw).length)
    (hk' : k < (sliceBounds lens).length) :
    pySlice (zs.filter q) (sliceBounds lens)[k].1 (sliceBounds lens)[k].2
      = (pySlice zs (sliceBounds cw)[k].1 (sliceBounds cw)[k].2).filter q := by
  have := sliceBounds_flatten_self_get ((piecesOf cw zs).map (·.filter q)) lens
    (by rw [hlens, List.map_map]; rfl) k hk' (by simpa [piecesOf] using hk)
  rw [← List.filter_flatten, piecesOf_flatten h] at this
  rw [this]
  simp [piecesOf]

theorem Frame.WF.withoutCols_ilocCols {f : Frame ι κ α} (hwf : f.WF) (p : κ → Bool) {cw : List Nat}
    (h : cw.sum = f.ncols) (k : Nat) (hk : k < (sliceBounds cw).length)
    (hk' : k < (sliceBounds (keptWidths p cw f.columns)).length) :
    (f.ilocCols (sliceBounds cw)[k].1 (sliceBounds cw)[k].2).withoutCols p
      = (f.withoutCols p).ilocCols (sliceBounds (keptWidths p cw f.columns))[k].1
          (sliceBounds (keptWidths p cw f.columns))[k].2 := by
  simp only [Frame.withoutCols, Frame.ilocCols, Frame.mk.injEq, true_and, List.map_map]
  refine ⟨(filter_piece _ h rfl k hk hk').symm, ?_⟩
  apply List.map_congr_left
  intro r hr
  simp only [Function.comp_def]
  have hl := hwf.row_width r hr
  rw [pySlice_map]
  have hz : cw.sum = (f.columns.zip r).length := by
    rw [h, List.length_zip, hl, Frame.ncols]; simp
  rw [filter_piece (fun x : κ × α => !p x.1) hz ?_ k hk hk']
  · congr 2
    simp only [List.zip, pySlice_zipWith]
  · unfold keptWidths piecesOf
    rw [List.map_map, List.map_map]
    apply List.map_congr_left
    intro q _
    simp only [Function.comp_def]
    have hs : pySlice (f.columns.zip r) q.1 q.2 = (pySlice f.columns q.1 q.2).zip (pySlice r q.1 q.2) := by
      simp only [List.zip, pySlice_zipWith]
    rw [hs, ← List.length_map (f := Prod.fst) (as := List.filter _ _), zip_filter_fst]
    simp [hl]

theorem cut_withoutCols {f : Frame ι κ α} (hwf : f.WF) (p : κ → Bool) {rl cw : List Nat} (h : f.IsCut rl cw) (q : Nat × Nat) :
    (sliceBounds cw).map (fun c => ((f.ilocRows q.1 q.2).ilocCols c.1 c.2).withoutCols p)
      = (sliceBounds (keptWidths p cw f.columns)).map fun c => ((f.withoutCols p).ilocRows q.1 q.2).ilocCols c.1 c.2 := by
  rw [← Frame.withoutCols_ilocRows]
  apply List.ext_getElem
  · simp [sliceBounds_length, keptWidths_length]
  · intro k h1 h2
    simp only [List.length_map] at h1 h2
    simp only [List.getElem_map]
    exact (hwf.ilocRows _ _).withoutCols_ilocCols p h.cw_sum k h1 h2

theorem withoutCols_isCut {f : Frame ι κ α} (p : κ → Bool) {rl cw : List Nat} (h : f.IsCut rl cw) :
    (f.withoutCols p).IsCut rl (keptWidths p cw f.columns) := by
  refine ⟨h.rl_ne, ?_, h.rl_sum, ?_⟩
  · intro h0
    have := keptWidths_length p cw f.columns
    rw [h0] at this
    exact h.cw_ne (List.length_eq_zero_iff.1 this.symm)
  · unfold keptWidths
    have hf := piecesOf_flatten (c := f.columns) h.cw_sum
    show _ = (f.columns.filter _).length
    conv => rhs; rw [← hf, List.filter_flatten, List.length_flatten, List.map_map]
    rfl

/-! ### the map phase -/

/-- the frame of all block results, when what is done to a block depends on its row band -/
def mappedB (labs : Nat × Nat → List ι') (mapc : Nat × Nat → List α → List β) (rl : List Nat) (df : Frame ι κ α) :
    Frame ι' κ β :=
  { index := ((sliceBounds rl).map labs).flatten, columns := df.columns,
    rows := ((sliceBounds rl).map fun p => ((df.ilocRows p.1 p.2).mapColumns (fun _ => labs p) (mapc p)).rows).flatten }

theorem mappedB_spec {df : Frame ι κ α} (hwf : df.WF) {rl cw : List Nat}
    (labs : Nat × Nat → List ι') (mapc : Nat × Nat → List α → List β) (hl : ∀ p c, (mapc p c).length = (labs p).length) :
    (mappedB labs mapc rl df).WF ∧
    ((sliceBounds rl).map fun p => (sliceBounds cw).map fun q =>
        ((df.ilocRows p.1 p.2).ilocCols q.1 q.2).mapColumns (fun _ => labs p) (mapc p))
      = (mappedB labs mapc rl df).cut ((sliceBounds rl).map fun p => (labs p).length) cw ∧
    ∀ j, j < df.ncols → (mappedB labs mapc rl df).column j
      = ((sliceBounds rl).map fun p => mapc p (pySlice (df.column j) p.1 p.2)).flatten := by
  let bs := (sliceBounds rl).map fun p => (df.ilocRows p.1 p.2).mapColumns (fun _ => labs p) (mapc p)
  have hbwf : ∀ x ∈ bs, x.WF := by
    intro x hx
    simp only [bs, List.mem_map] at hx
    obtain ⟨p, _, rfl⟩ := hx
    exact (hwf.ilocRows _ _).mapColumns _ _ (fun _ c _ => hl p c)
  have hbc : ∀ x ∈ bs, x.columns = df.columns := by
    intro x hx
    simp only [bs, List.mem_map] at hx
    obtain ⟨p, _, rfl⟩ := hx
    rfl
  have hM : mappedB labs mapc rl df
      = { index := (bs.map (·.index)).flatten, columns := df.columns, rows := (bs.map (·.rows)).flatten } := by
    unfold mappedB
    simp only [bs, List.map_map, Function.comp_def]
    rfl
  have hn : bs.map (·.nrows) = (sliceBounds rl).map fun p => (labs p).length := by
    simp only [bs, List.map_map, Function.comp_def]
    rfl
  have hsplit := vcat_split_self bs df.columns hbc hbwf
  rw [← hM, hn] at hsplit
  refine ⟨?_, ?_, ?_⟩
  · rw [hM]
    constructor
    · simp only [List.length_flatten, List.map_map]
      congr 1
      apply List.map_congr_left
      intro x hx
      exact (hbwf x hx).rows_len
    · intro r hr
      simp only [List.mem_flatten, List.mem_map] at hr
      obtain ⟨_, ⟨x, hx, rfl⟩, hr⟩ := hr
      rw [(hbwf x hx).row_width r hr, hbc x hx]
  · have hcutM : (mappedB labs mapc rl df).cut ((sliceBounds rl).map fun p => (labs p).length) cw
        = bs.map fun b => (sliceBounds cw).map fun q => b.ilocCols q.1 q.2 := by
      unfold Frame.cut
      conv => rhs; rw [← hsplit, List.map_map]
      rfl
    rw [hcutM]
    simp only [bs, List.map_map]
    apply List.map_congr_left
    intro p _
    simp only [Function.comp_def]
    apply List.map_congr_left
    intro q _
    exact (hwf.ilocRows _ _).mapColumns_ilocCols _ _ (fun _ c _ => hl p c) _ _
  · intro j hj
    rw [hM]
    unfold Frame.column
    rw [filterMap_flatten', List.map_map]
    simp only [bs, List.map_map]
    congr 1
    apply List.map_congr_left
    intro p _
    simp only [Function.comp_def]
    show ((df.ilocRows p.1 p.2).mapColumns (fun _ => labs p) (mapc p)).column j = _
    rw [(hwf.ilocRows _ _).column_mapColumns _ _ (fun c _ => hl p c) hj, hwf.column_ilocRows hj]
    rfl

theorem valueCols_cut [DecidableEq κ] {f : Frame ι κ α} (hwf : f.WF) (drop : Bool) (byCols : List κ) {rl cw : List Nat}
    (h : f.IsCut rl cw) :
    (valueCols drop byCols f).WF ∧ ∃ cw', (valueCols drop byCols f).IsCut rl cw' ∧ ∀ q : Nat × Nat,
      (sliceBounds cw).map (fun c => valueCols drop byCols ((f.ilocRows q.1 q.2).ilocCols c.1 c.2))
      = (sliceBounds cw').map fun c => ((valueCols drop byCols f).ilocRows q.1 q.2).ilocCols c.1 c.2 := by
  unfold valueCols
  cases drop with
  | false => exact ⟨hwf, cw, h, fun _ => rfl⟩
  | true => exact ⟨hwf.withoutCols _, _, withoutCols_isCut _ h, cut_withoutCols hwf _ h⟩

theorem columnLocal_groupbyRed [DecidableEq K] (G : Grouping K) (r : List β → γ) :
    ColumnLocal (fun f : Frame K κ β => groupbyRed G r f) := by
  have heq : (fun f : Frame K κ β => groupbyRed G r f)
      = fun f => f.mapColumns G.groups (fun c => (G.groups f.index).map fun k => r (cellsAt k f.index c)) := by
    funext f
    exact groupByKeys_eq G f.index r f
  rw [heq]
  have hconst : ∀ idx₀ : List K, ColumnLocal (fun f : Frame K κ β => f.mapColumns (fun _ => G.groups idx₀)
      (fun c => (G.groups idx₀).map fun k => r (cellsAt k idx₀ c))) :=
    fun idx₀ => columnLocal_mapColumns (fun _ => G.groups idx₀) _ (fun _ _ _ => by simp)
  refine ⟨fun f hwf => (hconst f.index).1 f hwf, ?_⟩
  intro fs f hwf hcat
  have := (hconst f.index).2 fs f hwf hcat
  refine Eq.trans ?_ this
  congr 1
  apply List.map_congr_left
  intro x hx
  show x.mapColumns G.groups _ = _
  simp only [Frame.mapColumns, (Frame.hcat_index hcat).2 x hx]

/-- the reduce phase on the stacked results of the map phase -/
theorem groupbyRed_mapped [DecidableEq K] (G : Grouping K) (hG : G.Ordered) {df : Frame ι κ α} (hwf : df.WF)
    {rl : List Nat} (hrl : rl.sum = df.nrows) {keys : List K} (hkeys : keys.length = df.nrows)
    (op : TreeOp α β γ) (h : List α → γ)
    (hlaw : ∀ bs : List (List α), bs ≠ [] → (∀ b ∈ bs, b ≠ []) → op.reduce (bs.map op.map) = h bs.flatten) :
    groupbyRed G op.reduce (mappedB (fun p => G.groups (pySlice keys p.1 p.2))
        (fun p c => (G.groups (pySlice keys p.1 p.2)).map fun k => op.map (cellsAt k (pySlice keys p.1 p.2) c)) rl df)
      = df.groupByKeys G keys h := by
  obtain ⟨h1, -, h3⟩ := mappedB_spec (cw := []) (rl := rl) hwf (fun p => G.groups (pySlice keys p.1 p.2))
    (fun p c => (G.groups (pySlice keys p.1 p.2)).map fun k => op.map (cellsAt k (pySlice keys p.1 p.2) c)) (by simp)
  have hidx : G.groups (mappedB (fun p => G.groups (pySlice keys p.1 p.2))
        (fun p c => (G.groups (pySlice keys p.1 p.2)).map fun k => op.map (cellsAt k (pySlice keys p.1 p.2) c)) rl df).index
      = G.groups keys := by
    show G.groups ((sliceBounds rl).map fun p => G.groups (pySlice keys p.1 p.2)).flatten = _
    have := G.groups_flatten hG (piecesOf rl keys)
    rw [piecesOf_flatten (by rw [hkeys, hrl])] at this
    rw [← this]
    unfold piecesOf
    rw [List.map_map]
    rfl
  unfold groupbyRed Frame.groupByKeys
  rw [hidx]
  simp only [Frame.mk.injEq, true_and]
  refine ⟨rfl, ?_⟩
  apply List.map_congr_left
  intro k hk
  obtain ⟨hkk, hkd⟩ := G.mem_groups.1 hk
  unfold Frame.cols
  rw [List.map_map, List.map_map]
  apply List.map_congr_left
  intro j hj
  have hj : j < df.ncols := List.mem_range.1 hj
  simp only [Function.comp_def]
  rw [h3 j hj]
  have hlen := hwf.column_length hj
  let ps := (sliceBounds rl).map fun p => (pySlice keys p.1 p.2, pySlice (df.column j) p.1 p.2)
  have hps : ∀ p ∈ ps, p.1.length = p.2.length := by
    intro p hp
    simp only [ps, List.mem_map] at hp
    obtain ⟨q, _, rfl⟩ := hp
    simp [hkeys, hlen]
  have hpart := cellsAt_partials G hkd op.map ps hps
  have hflat := cellsAt_flatten k ps hps
  have e1 : (ps.map (·.1)).flatten = keys := by
    simp only [ps, List.map_map]
    exact piecesOf_flatten (by rw [hkeys, hrl])
  have e2 : (ps.map (·.2)).flatten = df.column j := by
    simp only [ps, List.map_map]
    exact piecesOf_flatten (by rw [hlen, hrl])
  rw [e1, e2] at hflat
  have hne : (ps.map fun p => cellsAt k p.1 p.2).filter (· ≠ []) ≠ [] := by
    intro h0
    have := flatten_filter_ne_nil (ps.map fun p => cellsAt k p.1 p.2)
    rw [h0, ← hflat] at this
    exact (cellsAt_eq_nil k (by rw [hkeys, hlen])).1 this.symm hkk
  have := hlaw _ hne (by intro b hb; simpa using (List.mem_filter.1 hb).2)
  rw [flatten_filter_ne_nil, ← hflat] at this
  rw [← this, ← hpart]
  simp only [ps, List.map_map, mappedB, Function.comp_def]

/-- the map phase gives the blocks of a frame, which the reduce function, applied to the whole of it, turns into the result -/
theorem groupbyMapped_spec [DecidableEq ι] [DecidableEq κ] [DecidableEq α] 
    (G : Grouping (List α)) (hG : G.Ordered) {m by' : MFrame ι κ α} {df bdf : Frame ι κ α}
    (hm : m.Represents df) (hb : by'.Represents bdf) (hidx : bdf.index = df.index)
    (hlens : by'.getRowLens = m.getRowLens) (na : α) (drop : Bool) (op : TreeOp α β γ) (h : List α → γ)
    (hlaw : ∀ bs : List (List α), bs ≠ [] → (∀ b ∈ bs, b ≠ []) → op.reduce (bs.map op.map) = h bs.flatten) :
    ∃ M rl' cw', M.WF ∧ M.IsCut rl' cw' ∧ by'.parts.length = m.parts.length ∧ 1 ≤ m.parts.length ∧
      broadcastApply0 (groupbyMap G op.map na drop) m.parts by'.parts = some (M.cut rl' cw') ∧
      groupbyRed G op.reduce M = (valueCols drop bdf.columns df).groupByKeys G bdf.rows h := by
  obtain ⟨rl, cw, hcut, hparts, hrl, hcw⟩ := hm.blocks
  obtain ⟨rlb, cwb, hcutb, hpartsb, hrlb, hcwb⟩ := hb.blocks
  rw [getRowLens_cut hcut hparts hrl, getRowLens_cut hcutb hpartsb hrlb] at hlens
  subst hlens
  obtain ⟨hVwf, cw', hVcut, hVb⟩ := valueCols_cut hm.wf drop bdf.columns hcut
  have hkeys : bdf.rows.length = (valueCols drop bdf.columns df).nrows := by
    rw [hb.wf.rows_len, hidx]
    unfold valueCols
    cases drop <;> rfl
  have hcount : by'.parts.length = m.parts.length := by
    rw [hparts, hpartsb]
    simp [Frame.cut]
  obtain ⟨h1, h2, -⟩ := mappedB_spec (cw := cw') (rl := rlb) hVwf (fun p => G.groups (pySlice bdf.rows p.1 p.2))
    (fun p c => (G.groups (pySlice bdf.rows p.1 p.2)).map fun k => op.map (cellsAt k (pySlice bdf.rows p.1 p.2) c)) (by simp)
  have hmap : broadcastApply0 (groupbyMap G op.map na drop) m.parts by'.parts
      = some ((mappedB (fun p => G.groups (pySlice bdf.rows p.1 p.2))
    (fun p c => (G.groups (pySlice bdf.rows p.1 p.2)).map fun k => op.map (cellsAt k (pySlice bdf.rows p.1 p.2) c))
      rlb (valueCols drop bdf.columns df)).cut ((sliceBounds rlb).map fun p => (G.groups (pySlice bdf.rows p.1 p.2)).length) cw') := by
    rw [← h2, hparts, hpartsb]
    unfold broadcastApply0 Frame.cut
    rw [List.zip_map']
    apply mapM_map_some
    intro p _
    have hc : Frame.hcat ((sliceBounds cwb).map fun q => (bdf.ilocRows p.1 p.2).ilocCols q.1 q.2)
        = some (bdf.ilocRows p.1 p.2) :=
      Frame.hcat_ilocCols (hb.wf.ilocRows _ _) (sliceBounds_ne_nil hcutb.cw_ne)
        (by rw [show (bdf.ilocRows p.1 p.2).ncols = bdf.ncols from rfl, ← hcutb.cw_sum]; exact covers_lens cwb)
    simp only [hc, Option.bind_some]
    have hF : ∀ q : Nat × Nat, groupbyMap G op.map na drop ((df.ilocRows p.1 p.2).ilocCols q.1 q.2) (bdf.ilocRows p.1 p.2)
        = some ((valueCols drop bdf.columns ((df.ilocRows p.1 p.2).ilocCols q.1 q.2)).groupByKeys G (pySlice bdf.rows p.1 p.2) op.map) := by
      intro q
      have hi : (bdf.ilocRows p.1 p.2).index = ((df.ilocRows p.1 p.2).ilocCols q.1 q.2).index := by
        show pySlice bdf.index _ _ = pySlice df.index _ _
        rw [hidx]
      unfold groupbyMap blockKeys keysByLabel
      rw [hi]
      cases drop <;> simp <;> rfl
    rw [mapM_map_some _ _ _ _ (fun q _ => hF q)]
    have := congrArg (List.map fun b => b.groupByKeys G (pySlice bdf.rows p.1 p.2) op.map) (hVb p)
    rw [List.map_map, List.map_map] at this
    refine congrArg some (Eq.trans this ?_)
    apply List.map_congr_left
    intro q _
    exact groupByKeys_eq _ _ _ _
  have hMcut : (mappedB (fun p => G.groups (pySlice bdf.rows p.1 p.2))
      (fun p c => (G.groups (pySlice bdf.rows p.1 p.2)).map fun k => op.map (cellsAt k (pySlice bdf.rows p.1 p.2) c))
      rlb (valueCols drop bdf.columns df)).IsCut
      ((sliceBounds rlb).map fun p => (G.groups (pySlice bdf.rows p.1 p.2)).length) cw' := by
    refine ⟨?_, hVcut.cw_ne, ?_, hVcut.cw_sum⟩
    · intro h0
      exact sliceBounds_ne_nil hcutb.rl_ne (List.map_eq_nil_iff.1 h0)
    · show _ = (List.flatten _).length
      rw [List.length_flatten, List.map_map]
      rfl
  have hne : 1 ≤ m.parts.length := by
    rw [hparts]
    have := hcutb.rl_ne
    simp only [Frame.cut, List.length_map, sliceBounds_length]
    cases rlb with
    | nil => exact absurd rfl this
    | cons a l => simp
  exact ⟨_, _, _, h1, hMcut, hcount, hne, hmap, groupbyRed_mapped G hG hVwf hVcut.rl_sum hkeys op h hlaw⟩

theorem groupbyReduce_spec [DecidableEq ι] [DecidableEq κ] [DecidableEq α] (cfg : Cfg) (hp : 1 ≤ cfg.nPartitions)
    (hr : 1 ≤ cfg.minRow) (G : Grouping (List α)) (hG : G.Ordered) {m by' : MFrame ι κ α} {df bdf : Frame ι κ α}
    (hm : m.Represents df) (hb : by'.Represents bdf) (hidx : bdf.index = df.index)
    (hlens : by'.getRowLens = m.getRowLens) (na : α) (drop : Bool) (op : TreeOp α β γ) (h : List α → γ)
    (hlaw : ∀ bs : List (List α), bs ≠ [] → (∀ b ∈ bs, b ≠ []) → op.reduce (bs.map op.map) = h bs.flatten) :
    ∃ m', groupbyReduce cfg G op.map op.reduce na drop m by' = some m' ∧
      m'.Represents ((valueCols drop bdf.columns df).groupByKeys G bdf.rows h) := by
  obtain ⟨M, rl', cw', h1, hMcut, hcount, hne, hmap, hR⟩ := groupbyMapped_spec G hG hm hb hidx hlens na drop op h hlaw
  unfold groupbyReduce
  simp only [hcount, ne_eq, not_true_eq_false, ↓reduceIte]
  rw [hmap, Option.bind_some]
  have hF := columnLocal_groupbyRed (κ := κ) G op.reduce
  obtain ⟨lens, ⟨h4, h5, _, _, _⟩, h7⟩ := mapAxis_rows_cut' cfg hp hr hF h1 hMcut false
    (some (min m.parts.length cfg.nPartitions)) (by intro n hn; simp only [Option.some.injEq] at hn; omega)
    none (by simp) (by simp)
  rw [h7, Option.bind_some]
  have hRwf : ((valueCols drop bdf.columns df).groupByKeys G bdf.rows h).WF := by
    rw [← hR]; exact hF.1 _ h1
  have hcols : ((valueCols drop bdf.columns df).groupByKeys G bdf.rows h).ncols = M.ncols := by
    rw [← hR]; rfl
  rw [hR] at h5
  apply represents_mk'
  refine ⟨hRwf, ⟨lens, cw', ⟨h4, hMcut.cw_ne, h5, by rw [hMcut.cw_sum, hcols]⟩, ?_, Or.inl rfl, Or.inl rfl⟩, Or.inl rfl, Or.inl rfl⟩
  unfold Frame.cut
  apply List.map_congr_left
  intro p _
  apply List.map_congr_left
  intro q _
  rw [← Frame.ilocCols_ilocRows, ← hR]
  congr 1
  unfold groupbyRed
  rw [groupByKeys_eq, groupByKeys_eq]
  exact h1.mapColumns_ilocCols _ _ (fun _ _ _ => by simp [Frame.ilocCols]) _ _

/-! ### the order of keys -/

theorem cellLe_total (a b : Option Int) : cellLe a b ∨ cellLe b a := by
  cases a <;> cases b <;> simp [cellLe]
  omega

theorem cellLe_trans {a b c : Option Int} (h1 : cellLe a b) (h2 : cellLe b c) : cellLe a c := by
  cases a <;> cases b <;> cases c <;> simp_all [cellLe]
  omega

theorem cellLe_antisymm {a b : Option Int} (h1 : cellLe a b) (h2 : cellLe b a) : a = b := by
  cases a <;> cases b <;> simp_all [cellLe]
  omega

theorem keyLe_total (a b : List (Option Int)) : keyLe a b ∨ keyLe b a := by
  induction a generalizing b with
  | nil => simp [keyLe]
  | cons x xs ih =>
    cases b with
    | nil => simp [keyLe]
    | cons y ys =>
      unfold keyLe
      by_cases h : x = y
      · simp [h, ih]
      · have : ¬ y = x := fun e => h e.symm
        simp [h, this, cellLe_total]

theorem keyLe_antisymm (a b : List (Option Int)) (h1 : keyLe a b) (h2 : keyLe b a) : a = b := by
  induction a generalizing b with
  | nil => cases b with
    | nil => rfl
    | cons y ys => simp [keyLe] at h2
  | cons x xs ih =>
    cases b with
    | nil => simp [keyLe] at h1
    | cons y ys =>
      unfold keyLe at h1 h2
      by_cases h : x = y
      · subst h
        simp only [↓reduceIte] at h1 h2
        rw [ih ys h1 h2]
      · have h' : ¬ y = x := fun e => h e.symm
        simp only [h, h', ↓reduceIte] at h1 h2
        exact absurd (cellLe_antisymm h1 h2) h

theorem keyLe_trans (a b c : List (Option Int)) (h1 : keyLe a b) (h2 : keyLe b c) : keyLe a c := by
  induction a generalizing b c with
  | nil => simp [keyLe]
  | cons x xs ih =>
    cases b with
    | nil => simp [keyLe] at h1
    | cons y ys =>
      cases c with
      | nil => simp [keyLe] at h2
      | cons z zs =>
        unfold keyLe at h1 h2 ⊢
        by_cases hxy : x = y
        · subst hxy
          by_cases hxz : x = z
          · subst hxz
            simp only [↓reduceIte] at h1 h2 ⊢
            exact ih ys zs h1 h2
          · simp only [hxz, ↓reduceIte] at h1 h2 ⊢
            exact h2
        · by_cases hyz : y = z
          · subst hyz
            simp only [hxy, ↓reduceIte] at h1 h2 ⊢
            exact h1
          · simp only [hxy, hyz, ↓reduceIte] at h1 h2 ⊢
            by_cases hxz : x = z
            · subst hxz
              exact absurd (cellLe_antisymm h1 h2) (by assumption)
            · simp only [hxz, ↓reduceIte]
              exact cellLe_trans h1 h2

theorem pandasGrouping_ordered (sort dropna : Bool) : (pandasGrouping sort dropna).Ordered :=
  ⟨keyLe_trans, keyLe_total, keyLe_antisymm⟩

/-! ### the aggregations -/

theorem minCounted_eq {mc : Nat} (h : mc ≤ 1) : Pandas.minCounted mc = Pandas.min true := by
  funext c
  unfold Pandas.minCounted
  split
  · have : (c.filterMap id) = [] := List.length_eq_zero_iff.1 (by omega)
    simp [Pandas.min, this, Pandas.least]
  · rfl

theorem maxCounted_eq {mc : Nat} (h : mc ≤ 1) : Pandas.maxCounted mc = Pandas.max true := by
  funext c
  unfold Pandas.maxCounted
  split
  · have : (c.filterMap id) = [] := List.length_eq_zero_iff.1 (by omega)
    simp [Pandas.max, this, Pandas.greatest]
  · rfl

theorem gbSize_law (bs : List (List (Option Int))) :
    gbSize.reduce (bs.map gbSize.map) = some (bs.flatten.length : Int) := by
  unfold gbSize Pandas.sum
  simp only [Bool.not_true, Bool.false_and, Bool.false_eq_true, ↓reduceIte, Nat.not_lt_zero, Option.some.injEq]
  rw [filterMap_id_map_some]
  induction bs with
  | nil => rfl
  | cons b bs ih => simp [ih]

theorem gbMean_law (bs : List (List (Option Int))) :
    gbMean.reduce (bs.map gbMean.map) = Pandas.mean true bs.flatten := by
  have h1 := numRed_law0 isum_flatten true bs
  have h2 := countOp_law bs
  simp only [countOp] at h2
  rw [← sum_eq_numRed] at h1
  unfold gbMean
  simp only [List.map_map, Function.comp_def]
  rw [h2]
  have h3 : Pandas.sum true 0 (bs.map fun x => Pandas.sum true 0 x) = Pandas.sum true 0 bs.flatten := h1
  rw [h3]
  simp only [Pandas.sum, Pandas.mean, Pandas.count, Bool.not_true, Bool.false_and, Bool.false_eq_true, ↓reduceIte,
    Nat.not_lt_zero]
  by_cases h : bs.flatten.filterMap id = []
  · simp [h]
  · rw [if_neg (by rw [Int.natCast_eq_zero, List.length_eq_zero_iff]; exact h), if_neg h]
    rfl

/-! ### skew -/

theorem isumBy_flatten {τ σ : Type} (f : σ → Int) (g : τ → List σ) (h : τ → Int)
    (hh : ∀ t, h t = isumBy f (g t)) (bs : List τ) : isumBy h bs = isumBy f (bs.map g).flatten := by
  induction bs with
  | nil => rfl
  | cons b bs ih =>
    unfold isumBy at *
    simp only [List.map_cons, List.sum_cons, ih, hh, List.flatten_cons, List.map_append, List.sum_append]

theorem isumBy_ones {τ : Type} (l : List τ) : isumBy (fun _ => 1) l = (l.length : Int) := by
  unfold isumBy
  induction l with
  | nil => rfl
  | cons x xs ih => simp only [List.map_cons, List.sum_cons, ih, List.length_cons]; omega

theorem qsum_cast {τ : Type} (f : τ → Int) (l : List τ) : Pandas.qsum (l.map fun x => (f x : Rat)) = (isumBy f l : Int) := by
  unfold isumBy
  induction l with
  | nil => rfl
  | cons x xs ih => simp only [List.map_cons, Pandas.qsum, ih, List.sum_cons, Rat.intCast_add]

theorem moment2 (m : Rat) (xs : List Int) :
    Pandas.qsum (xs.map fun x : Int => ((x : Rat) - m) * ((x : Rat) - m))
      = (isumBy (fun x => x * x) xs : Int) - 2 * m * (xs.sum : Int) + (xs.length : Rat) * (m * m) := by
  induction xs with
  | nil => simp [Pandas.qsum, isumBy]; grind
  | cons x xs ih =>
    simp only [List.map_cons, Pandas.qsum, ih, isumBy, List.sum_cons, Rat.intCast_add, Rat.intCast_mul, List.length_cons]
    push_cast
    grind

theorem moment3 (m : Rat) (xs : List Int) :
    Pandas.qsum (xs.map fun x : Int => ((x : Rat) - m) * ((x : Rat) - m) * ((x : Rat) - m))
      = (isumBy (fun x => x * x * x) xs : Int) - 3 * m * (isumBy (fun x => x * x) xs : Int)
        + 3 * (xs.sum : Int) * (m * m) - (xs.length : Rat) * (m * m * m) := by
  induction xs with
  | nil => simp [Pandas.qsum, isumBy]; grind
  | cons x xs ih =>
    simp only [List.map_cons, Pandas.qsum, ih, isumBy, List.sum_cons, Rat.intCast_add, Rat.intCast_mul, List.length_cons]
    push_cast
    grind

theorem gbSkew_law {ρ : Type} (formula : Rat → Rat → Rat → ρ) (zero : ρ) (bs : List (List (Option Int))) :
    (gbSkew formula zero).reduce (bs.map (gbSkew formula zero).map) = Pandas.skew formula zero bs.flatten := by
  have hv : (bs.map (·.filterMap id)).flatten = bs.flatten.filterMap id := (filterMap_flatten' id bs).symm
  have hmap : ∀ f : SkewSums → Int, isumBy f (bs.map (gbSkew formula zero).map)
      = isumBy (fun b => f ((gbSkew formula zero).map b)) bs := by
    intro f; simp [isumBy, List.map_map, Function.comp_def]
  have e0 : isumBy SkewSums.count (bs.map (gbSkew formula zero).map) = ((bs.flatten.filterMap id).length : Int) := by
    rw [hmap, isumBy_flatten (fun _ : Int => 1) (·.filterMap id) _ ?_, hv]
    · exact isumBy_ones _
    · intro b; exact (isumBy_ones _).symm
  have e1 : isumBy SkewSums.s (bs.map (gbSkew formula zero).map) = (bs.flatten.filterMap id).sum := by
    rw [hmap, isumBy_flatten (fun x : Int => x) (·.filterMap id) _ ?_, hv]
    · simp [isumBy]
    · intro b; simp [isumBy, gbSkew]
  have e2 : isumBy SkewSums.s2 (bs.map (gbSkew formula zero).map) = isumBy (fun x => x * x) (bs.flatten.filterMap id) := by
    rw [hmap, isumBy_flatten (fun x : Int => x * x) (·.filterMap id) _ ?_, hv]
    intro b; rfl
  have e3 : isumBy SkewSums.s3 (bs.map (gbSkew formula zero).map) = isumBy (fun x => x * x * x) (bs.flatten.filterMap id) := by
    rw [hmap, isumBy_flatten (fun x : Int => x * x * x) (·.filterMap id) _ ?_, hv]
    intro b; rfl
  unfold Pandas.skew
  have hred : ∀ l, (gbSkew formula zero).reduce l =
     let count : Rat := (isumBy SkewSums.count l : Int)
     let s : Rat := (isumBy SkewSums.s l : Int)
     let s2 : Rat := (isumBy SkewSums.s2 l : Int)
     let s3 : Rat := (isumBy SkewSums.s3 l : Int)
     let m := s / count
     let m2 := s2 - 2 * m * s + count * (m * m)
     let m3 := s3 - 3 * m * s2 + 3 * s * (m * m) - count * (m * m * m)
     if count < 3 then none else if m2 = 0 then some zero else some (formula count m2 m3) := fun _ => rfl
  rw [hred, e0, e1, e2, e3]
  generalize bs.flatten.filterMap id = xs
  have hq : Pandas.qsum (xs.map fun v : Int => (v : Rat)) = (xs.sum : Int) := by
    have := qsum_cast (fun x : Int => x) xs
    rw [this]; simp [isumBy]
  simp only [hq, List.length_map, List.map_map, Function.comp_def, moment2, moment3]
  have hlt : ((((xs.length : Nat) : Int) : Rat) < 3) ↔ xs.length < 3 := by
    rw [show (3 : Rat) = ((3 : Int) : Rat) from rfl, Rat.intCast_lt_intCast]; omega
  simp only [hlt]
  rfl
