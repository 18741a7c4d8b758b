import Verif.Model.Dummies
import Verif.Lemmas.Insert
import Verif.Lemmas.Reindex
import Verif.Lemmas.Relabel
import Verif.Lemmas.GroupAgg
import Verif.Lemmas.Dropna
import Verif.Lemmas.Partitions
import Verif.Lemmas.Dtypes
/-
Lemmas on `get_dummies`.
-/

variable {ι ι' κ κ' L α β P : Type}

/-- a function of whole columns that makes any number of columns of each: the new labels are read off the blocks -/
theorem applyFullColumns_widths_shows [DecidableEq ι] [DecidableEq κ] [DecidableEq ι'] [DecidableEq κ'] (cfg : Cfg)
    (hp : 1 ≤ cfg.nPartitions) (hr : 1 ≤ cfg.minRow) {m : LFrame ι κ α} {df : Frame ι κ α} (h : m.Shows df)
    {func : Frame ι κ α → Option (Frame ι' κ' β)} {F : Frame ι κ α → Frame ι' κ' β} (hF : ColumnLocal F)
    (hfunc : ∀ a b, func (df.ilocCols a b) = some (F (df.ilocCols a b))) :
    ∃ m', m.applyFullColumns cfg func (some (F df).index) none = some m' ∧ m'.Shows (F df) := by
  obtain ⟨m1, e1, h1⟩ := synced_spec h
  obtain ⟨rl, cw, hc, hpp, hrl, hcw⟩ := h1.blocks
  obtain ⟨lens, ⟨h2, h3, h4, _, _⟩, h5⟩ := mapAxis_rows_cut' cfg hp hr hF h.wf hc true none (by simp) none (by simp) (by simp)
  rw [← mapAxis_rows_congr cfg h.wf hc true none none hfunc] at h5
  have hwf' := hF.1 df h.wf
  have hcat : Frame.hcat (((sliceBounds cw).map fun q => df.ilocCols q.1 q.2).map F) = some (F df) :=
    hF.2 _ _ (by intro x hx; simp only [List.mem_map] at hx; obtain ⟨q, _, rfl⟩ := hx; exact h.wf.ilocCols _ _)
      (hcat_cols_cut h.wf hc)
  obtain ⟨hne, hidx, hst⟩ := hcat_parts hcat
  have hwfq : ∀ q : Nat × Nat, (F (df.ilocCols q.1 q.2)).WF := fun q => hF.1 _ (h.wf.ilocCols _ _)
  have h6 : ((sliceBounds lens).map fun p => (sliceBounds cw).map fun q => (F (df.ilocCols q.1 q.2)).ilocRows p.1 p.2)
      = (F df).cut lens ((sliceBounds cw).map fun q => (F (df.ilocCols q.1 q.2)).ncols) := by
    have hb := colBlocks_bands (F df).index lens h2 (((sliceBounds cw).map fun q => df.ilocCols q.1 q.2).map F) hne
      (fun R hR => ⟨by
        obtain ⟨b, hb, rfl⟩ := List.mem_map.1 hR
        obtain ⟨q, _, rfl⟩ := List.mem_map.1 hb
        exact hwfq q, hidx R hR⟩)
    rw [colBlocks_matrix _ (sliceBounds lens) (fun R p => R.ilocRows p.1 p.2) hne, ← hst] at hb
    simpa [List.map_map, Function.comp_def] using hb
  rw [h6] at h5
  have hc' : (F df).IsCut lens ((sliceBounds cw).map fun q => (F (df.ilocCols q.1 q.2)).ncols) := by
    have := stackCols_isCut (F df).index lens h2 h3 _ hne
    rw [← hst] at this
    simpa [List.map_map, Function.comp_def] using this
  unfold LFrame.applyFullColumns
  rw [e1, Option.bind_some, hpp, h5, Option.bind_some]
  have hs : LFrame.Shows ⟨⟨(F df).cut lens ((sliceBounds cw).map fun q => (F (df.ilocCols q.1 q.2)).ncols), some (F df).index, none,
      (some (F df).index).bind fun i => m1.rowLens.bind fun l => if i.length = l.sum ∧ l.all (· != 0) then some l else none,
      none⟩, true, false⟩ (F df) := by
    refine ⟨hwf', ⟨F df, lens, _, hwf', rfl, rfl, hc', rfl, ?_, Or.inl rfl, fun _ => rfl, fun _ => rfl⟩, Or.inr rfl, Or.inl ⟨rfl, rfl⟩⟩
    · rcases hrl with e | e
      · left; simp [e]
      · simp only [e, Option.bind_some]
        split
        · rename_i hcond
          right
          rw [deployLens_same rfl (h4 rfl rfl) hcond.1]
        · exact Or.inl rfl
  obtain ⟨r, e3, e4⟩ := mk'_shows hs
  refine ⟨_, ?_, e4⟩
  show (MFrame.mk' ⟨_, _, none, _, none⟩).map _ = _
  rw [e3]
  rfl

/-! ### encoding -/

/-- all columns encoded -/
def Frame.encodedAll (E : Encoder P L α) (b : Frame ι L α) : Frame ι L α :=
  Frame.ofCols b.index (b.named.flatMap (E.encode none))

theorem encode_sized (E : Encoder P L α) {n : Nat} {cs : List (L × List α)} (h : Sized n cs) : Sized n (cs.flatMap (E.encode none)) := by
  intro c hc
  obtain ⟨d, hd, hc⟩ := List.mem_flatMap.1 hc
  obtain ⟨v, _, rfl⟩ := List.mem_map.1 hc
  simpa using h d hd

theorem encodedAll_local [DecidableEq ι] (E : Encoder P L α) : ColumnLocal (Frame.encodedAll (ι := ι) E) := by
  refine ⟨fun f hf => ofCols_wf (encode_sized E (Frame.named_sized hf)), fun fs f hwf h => ?_⟩
  obtain ⟨hne, hidx⟩ := Frame.hcat_index h
  have hn := named_hcat hwf h
  have hmap : fs.map (Frame.encodedAll E) = fs.map fun b => Frame.ofCols f.index (b.named.flatMap (E.encode none)) := by
    apply List.map_congr_left
    intro b hb
    unfold Frame.encodedAll
    rw [hidx b hb]
  rw [hmap, Frame.hcat_eq (r := f.index) (by simpa using hne) (by
    intro x hx
    obtain ⟨b, _, rfl⟩ := List.mem_map.1 hx
    rfl)]
  have := stackCols_ofCols f.index (fun b : Frame ι L α => b.named.flatMap (E.encode none)) fs
  unfold Frame.stackCols at this
  rw [this]
  unfold Frame.encodedAll
  rw [hn, ← List.flatMap_def, List.flatMap_assoc]

theorem chosen_all [DecidableEq L] {cs : List (L × List α)} (h : (cs.map (·.1)).Nodup) :
    (cs.map (·.1)).flatMap (fun c => cs.filter fun p => decide (p.1 = c)) = cs := by
  rw [List.flatMap_map]
  have : cs.flatMap (fun p => cs.filter fun q => decide (q.1 = p.1)) = cs.flatMap fun p => [p] := by
    apply flatMap_congr_mem
    intro p hp
    exact unique_of_nodup h hp
  rw [this]
  induction cs with
  | nil => rfl
  | cons a l ih => simp

/-- a block column all of whose columns are to be encoded -/
theorem dummyBlock_all [DecidableEq L] (E : Encoder P L α) {columns : List L} {b : Frame ι L α} (hwf : b.WF)
    (hn : b.columns.Nodup) (hsub : ∀ c ∈ b.columns, c ∈ columns) : dummyBlock E none columns b = some (b.encodedAll E) := by
  unfold dummyBlock
  by_cases h0 : b.columns = []
  · rw [if_pos h0]
    have hnm : b.named = [] := by
      have := named_labels b
      rw [h0] at this
      simpa using this
    unfold Frame.encodedAll
    rw [hnm]
    conv => lhs; rw [← ofCols_named hwf, hnm]
    rfl
  · rw [if_neg h0]
    have hboth : labelsInBoth b.columns columns = b.columns := by
      unfold labelsInBoth
      rw [List.filter_eq_self.2 (fun c hc => by simpa using hsub c hc), firsts_of_nodup hn]
    rw [hboth]
    unfold Frame.getDummies Encoder.assemble
    rw [if_pos fun c hc => hc]
    have hch : (b.columns.flatMap fun c => b.named.filter fun p => decide (p.1 = c)) = b.named := by
      conv => lhs; rw [← named_labels b]
      exact chosen_all (by rw [named_labels]; exact hn)
    rw [hch, if_pos ⟨rfl, h0⟩, if_pos (by rw [← named_labels b, List.length_map])]
    rfl

theorem ilocCols_sublist (df : Frame ι L α) (a b : Nat) : ((df.ilocCols a b).columns).Sublist df.columns :=
  (List.take_sublist _ _).trans (List.drop_sublist _ _)

theorem dropLabels_named [DecidableEq ι] [DecidableEq L] {df : Frame ι L α} (h : df.WF) (cols : List L) :
    df.dropLabels none (some cols) = Frame.ofCols df.index (df.named.filter fun p => !cols.contains p.1) := by
  have : df.dropLabels none (some cols) = df.withoutCols fun c => cols.contains c := by
    unfold Frame.dropLabels Frame.withoutCols
    have e1 : (fun c : L => notListed (some cols) c) = fun c => !cols.contains c := by
      funext c
      simp [notListed]
    simp only [Frame.mk.injEq]
    refine ⟨List.filter_eq_self.2 fun _ _ => rfl, by rw [← e1], ?_⟩
    rw [show (df.index.zip df.rows).filter (fun p => notListed none p.1) = df.index.zip df.rows from
      List.filter_eq_self.2 fun _ _ => rfl]
    conv => rhs; rw [← List.map_snd_zip (l₁ := df.index) (l₂ := df.rows) (by rw [h.rows_len]; exact Nat.le_refl _)]
    rw [List.map_map]
    apply List.map_congr_left
    intro p _
    simp only [Function.comp]
    congr 1
    apply List.filter_congr
    intro q _
    exact congrFun e1 q.1
  rw [this]
  conv => lhs; rw [← ofCols_named h]
  exact ofCols_withoutCols (Frame.named_sized h) _

theorem takeOrLast_eq [DecidableEq ι] [DecidableEq L] (cfg : Cfg) (known : Nat → Nat → Bool × Bool) {m : LFrame ι L α}
    {df : Frame ι L α} (h : m.Shows df) {labels : List L} (hl : ∀ x ∈ labels, x ∈ df.columns) :
    m.takeColLabelsOrLast cfg known labels = m.takeColLabels cfg known labels := by
  unfold LFrame.takeColLabelsOrLast
  split
  · rename_i e
    rw [h.getColumns, getIndexerFor_present _ _ hl] at e
    cases hq : labels.flatMap (positionsOf df.columns) <;> rw [hq] at e <;> simp at e
  · rfl

theorem taken_named [DecidableEq L] {df : Frame ι L α} (h : df.WF) (cols : List L) :
    (df.takeCols (cols.flatMap (positionsOf df.columns))).named = cols.flatMap fun c => df.named.filter fun p => decide (p.1 = c) := by
  rw [named_takeCols h]
  induction cols with
  | nil => rfl
  | cons c cs ih =>
    rw [List.flatMap_cons, List.flatMap_cons, ← ih]
    have := takeList_positions (fun p : L × List α => p.1) df.named c
    rw [named_labels] at this
    rw [← this]
    simp [takeList]

theorem chosen_labels [DecidableEq L] {cs : List (L × List α)} (hn : (cs.map (·.1)).Nodup) {cols : List L}
    (hsub : ∀ c ∈ cols, c ∈ cs.map (·.1)) :
    (cols.flatMap fun c => cs.filter fun p => decide (p.1 = c)).map (·.1) = cols := by
  induction cols with
  | nil => rfl
  | cons c l ih =>
    rw [List.flatMap_cons, List.map_append, ih fun x hx => hsub x (List.mem_cons_of_mem _ hx)]
    obtain ⟨p, hp, rfl⟩ := List.mem_map.1 (hsub c (by simp))
    rw [unique_of_nodup hn hp]
    rfl

theorem kept_empty [DecidableEq L] {df : Frame ι L α} {cols : List L} (hall : ∀ c ∈ df.columns, c ∈ cols) :
    (df.named.filter fun p => !cols.contains p.1) = [] := by
  rw [List.filter_eq_nil_iff]
  intro p hp
  have : p.1 ∈ df.columns := by rw [← named_labels df]; exact List.mem_map_of_mem hp
  simpa using hall _ this

/-- pandas' result for columns that are all there -/
theorem getDummies_eq [DecidableEq L] (E : Encoder P L α) {df : Frame ι L α} {cols : List L} (hn : df.columns.Nodup)
    (hne : df.columns ≠ []) (hc : cols.Nodup) (hsub : ∀ c ∈ cols, c ∈ df.columns) :
    df.getDummies E none cols = some (Frame.ofCols df.index ((df.named.filter fun p => !cols.contains p.1) ++
      (cols.flatMap fun c => df.named.filter fun p => decide (p.1 = c)).flatMap (E.encode none))) := by
  unfold Frame.getDummies Encoder.assemble
  rw [if_pos hsub, if_pos ⟨rfl, hne⟩]
  split
  · rename_i hl
    rw [kept_empty]
    · rfl
    · have hlen : cols.length = df.columns.length := by
        have := congrArg List.length (chosen_labels (cs := df.named) (cols := cols) (by rw [named_labels]; exact hn)
          (by rw [named_labels]; exact hsub))
        rw [List.length_map] at this
        omega
      intro c hcm
      exact subset_of_length_le cols df.columns hc hsub (by omega) c hcm
  · rfl

/-- `get_dummies` of listed columns -/
theorem getDummies_shows [DecidableEq L] (cfg : Cfg) (hp : 1 ≤ cfg.nPartitions) (hr : 1 ≤ cfg.minRow) (hc : 1 ≤ cfg.minCol)
    (nan : α) (known : Nat → Nat → Bool × Bool) (knownG : Grid L L α → Bool) (E : Encoder P L α) {m : LFrame L L α}
    {df : Frame L L α} (h : m.Shows df) (hn : df.columns.Nodup) (hne : df.columns ≠ []) {cols : List L} (hcn : cols.Nodup)
    (hsub : ∀ c ∈ cols, c ∈ df.columns) (hall : cols.length = df.columns.length → cols = df.columns) :
    ∃ r m', df.getDummies E none cols = some r ∧ m.getDummies cfg nan known knownG E none cols = some m' ∧ m'.Shows r := by
  suffices hs : ∃ m', m.getDummies cfg nan known knownG E none cols = some m' ∧
      m'.Shows (Frame.ofCols df.index ((df.named.filter fun p => !cols.contains p.1) ++
        (cols.flatMap fun c => df.named.filter fun p => decide (p.1 = c)).flatMap (E.encode none))) by
    obtain ⟨m', a, b⟩ := hs
    exact ⟨_, m', getDummies_eq E hn hne hcn hsub, a, b⟩
  unfold LFrame.getDummies
  rw [h.getColumns, h.getIndex]
  by_cases hl : cols.length = df.columns.length
  · have := hall hl
    subst this
    rw [if_pos rfl]
    obtain ⟨m', e1, e2⟩ := applyFullColumns_widths_shows cfg hp hr h (encodedAll_local (ι := L) E)
      (func := dummyBlock E none df.columns) (by
        intro a b
        exact dummyBlock_all E (h.wf.ilocCols _ _) (List.Nodup.sublist (ilocCols_sublist df a b) hn) fun c hc => (ilocCols_sublist df a b).subset hc)
    refine ⟨m', e1, ?_⟩
    rw [kept_empty (fun c hc => hc), List.nil_append]
    have hch := chosen_all (cs := df.named) (by rw [named_labels]; exact hn)
    rw [named_labels] at hch
    rw [hch]
    exact e2
  · rw [if_neg hl, takeOrLast_eq cfg known h hsub]
    obtain ⟨t, t1, t2⟩ := takeColLabels_shows cfg hp hr hc known h hsub hcn
    have hcolsT : (df.takeCols (cols.flatMap (positionsOf df.columns))).columns = cols := by
      rw [← named_labels, taken_named h.wf]
      exact chosen_labels (by rw [named_labels]; exact hn) (by rw [named_labels]; exact hsub)
    obtain ⟨n, n1, n2⟩ := applyFullColumns_widths_shows cfg hp hr t2 (encodedAll_local (ι := L) E)
      (func := dummyBlock E none cols) (by
        intro a b
        refine dummyBlock_all E (t2.wf.ilocCols _ _) ?_ ?_
        · refine List.Nodup.sublist (ilocCols_sublist _ a b) ?_
          rw [hcolsT]; exact hcn
        · intro c hc
          have := (ilocCols_sublist _ a b).subset hc
          rwa [hcolsT] at this)
    obtain ⟨u, u1, u2⟩ := dropCompiled_shows cfg hp hr hc known h none (some cols)
    rw [dropLabels_named h.wf] at u2
    have hnew : (df.takeCols (cols.flatMap (positionsOf df.columns))).encodedAll E = Frame.ofCols df.index
        ((cols.flatMap fun c => df.named.filter fun p => decide (p.1 = c)).flatMap (E.encode none)) := by
      unfold Frame.encodedAll
      rw [taken_named h.wf]
      rfl
    rw [hnew] at n1 n2
    obtain ⟨r, Bs, r1, r2, r3, r4⟩ := concatFirst_shows cfg hp hr hc nan knownG u2 [(n, _)] (by
      intro e he
      rw [List.mem_singleton] at he
      subst he
      exact n2) (by
      intro e he
      rw [List.mem_singleton] at he
      subst he
      exact Or.inl rfl) (by
      refine Or.inr (Or.inl ?_)
      intro e he
      rw [List.mem_singleton] at he
      subst he
      rfl)
    refine ⟨r, ?_, ?_⟩
    · rw [t1, Option.bind_some]
      have : (Frame.ofCols df.index
        ((cols.flatMap fun c => df.named.filter fun p => decide (p.1 = c)).flatMap (E.encode none))).index = df.index := rfl
      rw [this] at n1
      rw [n1, Option.bind_some, u1, Option.bind_some]
      exact r1
    · match Bs, r2 with
      | [B], _ =>
        obtain ⟨I, i1, i2⟩ := r3 0 _ B rfl rfl
        have hB : B = Frame.ofCols df.index
            ((cols.flatMap fun c => df.named.filter fun p => decide (p.1 = c)).flatMap (E.encode none)) := by
          rw [i2, i1.same rfl]
          exact reindexRows_id n2.wf
        rw [hB] at r4
        have hst := stackCols_ofCols (α := α) df.index (fun x : List (L × List α) => x)
          [df.named.filter fun p => !cols.contains p.1,
            (cols.flatMap fun c => df.named.filter fun p => decide (p.1 = c)).flatMap (E.encode none)]
        simp only [List.map_cons, List.map_nil, List.flatMap_cons, List.flatMap_nil, List.append_nil] at hst
        rw [← hst]
        exact r4

/-! ### without a list of columns -/

theorem zip_unique [DecidableEq L] {τ : Type} {cs : List L} (hn : cs.Nodup) {ks : List τ} {e : L × τ} (he : e ∈ cs.zip ks) :
    (cs.zip ks).filter (fun q => decide (q.1 = e.1)) = [e] := by
  induction cs generalizing ks with
  | nil => simp at he
  | cons c cs ih =>
    cases ks with
    | nil => simp at he
    | cons k ks =>
      rw [List.nodup_cons] at hn
      rw [List.zip_cons_cons, List.filter_cons]
      rw [List.zip_cons_cons] at he
      rcases List.mem_cons.1 he with rfl | he
      · rw [if_pos (by simp), List.filter_eq_nil_iff.2]
        intro q hq
        have := (List.of_mem_zip hq).1
        simp only [decide_eq_true_eq]
        rintro rfl
        exact hn.1 this
      · have := (List.of_mem_zip he).1
        rw [if_neg (by simp only [decide_eq_true_eq]; rintro rfl; exact hn.1 this)]
        exact ih hn.2 he

theorem dummyColumns_eq [DecidableEq L] {kinds : List DummyKind} {cs : List L} (hn : cs.Nodup) (hk : kinds.length = cs.length) :
    dummyColumns kinds cs = ((cs.zip kinds).filter fun e => e.2 != .number).map (·.1) := by
  unfold dummyColumns
  conv => lhs; arg 2; rw [← List.map_fst_zip (l₁ := cs) (l₂ := kinds) (by omega)]
  rw [List.filter_map]
  congr 1
  apply List.filter_congr
  intro e he
  simp only [Function.comp]
  rw [zip_unique hn he]

theorem filter_zip_snd {A B : Type} (p : B → Bool) : ∀ (l : List A) (ks : List B) (f : A → Bool), l.length = ks.length →
    (∀ e ∈ l.zip ks, f e.1 = p e.2) → l.filter f = ((l.zip ks).filter fun e => p e.2).map (·.1)
  | [], _, _, _, _ => by simp
  | a :: l, [], _, h, _ => by simp at h
  | a :: l, k :: ks, f, h, he => by
    rw [List.zip_cons_cons, List.filter_cons, List.filter_cons, he (a, k) (by simp)]
    have ih := filter_zip_snd p l ks f (by simpa using h) fun e hm => he e (by rw [List.zip_cons_cons]; exact List.mem_cons_of_mem _ hm)
    cases hq : p k <;> simp [ih]

/-- the columns of text or categories are those that are not numbers if there are no dates -/
theorem getDummiesDefault_eq [DecidableEq L] (E : Encoder P L α) {df : Frame ι L α} {kinds : List DummyKind}
    (hn : df.columns.Nodup) (hne : df.columns ≠ []) (hk : kinds.length = df.columns.length) (hd : DummyKind.date ∉ kinds) :
    df.getDummiesDefault E none kinds = df.getDummies E none (dummyColumns kinds df.columns) := by
  have henc : ∀ k ∈ kinds, k.encoded = (k != .number) := by
    intro k hk
    cases k with
    | date => exact absurd hk hd
    | _ => rfl
  unfold Frame.getDummiesDefault Frame.getDummies
  have hlab := named_labels df
  generalize df.named = cs at hlab ⊢
  rw [← hlab] at hn hk
  have hzip : (cs.map (·.1)).zip kinds = (cs.zip kinds).map fun e => (e.1.1, e.2) := List.zip_map_left ..
  have hcols : dummyColumns kinds df.columns = ((cs.zip kinds).filter fun e => e.2.encoded).map (·.1.1) := by
    rw [← hlab, dummyColumns_eq hn hk, hzip, List.filter_map, List.map_map]
    refine congrArg (List.map _) (List.filter_congr ?_)
    intro e he
    simp only [Function.comp]
    rw [henc e.2 (List.of_mem_zip he).2]
  rw [hcols]
  have hmem : ∀ e ∈ cs.zip kinds, (((cs.zip kinds).filter fun e => e.2.encoded).map (·.1.1)).contains e.1.1 = e.2.encoded := by
    intro e he
    rw [Bool.eq_iff_iff, List.contains_iff_mem, List.mem_map]
    constructor
    · rintro ⟨e', he', hl⟩
      rw [List.mem_filter] at he'
      have h1 : (e.1.1, e.2) ∈ (cs.map (·.1)).zip kinds := by rw [hzip]; exact List.mem_map_of_mem he
      have h2 : (e'.1.1, e'.2) ∈ (cs.map (·.1)).zip kinds := by rw [hzip]; exact List.mem_map_of_mem he'.1
      have h3 := zip_unique hn h1
      have h4 : (e'.1.1, e'.2) ∈ ((cs.map (·.1)).zip kinds).filter fun q => decide (q.1 = e.1.1) :=
        List.mem_filter.2 ⟨h2, by simpa using hl⟩
      rw [h3, List.mem_singleton, Prod.mk.injEq] at h4
      rw [← h4.2]
      exact he'.2
    · intro hx
      exact ⟨e, List.mem_filter.2 ⟨he, hx⟩, rfl⟩
  rw [if_pos (by
    intro c hc
    obtain ⟨e, he, rfl⟩ := List.mem_map.1 hc
    rw [← hlab]
    exact List.mem_map_of_mem (List.of_mem_zip (List.mem_filter.1 he).1).1)]
  congr 1
  · rw [List.flatMap_map]
    rw [flatMap_congr_mem (g := fun e => [e.1]) (fun e he => unique_of_nodup hn (List.of_mem_zip (List.mem_filter.1 he).1).1)]
    induction (cs.zip kinds).filter fun e => e.2.encoded with
    | nil => rfl
    | cons a l ih => simp [ih]
  · exact (filter_zip_snd (fun k => !k.encoded) cs kinds
      (fun p => !(((cs.zip kinds).filter fun e => e.2.encoded).map (·.1.1)).contains p.1) (by simpa using hk.symm) fun e he =>
      congrArg (!·) (hmem e he)).symm

theorem dummyColumns_sublist [DecidableEq L] (kinds : List DummyKind) (cs : List L) : (dummyColumns kinds cs).Sublist cs :=
  List.filter_sublist

/-- `get_dummies` without a list of columns -/
theorem getDummiesDefault_shows [DecidableEq L] (cfg : Cfg) (hp : 1 ≤ cfg.nPartitions) (hr : 1 ≤ cfg.minRow) (hc : 1 ≤ cfg.minCol)
    (nan : α) (known : Nat → Nat → Bool × Bool) (knownG : Grid L L α → Bool) (E : Encoder P L α) {m : LFrame L L α}
    {df : Frame L L α} (h : m.Shows df) (hn : df.columns.Nodup) (hne : df.columns ≠ []) {kinds : List DummyKind}
    (hk : kinds.length = df.columns.length) (hd : DummyKind.date ∉ kinds) :
    ∃ r m', df.getDummiesDefault E none kinds = some r ∧ m.getDummiesDefault cfg nan known knownG E none kinds = some m' ∧
      m'.Shows r := by
  rw [getDummiesDefault_eq E hn hne hk hd]
  unfold LFrame.getDummiesDefault
  rw [h.getColumns]
  have hs := dummyColumns_sublist kinds df.columns
  by_cases h0 : dummyColumns kinds df.columns = []
  · simp only [h0, ↓reduceIte]
    obtain ⟨m', e1, e2⟩ := copy_shows h
    refine ⟨df, m', ?_, e1, e2⟩
    rw [getDummies_eq E hn hne List.nodup_nil (by simp)]
    have hf : (df.named.filter fun p => !([] : List L).contains p.1) = df.named := List.filter_eq_self.2 fun _ _ => by simp
    rw [hf, List.flatMap_nil, List.flatMap_nil, List.append_nil, ofCols_named h.wf]
  · simp only [h0, ↓reduceIte]
    exact getDummies_shows cfg hp hr hc nan known knownG E h hn hne (List.Nodup.sublist hs hn) (fun c hc => hs.subset hc)
      fun hl => hs.eq_of_length hl
