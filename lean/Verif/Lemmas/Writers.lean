import Verif.Model.Writers
import Verif.Lemmas.Readers
/-
Lemmas about the writers of parquet directories and database tables.
-/

variable {ι κ α : Type}

theorem partName_small {i : Nat} (h : i < 10000) :
    partName i = [i / 1000 % 10, i / 100 % 10, i / 10 % 10, i % 10] := by
  unfold partName
  rw [if_pos h]
  simp [List.range_succ]

theorem partName_lt {i j : Nat} (h : i < j) (hj : j < 10000) : partName i < partName j := by
  rw [partName_small hj, partName_small (by omega)]
  simp only [List.cons_lt_cons_iff, List.not_lt_nil, or_false, and_false]
  rw [show i / 1000 = i / 10 / 10 / 10 by omega, show i / 100 = i / 10 / 10 by omega,
    show j / 1000 = j / 10 / 10 / 10 by omega, show j / 100 = j / 10 / 10 by omega]
  omega

theorem partName_inj {i j : Nat} (hi : i < 10000) (hj : j < 10000) (h : partName i = partName j) : i = j := by
  rw [partName_small hj, partName_small hi] at h
  simp only [List.cons.injEq, and_true] at h
  omega

/-- writing files of different names: what was there under other names stays, the rest is what was written -/
theorem runWrites_eq (ws dir : PqDir ι κ α) (hn : (ws.map (·.1)).Nodup) :
    runWrites dir ws = dir.filter (fun x => decide (x.1 ∉ ws.map (·.1))) ++ ws := by
  induction ws generalizing dir with
  | nil =>
    simp only [runWrites, List.foldl_nil, List.map_nil, List.not_mem_nil, not_false_eq_true, decide_true, List.append_nil]
    exact (List.filter_eq_self.mpr fun _ _ => rfl).symm
  | cons e ws ih =>
    rw [List.map_cons, List.nodup_cons] at hn
    have : runWrites dir (e :: ws) = runWrites (writeFile dir e) ws := rfl
    rw [this, ih _ hn.2, writeFile, List.filter_append, List.filter_filter]
    have h1 : [e].filter (fun x => decide (x.1 ∉ ws.map (·.1))) = [e] := by
      simp only [List.filter_cons, List.filter_nil]
      rw [if_pos (by simpa using hn.1)]
    rw [h1, List.append_assoc, List.singleton_append]
    congr 1
    apply List.filter_congr
    intro x _
    rw [Bool.eq_iff_iff]
    simp only [List.map_cons, List.mem_cons, not_or, ne_eq, Bool.and_eq_true, decide_eq_true_eq]
    exact And.comm

theorem insertByName_perm (e : List Nat × PqFile ι κ α) (l : PqDir ι κ α) : (insertByName e l).Perm (e :: l) := by
  induction l with
  | nil => exact List.Perm.refl _
  | cons x xs ih =>
    unfold insertByName
    split
    · exact List.Perm.refl _
    · exact (List.Perm.cons x ih).trans (List.Perm.swap _ _ _)

theorem sortByName_perm (l : PqDir ι κ α) : (sortByName l).Perm l := by
  induction l with
  | nil => exact List.Perm.refl _
  | cons e l ih => exact (insertByName_perm e _).trans (List.Perm.cons e ih)

theorem insertByName_sorted (e : List Nat × PqFile ι κ α) (l : PqDir ι κ α)
    (h : l.Pairwise fun a b => a.1 ≤ b.1) : (insertByName e l).Pairwise fun a b => a.1 ≤ b.1 := by
  induction l with
  | nil => simp [insertByName]
  | cons x xs ih =>
    rw [List.pairwise_cons] at h
    unfold insertByName
    split
    · rename_i hle
      rw [List.pairwise_cons]
      refine ⟨?_, List.pairwise_cons.mpr h⟩
      intro b hb
      rcases List.mem_cons.mp hb with rfl | hb
      · exact hle
      · exact List.le_trans hle (h.1 b hb)
    · rename_i hle
      rw [List.pairwise_cons]
      refine ⟨?_, ih h.2⟩
      intro b hb
      have := (insertByName_perm e xs).subset hb
      rcases List.mem_cons.mp this with rfl | hb'
      · rcases List.le_total x.1 b.1 with h' | h'
        · exact h'
        · exact absurd h' hle
      · exact h.1 b hb'

theorem sortByName_sorted (l : PqDir ι κ α) : (sortByName l).Pairwise fun a b => a.1 ≤ b.1 := by
  induction l with
  | nil => exact List.Pairwise.nil
  | cons e l ih => exact insertByName_sorted e _ ih

theorem sortByName_unique {l l' : PqDir ι κ α} (hs : l.Pairwise fun a b => a.1 < b.1) (hp : l'.Perm l) :
    sortByName l' = l := by
  have hp' := (sortByName_perm l').trans hp
  refine hp'.eq_of_pairwise (le := fun a b => a.1 ≤ b.1) ?_ (sortByName_sorted l') (hs.imp fun h => List.le_of_lt h)
  intro a b ha hb h1 h2
  have hab : a.1 = b.1 := List.le_antisymm h1 h2
  have ha' := hp'.subset ha
  obtain ⟨i, hi, rfl⟩ := List.getElem_of_mem ha'
  obtain ⟨j, hj, rfl⟩ := List.getElem_of_mem hb
  rw [List.pairwise_iff_getElem] at hs
  rcases Nat.lt_trichotomy i j with h | h | h
  · have := hs i j hi hj h
    rw [hab] at this
    exact absurd this (List.lt_irrefl _)
  · subst h; rfl
  · have := hs j i hj hi h
    rw [hab] at this
    exact absurd this (List.lt_irrefl _)

theorem lookup_zip_self [DecidableEq κ] (nan : α) (cols : List κ) (hn : cols.Nodup) (row : List α)
    (hl : row.length = cols.length) : (cols.map fun k => ((cols.zip row).lookup k).getD nan) = row := by
  induction cols generalizing row with
  | nil => simp at hl; subst hl; rfl
  | cons c cols ih =>
    cases row with
    | nil => simp at hl
    | cons x xs =>
      rw [List.nodup_cons] at hn
      simp only [List.length_cons, Nat.add_right_cancel_iff] at hl
      simp only [List.map_cons, List.zip_cons_cons, List.lookup_cons, beq_self_eq_true]
      congr 1
      have := ih hn.2 xs hl
      conv => rhs; rw [← this]
      apply List.map_congr_left
      intro k hk
      have : (k == c) = false := by
        simp only [beq_eq_false_iff_ne]
        rintro rfl
        exact hn.1 hk
      rw [this]

theorem mapM_hcat_cut [DecidableEq ι] {df : Frame ι κ α} (hwf : df.WF) {rl cw : List Nat} (hc : df.IsCut rl cw) :
    (df.cut rl cw).mapM Frame.hcat = some (bandsOf rl df) := by
  unfold Frame.cut bandsOf
  apply mapM_map_some
  intro p _
  have := Frame.hcat_ilocRows (hcat_cols_cut hwf hc) p.1 p.2
  rw [List.map_map] at this
  simpa only [Function.comp_def, Frame.ilocCols_ilocRows] using this

theorem zipWith_flatten {β γ δ : Type} (f : β → γ → δ) (as : List (List β)) (bs : List (List γ))
    (h : as.map List.length = bs.map List.length) :
    List.zipWith f as.flatten bs.flatten = (List.zipWith (fun a b => List.zipWith f a b) as bs).flatten := by
  induction as generalizing bs with
  | nil =>
    cases bs with
    | nil => rfl
    | cons _ _ => simp at h
  | cons a as ih =>
    cases bs with
    | nil => simp at h
    | cons b bs =>
      simp only [List.map_cons, List.cons.injEq] at h
      rw [List.flatten_cons, List.flatten_cons, List.zipWith_append h.1, ih bs h.2]
      rfl

theorem zipWith_map_same {β γ δ ε : Type} (f : γ → δ → ε) (g : β → γ) (h : β → δ) (l : List β) :
    List.zipWith f (l.map g) (l.map h) = l.map fun x => f (g x) (h x) := by
  induction l with
  | nil => rfl
  | cons x xs ih => simp [ih]

theorem bands_stored [DecidableEq κ] (nan : α) {df : Frame ι κ α} (hwf : df.WF) {rl cw : List Nat} (hc : df.IsCut rl cw) :
    ((bandsOf rl df).map fun b => List.zipWith (storedRow nan b.columns) b.index b.rows).flatten =
      List.zipWith (storedRow nan df.columns) df.index df.rows := by
  have h1 : ((bandsOf rl df).map (·.index)).flatten = df.index := by
    have := covers_lens rl df.index hc.rl_sum.symm
    simpa [bandsOf, List.map_map, Function.comp_def, Frame.ilocRows] using this
  have h2 := bandsOf_rows hwf hc
  have h3 : ((bandsOf rl df).map (·.index)).map List.length = ((bandsOf rl df).map (·.rows)).map List.length := by
    rw [List.map_map, List.map_map]
    apply List.map_congr_left
    intro b hb
    exact ((bandsOf_wf hwf rl b hb).1.rows_len).symm
  have := zipWith_flatten (storedRow nan df.columns) _ _ h3
  rw [h1, h2, zipWith_map_same] at this
  rw [this]
  congr 1
  apply List.map_congr_left
  intro b hb
  rw [(bandsOf_wf hwf rl b hb).2]

theorem stored_rows [DecidableEq κ] (nan : α) (cols : List κ) (hn : cols.Nodup) (idx : List ι) (rows : List (List α))
    (hl : rows.length = idx.length) (hw : ∀ r ∈ rows, r.length = cols.length) :
    ((List.zipWith (storedRow nan cols) idx rows).map fun r => cols.map r.cells) = rows ∧
    ((List.zipWith (storedRow nan cols) idx rows).map (·.label)) = idx := by
  induction idx generalizing rows with
  | nil =>
    cases rows with
    | nil => exact ⟨rfl, rfl⟩
    | cons _ _ => simp at hl
  | cons i idx ih =>
    cases rows with
    | nil => simp at hl
    | cons r rows =>
      obtain ⟨h1, h2⟩ := ih rows (by simpa using hl) (fun x hx => hw x (List.mem_cons_of_mem _ hx))
      simp only [List.zipWith_cons_cons, List.map_cons, h1, h2]
      exact ⟨by rw [show cols.map (storedRow nan cols i r).cells = r from lookup_zip_self nan cols hn r (hw r (by simp))], rfl⟩

/-- the dataset found after writing a frame into a new directory, in whatever order the files were written -/
theorem openDataset_written [DecidableEq ι] [DecidableEq κ] (nan : α)
    (rg : List (StoredRow ι κ α) → List (List (StoredRow ι κ α))) (hrg : ∀ l, (rg l).flatten = l)
    (ix : Option (Int × Int)) {df : Frame ι κ α} (hwf : df.WF) {rl cw : List Nat} (hc : df.IsCut rl cw)
    (hsmall : rl.length ≤ 10000) :
    ∃ ws, pqWrites nan rg ix (df.cut rl cw) = some ws ∧ ∀ ws', ws'.Perm ws → ∃ ds, openDataset (runWrites [] ws') = some ds ∧
      ds.names = df.columns ∧ ds.isIndex = (fun _ => false) ∧
      ds.rows = List.zipWith (storedRow nan df.columns) df.index df.rows ∧
      ds.files = (bandsOf rl df).map (fun b => rg (List.zipWith (storedRow nan b.columns) b.index b.rows)) ∧
      ds.info = match ix with
        | none => .stored
        | some (start, step) => .range start (start + (rl.headD 0 : Nat) * step) step := by
  unfold pqWrites
  rw [mapM_hcat_cut hwf hc, Option.map_some]
  refine ⟨_, rfl, ?_⟩
  intro ws' hp
  generalize hws : ((bandsOf rl df).mapIdx fun i b =>
    (partName i, pqFileOf nan rg ix (((bandsOf rl df).take i).map (·.nrows)).sum b)) = ws at hp
  have hblen := bandsOf_length rl df
  have hsorted : ws.Pairwise fun a b => a.1 < b.1 := by
    rw [List.pairwise_iff_getElem, ← hws]
    intro i j hi hj hij
    simp only [List.length_mapIdx] at hj
    simp only [List.getElem_mapIdx]
    exact partName_lt hij (by omega)
  have hnames : (ws'.map (·.1)).Nodup := by
    have h1 : (ws.map (·.1)).Nodup := by
      rw [List.Nodup, List.pairwise_map]
      exact hsorted.imp fun h => fun he => by rw [he] at h; exact List.lt_irrefl _ h
    exact (hp.map (·.1)).symm.nodup h1
  have hrun : runWrites [] ws' = ws' := by rw [runWrites_eq ws' [] hnames]; rfl
  have hsort := sortByName_unique hsorted hp
  have hbne := bandsOf_ne hc.rl_ne df
  obtain ⟨b, bs, hb⟩ : ∃ b bs, bandsOf rl df = b :: bs := by
    cases h : bandsOf rl df with
    | nil => exact absurd h hbne
    | cons b bs => exact ⟨b, bs, rfl⟩
  have hcons : ∃ es, ws = (partName 0, pqFileOf nan rg ix 0 b) :: es := by
    rw [← hws, hb, List.mapIdx_cons]
    exact ⟨_, rfl⟩
  obtain ⟨es, hes⟩ := hcons
  have hgroups : ws.map (fun x => x.2.groups) =
      (bandsOf rl df).map fun b => rg (List.zipWith (storedRow nan b.columns) b.index b.rows) := by
    rw [← hws]
    apply List.ext_getElem?
    intro i
    simp only [List.getElem?_map, List.getElem?_mapIdx]
    cases (bandsOf rl df)[i]? <;> rfl
  refine ⟨{ names := (pqFileOf nan rg ix 0 b).names, isIndex := fun _ => false, info := (pqFileOf nan rg ix 0 b).info,
            files := ((partName 0, pqFileOf nan rg ix 0 b) :: es).map fun x => x.2.groups }, ?_, ?_, rfl, ?_, ?_, ?_⟩
  · unfold openDataset
    rw [hrun, hsort, hes]
  · exact (bandsOf_wf hwf rl b (by rw [hb]; simp)).2
  · show ((((partName 0, pqFileOf nan rg ix 0 b) :: es).map fun x => x.2.groups).flatten).flatten = _
    rw [← hes, hgroups, List.flatten_flatten, List.map_map]
    simp only [Function.comp_def, hrg]
    exact bands_stored nan hwf hc
  · show (((partName 0, pqFileOf nan rg ix 0 b) :: es).map fun x => x.2.groups) = _
    rw [← hes, hgroups]
  · show (pqFileOf nan rg ix 0 b).info = _
    have hn : b.nrows = rl.headD 0 := by
      have := bandsOf_nrows hc
      rw [hb] at this
      rw [← this]; rfl
    unfold pqFileOf
    cases ix with
    | none => rfl
    | some p => simp [hn]

theorem foldl_append_flatten {τ : Type} (ls : List (List τ)) (t : List τ) : ls.foldl (· ++ ·) t = t ++ ls.flatten := by
  induction ls generalizing t with
  | nil => simp
  | cons l ls ih => simp [ih, List.append_assoc]
