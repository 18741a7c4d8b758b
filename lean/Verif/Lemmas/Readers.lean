import Verif.Model.Readers
import Verif.Lemmas.Labels
import Verif.Lemmas.FullAxis
import Verif.Lemmas.Concat
import Verif.Lemmas.Shuffle
/-
Lemmas about the readers of column stores and databases.
-/

variable {ι κ α : Type}

/-! ### row groups -/

section groups
variable {τ : Type}

/-- the row groups in a range -/
def readRange (files : List (List τ)) (r : PqRange) : List τ :=
  match files[r.file]? with
  | some g => pySlice g r.start r.stop
  | none => []

def PqState.pos (files : List (List τ)) (st : PqState) : Nat := (files.take st.file).flatten.length + st.group

def PqState.Valid (files : List (List τ)) (st : PqState) : Prop :=
  ∃ g, files[st.file]? = some g ∧ st.group + st.left = g.length

theorem pySlice_append_pySlice (l : List τ) (a t n : Nat) (h : t ≤ n) :
    pySlice l a (a + t) ++ pySlice l (a + t) (a + n) = pySlice l a (a + n) := by
  unfold pySlice
  have e1 : a + t - a = t := by omega
  have e2 : a + n - (a + t) = n - t := by omega
  have e3 : a + n - a = n := by omega
  rw [e1, e2, e3, ← List.drop_drop]
  have := List.take_add (l := l.drop a) (i := t) (j := n - t)
  rw [show t + (n - t) = n by omega] at this
  exact this.symm

theorem flatten_split {files : List (List τ)} {i : Nat} {g : List τ} (h : files[i]? = some g) :
    files.flatten = (files.take i).flatten ++ (g ++ (files.drop (i + 1)).flatten) := by
  have hi := (List.getElem?_eq_some_iff.mp h)
  obtain ⟨hlt, hg⟩ := hi
  conv => lhs; rw [← List.take_append_drop i files]
  rw [List.flatten_append, List.drop_eq_getElem_cons hlt, List.flatten_cons, hg]

theorem take_succ_flatten_length {files : List (List τ)} {i : Nat} {g : List τ} (h : files[i]? = some g) :
    (files.take (i + 1)).flatten.length = (files.take i).flatten.length + g.length := by
  rw [List.take_add_one, h]
  simp

theorem readRange_slice {files : List (List τ)} {i : Nat} {g : List τ} (h : files[i]? = some g) (a t : Nat)
    (hat : a + t ≤ g.length) :
    pySlice g a (a + t) =
      pySlice files.flatten ((files.take i).flatten.length + a) ((files.take i).flatten.length + a + t) := by
  rw [flatten_split h]
  unfold pySlice
  have e : (files.take i).flatten.length + a + t - ((files.take i).flatten.length + a) = t := by omega
  rw [e, List.drop_append, List.drop_of_length_le (by omega : (files.take i).flatten.length ≤ _), List.nil_append]
  have e2 : (files.take i).flatten.length + a - (files.take i).flatten.length = a := by omega
  rw [e2, List.drop_append, List.take_append]
  have e3 : a + t - a = t := by omega
  rw [e3]
  have e4 : t - (g.drop a).length = 0 := by simp; omega
  rw [e4]; simp

theorem pqTake_spec (files : List (List τ)) (fuel : Nat) (st : PqState) (need : Nat) (hv : st.Valid files)
    (hn : st.pos files + need ≤ files.flatten.length) (hf : need + (files.length - st.file) < fuel) :
    ∃ rs st', pqTake (files.map List.length) fuel st need = some (rs, st') ∧ st'.Valid files ∧
      st'.pos files = st.pos files + need ∧
      (rs.map (readRange files)).flatten = pySlice files.flatten (st.pos files) (st.pos files + need) ∧
      (need ≠ 0 → rs ≠ []) := by
  induction fuel generalizing st need with
  | zero => omega
  | succ fuel ih =>
    unfold pqTake
    by_cases h0 : need = 0
    · subst h0
      exact ⟨[], st, by simp, hv, rfl, by simp [pySlice], by simp⟩
    · rw [if_neg h0]
      -- the state after going to the next file if needed
      have hadv : ∃ st1, st.advance (files.map List.length) = some st1 ∧ st1.Valid files ∧
          st1.pos files = st.pos files ∧
          min need st1.left ≤ need ∧ (need - min need st1.left) + (files.length - st1.file) < fuel := by
        unfold PqState.advance
        obtain ⟨g, hg, hgl⟩ := hv
        have hlt := (List.getElem?_eq_some_iff.mp hg).1
        by_cases hl : st.left < 1
        · rw [if_pos hl]
          have hpos : st.pos files = (files.take (st.file + 1)).flatten.length := by
            rw [take_succ_flatten_length hg]; unfold PqState.pos; omega
          have hex : st.file + 1 < files.length := by
            apply Nat.lt_of_not_le
            intro hge
            rw [List.take_of_length_le hge] at hpos
            omega
          have hg2 := List.getElem?_eq_getElem hex
          refine ⟨⟨st.file + 1, 0, files[st.file + 1].length⟩, by simp [List.getElem?_map, hg2], ⟨_, hg2, by simp⟩, ?_,
            Nat.min_le_left _ _, ?_⟩
          · rw [hpos]; simp [PqState.pos]
          · simp only; omega
        · rw [if_neg hl]
          refine ⟨st, rfl, ⟨g, hg, hgl⟩, rfl, Nat.min_le_left _ _, ?_⟩
          have : 1 ≤ min need st.left := by omega
          omega
      obtain ⟨st1, ha, ⟨g, hg, hgl⟩, hp, ht, hfu⟩ := hadv
      rw [ha, Option.bind_some]
      generalize hte : min need st1.left = t at *
      have htl : t ≤ st1.left := by omega
      simp only [hte]
      obtain ⟨rs, st', e1, e2, e3, e4, _⟩ := ih ⟨st1.file, st1.group + t, st1.left - t⟩ (need - t)
        ⟨g, hg, by simp only; omega⟩
        (by
          have : PqState.pos files ⟨st1.file, st1.group + t, st1.left - t⟩ = st.pos files + t := by
            rw [← hp]; unfold PqState.pos; simp only; omega
          rw [this]; omega) hfu
      have hpt : PqState.pos files ⟨st1.file, st1.group + t, st1.left - t⟩ = st.pos files + t := by
        rw [← hp]; unfold PqState.pos; simp only; omega
      rw [e1]
      refine ⟨_, _, rfl, e2, by rw [e3, hpt]; omega, ?_, by simp⟩
      rw [List.map_cons, List.flatten_cons, e4, hpt]
      have hr : readRange files ⟨st1.file, st1.group, st1.group + t⟩ =
          pySlice files.flatten (st.pos files) (st.pos files + t) := by
        unfold readRange
        simp only [hg]
        rw [readRange_slice hg _ _ (by omega), ← hp]
        unfold PqState.pos; rfl
      rw [hr]
      have := pySlice_append_pySlice files.flatten (st.pos files) t need ht
      rw [show st.pos files + t + (need - t) = st.pos files + need by omega]
      exact this

theorem pqTakeAll_spec (files : List (List τ)) (fuel : Nat) (sizes : List Nat) (st : PqState) (hv : st.Valid files)
    (hn : st.pos files + sizes.sum ≤ files.flatten.length) (hf : sizes.sum + files.length < fuel) :
    ∃ parts, pqTakeAll (files.map List.length) fuel st sizes = some parts ∧
      (parts.map fun rs => (rs.map (readRange files)).flatten).flatten =
        pySlice files.flatten (st.pos files) (st.pos files + sizes.sum) ∧
      (parts.map fun rs => ((rs.map (readRange files)).flatten).length) = sizes ∧
      ((∀ s ∈ sizes, s ≠ 0) → ∀ rs ∈ parts, rs ≠ []) := by
  induction sizes generalizing st with
  | nil => exact ⟨[], rfl, by simp [pySlice], rfl, by simp⟩
  | cons s sizes ih =>
    rw [List.sum_cons] at hn hf
    obtain ⟨rs, st', e1, e2, e3, e4, e5⟩ := pqTake_spec files fuel st s hv (by omega) (by omega)
    obtain ⟨parts, f1, f2, f3, f4⟩ := ih st' e2 (by omega) (by omega)
    refine ⟨rs :: parts, ?_, ?_, ?_, ?_⟩
    · unfold pqTakeAll; rw [e1, Option.bind_some, f1]; rfl
    · rw [List.map_cons, List.flatten_cons, e4, f2, e3, List.sum_cons]
      have := pySlice_append_pySlice files.flatten (st.pos files) s (s + sizes.sum) (by omega)
      rw [← this, Nat.add_assoc]
    · rw [List.map_cons, f3, e4]
      congr 1
      unfold pySlice; rw [List.length_take, List.length_drop]; omega
    · intro h x hx
      rcases List.mem_cons.mp hx with rfl | hx
      · exact e5 (h s (by simp))
      · exact f4 (fun y hy => h y (List.mem_cons_of_mem _ hy)) x hx

theorem pqPartSizes_spec {np n : Nat} (hp : 1 ≤ np) (hn : 1 ≤ n) :
    (pqPartSizes np n).sum = n ∧ (pqPartSizes np n).length = min np n ∧
    ∀ s ∈ pqPartSizes np n, s ≠ 0 ∧ (s = n / min np n ∨ s = n / min np n + 1) := by
  unfold pqPartSizes
  have hk : 0 < min np n := by omega
  have hle : min np n ≤ n := Nat.min_le_right _ _
  generalize min np n = k at *
  have hr := Nat.mod_lt n hk
  have hd := Nat.div_add_mod n k
  have hq : 1 ≤ n / k := (Nat.one_le_div_iff hk).mpr hle
  refine ⟨?_, ?_, ?_⟩
  · simp only [List.sum_append, List.sum_replicate_nat]
    generalize n % k = r at *
    generalize n / k = q at *
    have : (k - r) * q + r * (q + 1) = k * q + r := by
      have : k = (k - r) + r := by omega
      generalize hkr : k - r = m at *
      rw [this]
      rw [Nat.mul_add, Nat.add_mul]; omega
    omega
  · simp; omega
  · intro s hs
    simp only [List.mem_append, List.mem_replicate] at hs
    rcases hs with ⟨_, rfl⟩ | ⟨_, rfl⟩
    · exact ⟨by omega, Or.inl rfl⟩
    · exact ⟨by omega, Or.inr rfl⟩

theorem pqPartitioning_spec {np : Nat} (hp : 1 ≤ np) (files : List (List τ)) :
    ∃ parts, pqPartitioning np (files.map List.length) = some parts ∧
      (parts.map fun rs => (rs.map (readRange files)).flatten).flatten = files.flatten ∧
      parts.length = min np files.flatten.length ∧ (∀ rs ∈ parts, rs ≠ []) ∧
      ∀ rs ∈ parts, ((rs.map (readRange files)).flatten).length = files.flatten.length / min np files.flatten.length ∨
        ((rs.map (readRange files)).flatten).length = files.flatten.length / min np files.flatten.length + 1 := by
  have hsum : (files.map List.length).sum = files.flatten.length := by rw [List.length_flatten]
  unfold pqPartitioning
  rw [hsum]
  by_cases h0 : files.flatten.length = 0
  · rw [if_pos h0]
    refine ⟨[], rfl, ?_, by simp [h0], by simp, by simp⟩
    rw [List.eq_nil_of_length_eq_zero h0]; rfl
  · rw [if_neg h0]
    have hne : files ≠ [] := by rintro rfl; simp at h0
    obtain ⟨g, fs, rfl⟩ : ∃ g fs, files = g :: fs := by
      cases files with
      | nil => exact absurd rfl hne
      | cons g fs => exact ⟨g, fs, rfl⟩
    obtain ⟨s1, s2, s3⟩ := pqPartSizes_spec (np := np) (n := (g :: fs).flatten.length) hp (by omega)
    have hleft : ((g :: fs).map List.length)[0]?.getD 0 = g.length := rfl
    rw [hleft]
    have hpos : PqState.pos (g :: fs) ⟨0, 0, g.length⟩ = 0 := rfl
    obtain ⟨parts, e1, e2, e3, e4⟩ := pqTakeAll_spec (g :: fs)
      ((g :: fs).flatten.length + ((g :: fs).map List.length).length + 1)
      (pqPartSizes np (g :: fs).flatten.length) ⟨0, 0, g.length⟩ ⟨g, rfl, by simp⟩
      (by rw [hpos, s1]; omega) (by rw [s1]; simp)
    refine ⟨parts, e1, ?_, ?_, e4 (fun s hs => (s3 s hs).1), ?_⟩
    · rw [e2, hpos, s1, Nat.zero_add]; exact pySlice_all _ _ (Nat.le_refl _)
    · rw [← s2, ← e3]; simp
    · intro rs hrs
      have : ((rs.map (readRange (g :: fs))).flatten).length ∈ pqPartSizes np (g :: fs).flatten.length := by
        rw [← e3]; exact List.mem_map.mpr ⟨rs, hrs, rfl⟩
      exact (s3 _ this).2

end groups

/-! ### columns -/

theorem buildColumns_spec (cfg : Cfg) (hp : 1 ≤ cfg.nPartitions) (cols : List κ) (hc : cols ≠ []) (k : Option Nat)
    (hk : ∀ n, k = some n → 1 ≤ n ∧ n ≤ cfg.nPartitions) :
    ∃ parts cw, buildColumns cfg cols k = some (parts, cw) ∧ parts ≠ [] ∧ cw ≠ [] ∧ cw.sum = cols.length ∧
      parts = (sliceBounds cw).map fun q => pySlice cols q.1 q.2 := by
  have hlen : cols.length ≠ 0 := fun h => hc (List.eq_nil_of_length_eq_zero h)
  unfold buildColumns
  rw [if_neg hlen]
  have hmb : ∃ mb, columnBlockSize cfg cols.length k = some mb := by
    unfold columnBlockSize
    cases k with
    | none => exact ⟨_, rfl⟩
    | some n =>
      obtain ⟨h1, h2⟩ := hk n rfl
      have := pyRoundDiv_pos h1 h2
      simp only
      rw [if_neg (by omega), if_neg (by omega)]
      exact ⟨_, rfl⟩
  obtain ⟨mb, hmb⟩ := hmb
  rw [hmb, Option.bind_some, computeChunksize_eq hp (by omega), Option.map_some]
  generalize hcc : max _ (max 1 mb) = c
  have hcpos : 0 < c := by omega
  have hfl := rangeStep_flatten cols c hcpos
  generalize hps : (pyRangeStep cols.length c).map (fun i => pySlice cols i (i + c)) = parts at *
  have hne : parts ≠ [] := by
    rintro rfl
    rw [List.flatten_nil] at hfl
    exact hc hfl.symm
  refine ⟨parts, parts.map List.length, by simp only [hps], hne, by simpa using hne, ?_, ?_⟩
  · rw [← List.length_flatten, hfl]
  · have := sliceBounds_flatten_self parts
    rw [hfl] at this
    exact this.symm

/-! ### the blocks that are read -/

theorem mapM_some_congr {β γ : Type} {f : β → Option γ} {g : β → γ} {l : List β} (h : ∀ x ∈ l, f x = some (g x)) :
    l.mapM f = some (l.map g) := by
  have := mapM_map_some f id g l h
  simpa using this

/-- the rows of a partition before filtering -/
def stripRows (ds : PqDataset ι κ α) (rs : List PqRange) : List (StoredRow ι κ α) := (rs.map ds.rangeRows).flatten

/-- what one partition would be over all columns -/
def pqStrip (num : Int → ι) (ds : PqDataset ι κ α) (filter : Option (StoredRow ι κ α → Bool)) (cols : List κ)
    (rs : List PqRange) : Frame ι κ α :=
  { index := (rs.map fun r => pqLabels num ds.info (keptRows filter (ds.rangeRows r))).flatten, columns := cols,
    rows := (keptRows filter (stripRows ds rs)).map fun r => cols.map r.cells }

theorem pqLabels_length (num : Int → ι) (info : IndexInfo) (rows : List (StoredRow ι κ α)) :
    (pqLabels num info rows).length = rows.length := by
  unfold pqLabels rangeLabels
  split
  · simp
  · split <;> simp
  · simp

theorem keptRows_flatten (filter : Option (StoredRow ι κ α → Bool)) (ls : List (List (StoredRow ι κ α))) :
    keptRows filter ls.flatten = (ls.map (keptRows filter)).flatten := by
  cases filter with
  | none =>
    have : (keptRows none : List (StoredRow ι κ α) → _) = id := rfl
    rw [this]; simp
  | some p =>
    have : (keptRows (some p) : List (StoredRow ι κ α) → _) = List.filter p := rfl
    rw [this, List.filter_flatten]

theorem pqStrip_wf (num : Int → ι) (ds : PqDataset ι κ α) (filter : Option (StoredRow ι κ α → Bool)) (cols : List κ)
    (rs : List PqRange) : (pqStrip num ds filter cols rs).WF := by
  constructor
  · simp only [pqStrip, stripRows, List.length_map, keptRows_flatten, List.length_flatten, List.map_map,
      Function.comp_def, pqLabels_length]
  · intro r hr
    simp only [pqStrip, List.mem_map] at hr
    obtain ⟨x, _, rfl⟩ := hr
    simp [pqStrip]

theorem pqParse_eq (num : Int → ι) (ds : PqDataset ι κ α) (filter : Option (StoredRow ι κ α → Bool)) (cols : List κ)
    (rs : List PqRange) (hrs : rs ≠ []) (q : Nat × Nat) :
    pqParse num ds filter rs (pySlice cols q.1 q.2) = some ((pqStrip num ds filter cols rs).ilocCols q.1 q.2) := by
  unfold pqParse
  rw [if_neg hrs]
  simp only [Option.some.injEq, Frame.ilocCols, pqStrip, Frame.mk.injEq, List.map_map, Function.comp_def, pqFrame,
    true_and]
  rw [stripRows, keptRows_flatten, List.map_flatten]
  simp only [List.map_map, Function.comp_def, pySlice_map]

theorem pqDeploy_eq (num : Int → ι) (ds : PqDataset ι κ α) (filter : Option (StoredRow ι κ α → Bool)) (cols : List κ)
    (parts : List (List PqRange)) (hne : ∀ rs ∈ parts, rs ≠ []) (cw : List Nat) (hcw : cw ≠ []) :
    pqDeploy num ds filter parts ((sliceBounds cw).map fun q => pySlice cols q.1 q.2) =
      some ((parts.map (pqStrip num ds filter cols)).map fun f => (sliceBounds cw).map fun q => f.ilocCols q.1 q.2) := by
  unfold pqDeploy
  rw [if_neg (by simpa using sliceBounds_ne_nil hcw), List.map_map]
  apply mapM_some_congr
  intro rs hrs
  exact mapM_map_some _ _ _ _ (fun q _ => pqParse_eq num ds filter cols rs (hne rs hrs) q)

/-! ### normalisation -/

theorem getLengthList_some {n k mb : Nat} (hk : 1 ≤ k) (hm : 1 ≤ mb) :
    ∃ lens, getLengthList n k mb = some lens ∧ lens.sum = n ∧ lens.length = k := by
  obtain ⟨ls, this⟩ : ∃ ls, getLengthList n k mb = some ls := by
    unfold getLengthList; rw [computeChunksize_eq hk hm, Option.map_some]; exact ⟨_, rfl⟩
  exact ⟨ls, this, getLengthList_sum this⟩

theorem vcat_single [DecidableEq κ] (f : Frame ι κ α) : Frame.vcat [f] = some f := by
  simp [Frame.vcat]

/-- taking the `i`-th piece of every list, for every `i`, is transposition -/
theorem pieces_transpose {P Q τ : Type} (ps : List P) (qs : List Q) (B : P → Q → τ) :
    ((List.range ps.length).mapM fun i => (qs.map fun q => ps.map fun p => B p q).mapM fun s => s[i]?) =
      some (ps.map fun p => qs.map fun q => B p q) := by
  have h : ∀ i ∈ List.range ps.length, ((qs.map fun q => ps.map fun p => B p q).mapM fun s => s[i]?) =
      some ((ps.map fun p => qs.map fun q => B p q)[i]?.getD []) := by
    intro i hi
    rw [List.mem_range] at hi
    have e : ∀ q ∈ qs, ((ps.map fun p => B p q)[i]?) = some (B ps[i] q) := by
      intro q _
      simp [List.getElem?_map, List.getElem?_eq_getElem hi]
    rw [mapM_map_some (fun s : List τ => s[i]?) (fun q => ps.map fun p => B p q) (fun q => B ps[i] q) qs e]
    simp [List.getElem?_map, List.getElem?_eq_getElem hi]
  rw [mapM_some_congr h]
  congr 1
  apply List.ext_getElem
  · simp
  · intro i h1 h2
    simp only [List.length_map] at h2
    simp [List.getElem?_eq_getElem h2]

theorem pqSplitStrip_spec [DecidableEq ι] [DecidableEq κ] (cfg : Cfg) (hmr : 1 ≤ cfg.minRow) {k : Nat} (hk : 1 ≤ k)
    (f : Frame ι κ α) (hf : f.WF) (cw : List Nat) :
    ∃ lens, lens.sum = f.nrows ∧ lens ≠ [] ∧
      pqSplitStrip cfg k f.nrows ((sliceBounds cw).map fun q => f.ilocCols q.1 q.2) = some (f.cut lens cw, lens) := by
  unfold pqSplitStrip
  by_cases h1 : k = 1
  · rw [if_pos h1]
    exact ⟨[f.nrows], by simp, by simp, by rw [cut_one f hf]⟩
  · rw [if_neg h1]
    obtain ⟨lens, e1, e2, e3⟩ := getLengthList_some (n := f.nrows) hk hmr
    refine ⟨lens, e2, by rintro rfl; simp at e3; omega, ?_⟩
    have hb : ∀ q ∈ sliceBounds cw, deployAxisFunc true some k false [f.ilocCols q.1 q.2] cfg.minRow none false =
        some ((sliceBounds lens).map fun p => (f.ilocRows p.1 p.2).ilocCols q.1 q.2) := by
      intro q _
      have := deploy_rows_eq (fun b : Frame ι κ α => b) k false [f.ilocCols q.1 q.2] cfg.minRow none false _
        (vcat_single _) (hf.ilocCols q.1 q.2)
      rw [this]
      have hl : deployLens k false ([f.ilocCols q.1 q.2].map (·.nrows)) (f.ilocCols q.1 q.2).nrows cfg.minRow none false
          = some lens := by
        unfold deployLens
        rw [if_neg h1]
        simp only [Bool.false_eq_true, ↓reduceIte, Bool.not_false, Bool.or_true]
        exact e1
      rw [hl, Option.map_some]
      simp only [Frame.ilocCols_ilocRows]
    rw [mapM_map_some _ _ _ _ hb, Option.bind_some, ← e3, ← sliceBounds_length lens,
      pieces_transpose (sliceBounds lens) (sliceBounds cw) fun p q => (f.ilocRows p.1 p.2).ilocCols q.1 q.2,
      Option.bind_some, sliceBounds_length, e3, e1]
    rfl

theorem mapIdx_some_mapM {β γ : Type} (f : Nat → β → Option γ) (g : Nat → β → γ) (l : List β)
    (h : ∀ i x, l[i]? = some x → f i x = some (g i x)) : (l.mapIdx f).mapM id = some (l.mapIdx g) := by
  have : l.mapIdx f = (l.mapIdx g).map some := by
    apply List.ext_getElem?
    intro i
    simp only [List.getElem?_mapIdx, List.getElem?_map]
    cases hx : l[i]? with
    | none => rfl
    | some x => simp [h i x hx]
  rw [this, mapM_id_map_some]

theorem zip_map_map {β γ δ : Type} (f : β → γ) (g : β → δ) (l : List β) :
    (l.map f).zip (l.map g) = l.map fun x => (f x, g x) := by
  induction l with
  | nil => rfl
  | cons x xs ih => simp [ih]

theorem pqNormRows_spec [DecidableEq ι] [DecidableEq κ] (cfg : Cfg) (hmr : 1 ≤ cfg.minRow) (cols : List κ)
    (fs : List (Frame ι κ α)) (hne : fs ≠ []) (h : ∀ f ∈ fs, f.WF ∧ f.columns = cols) (cw : List Nat) :
    ∃ rl, rl ≠ [] ∧ rl.sum = (Frame.stackRows cols fs).nrows ∧
      pqNormRows cfg (fs.map fun f => (sliceBounds cw).map fun q => f.ilocCols q.1 q.2) (fs.map (·.nrows)) =
        some ((Frame.stackRows cols fs).cut rl cw, rl) := by
  have hsum : (fs.map (·.nrows)).sum = (Frame.stackRows cols fs).nrows := by
    simp [Frame.stackRows, Frame.nrows, List.length_flatten, List.map_map, Function.comp_def]
  have hlen : 0 < fs.length := List.length_pos_iff.mpr hne
  unfold pqNormRows
  simp only [List.length_map]
  generalize max 1 (min ((fs.map (·.nrows)).sum / cfg.minRow) cfg.nPartitions) = desired
  split
  · rename_i hlt
    rw [zip_map_map, mapIdx_map']
    have hper : 1 ≤ desired / fs.length := (Nat.one_le_div_iff hlen).mpr (by omega)
    have hex : ∀ (i : Nat) (f : Frame ι κ α), ∃ lens, f ∈ fs → lens.sum = f.nrows ∧ lens ≠ [] ∧
        pqSplitStrip cfg (desired / fs.length + if i < desired % fs.length then 1 else 0) f.nrows
          ((sliceBounds cw).map fun q => f.ilocCols q.1 q.2) = some (f.cut lens cw, lens) := by
      intro i f
      by_cases hf : f ∈ fs
      · obtain ⟨lens, a, b, c⟩ := pqSplitStrip_spec cfg hmr
          (k := desired / fs.length + if i < desired % fs.length then 1 else 0) (by omega) f (h f hf).1 cw
        exact ⟨lens, fun _ => ⟨a, b, c⟩⟩
      · exact ⟨[], fun h => absurd h hf⟩
    let L : Nat → Frame ι κ α → List Nat := fun i f => Classical.choose (hex i f)
    have hL : ∀ i f, f ∈ fs → (L i f).sum = f.nrows ∧ L i f ≠ [] ∧
        pqSplitStrip cfg (desired / fs.length + if i < desired % fs.length then 1 else 0) f.nrows
          ((sliceBounds cw).map fun q => f.ilocCols q.1 q.2) = some (f.cut (L i f) cw, L i f) :=
      fun i f => Classical.choose_spec (hex i f)
    rw [mapIdx_some_mapM _ (fun i f => (f.cut (L i f) cw, L i f)) fs
      (fun i f hf => (hL i f (List.mem_of_getElem? hf)).2.2), Option.map_some]
    have hst := stackRows_cut cols cw (fs.mapIdx fun i f => (f, L i f)) (by
      intro e he
      rw [List.mem_mapIdx] at he
      obtain ⟨i, hi, rfl⟩ := he
      exact ⟨(h _ (List.getElem_mem hi)).1, (h _ (List.getElem_mem hi)).2, (hL i _ (List.getElem_mem hi)).1⟩)
    have e1 : (fs.mapIdx fun i f => (f, L i f)).map (·.1) = fs := by
      apply List.ext_getElem?; intro i
      simp only [List.getElem?_map, List.getElem?_mapIdx]
      cases fs[i]? <;> rfl
    have e2 : (fs.mapIdx fun i f => (f, L i f)).map (fun e => e.1.cut e.2 cw) =
        (fs.mapIdx fun i f => (f.cut (L i f) cw, L i f)).map (·.1) := by
      apply List.ext_getElem?; intro i
      simp only [List.getElem?_map, List.getElem?_mapIdx]
      cases fs[i]? <;> rfl
    have e3 : (fs.mapIdx fun i f => (f, L i f)).map (·.2) =
        (fs.mapIdx fun i f => (f.cut (L i f) cw, L i f)).map (·.2) := by
      apply List.ext_getElem?; intro i
      simp only [List.getElem?_map, List.getElem?_mapIdx]
      cases fs[i]? <;> rfl
    rw [e1, e2, e3] at hst
    refine ⟨((fs.mapIdx fun i f => (f.cut (L i f) cw, L i f)).map (·.2)).flatten, ?_, ?_, by rw [hst]⟩
    · obtain ⟨f, fs', rfl⟩ : ∃ f fs', fs = f :: fs' := by
        cases fs with
        | nil => exact absurd rfl hne
        | cons f fs' => exact ⟨f, fs', rfl⟩
      rw [List.mapIdx_cons, List.map_cons, List.flatten_cons]
      simp [(hL 0 f (by simp)).2.1]
    · rw [sum_flatten', ← hsum]
      congr 1
      apply List.ext_getElem?; intro i
      simp only [List.getElem?_map, List.getElem?_mapIdx]
      cases hx : fs[i]? with
      | none => rfl
      | some f => simp [(hL i f (List.mem_of_getElem? hx)).1]
  · refine ⟨fs.map (·.nrows), by simpa using hne, hsum, ?_⟩
    rw [stack_cut cols cw fs h]

theorem pqNormCols_spec [DecidableEq ι] [DecidableEq κ] (cfg : Cfg) (hmc : 1 ≤ cfg.minCol) {df : Frame ι κ α}
    (hwf : df.WF) {rl cw : List Nat} (hc : df.IsCut rl cw) :
    ∃ cw', df.IsCut rl cw' ∧ pqNormCols cfg (df.cut rl cw) cw = some (df.cut rl cw', cw') := by
  unfold pqNormCols
  generalize hd : max 1 (min (cw.sum / cfg.minCol) cfg.nPartitions) = desired
  have hd1 : 1 ≤ desired := by omega
  simp only
  split
  · obtain ⟨lens, e1, e2, e3⟩ := getLengthList_some (n := cw.sum) hd1 hmc
    refine ⟨lens, ⟨hc.rl_ne, by rintro rfl; simp at e3; omega, hc.rl_sum, by rw [e2, hc.cw_sum]⟩, ?_⟩
    have : ∀ p ∈ sliceBounds rl, deployAxisFunc false some desired false
        ((sliceBounds cw).map fun q => (df.ilocRows p.1 p.2).ilocCols q.1 q.2) cfg.minCol none false =
        some ((sliceBounds lens).map fun q => (df.ilocRows p.1 p.2).ilocCols q.1 q.2) := by
      intro p _
      have hv : Frame.hcat ((sliceBounds cw).map fun q => (df.ilocRows p.1 p.2).ilocCols q.1 q.2)
          = some (df.ilocRows p.1 p.2) := by
        have := Frame.hcat_ilocRows (hcat_cols_cut hwf hc) p.1 p.2
        rw [List.map_map] at this
        simpa only [Function.comp_def, Frame.ilocCols_ilocRows] using this
      rw [deploy_cols_eq (fun b : Frame ι κ α => b) desired false _ cfg.minCol none false _ hv (hwf.ilocRows _ _)]
      have hn : (df.ilocRows p.1 p.2).ncols = cw.sum := by rw [hc.cw_sum]; rfl
      have hl : ∀ pl, deployLens desired false pl (df.ilocRows p.1 p.2).ncols cfg.minCol none false = some lens := by
        intro pl
        rw [hn]
        unfold deployLens
        by_cases h1 : desired = 1
        · rw [if_pos h1]
          rw [h1, getLengthList_one hmc] at e1
          exact e1
        · rw [if_neg h1]
          simp only [Bool.false_eq_true, ↓reduceIte, Bool.not_false, Bool.or_true]
          exact e1
      rw [hl, Option.map_some]
    unfold Frame.cut
    rw [mapM_map_some _ _ _ _ this, Option.bind_some, e1]
    rfl
  · exact ⟨cw, hc, rfl⟩

/-! ### read_parquet -/

theorem rangeRows_eq (ds : PqDataset ι κ α) (r : PqRange) : ds.rangeRows r = (readRange ds.files r).flatten := by
  unfold PqDataset.rangeRows readRange
  cases ds.files[r.file]? <;> rfl

theorem stripRows_eq (ds : PqDataset ι κ α) (rs : List PqRange) :
    stripRows ds rs = ((rs.map (readRange ds.files)).flatten).flatten := by
  unfold stripRows
  rw [List.flatten_flatten, List.map_map]
  congr 1
  apply List.map_congr_left
  intro r _
  exact rangeRows_eq ds r

theorem stripRows_all (ds : PqDataset ι κ α) {parts : List (List PqRange)}
    (h : (parts.map fun rs => (rs.map (readRange ds.files)).flatten).flatten = ds.files.flatten) :
    (parts.map (stripRows ds)).flatten = ds.rows := by
  unfold PqDataset.rows
  rw [← h, List.flatten_flatten, List.map_map]
  congr 1
  apply List.map_congr_left
  intro rs _
  exact stripRows_eq ds rs

/-- the labels of the frame that is read -/
def pqReadLabels (num : Int → ι) (ds : PqDataset ι κ α) (filter : Option (StoredRow ι κ α → Bool)) : List ι :=
  if filter.isNone || ds.info == .stored then pqLabels num ds.info (keptRows filter ds.rows)
  else pqFilteredRange num ds.info (keptRows filter ds.rows).length

theorem pqFilteredRange_length (num : Int → ι) (info : IndexInfo) (n : Nat) :
    (pqFilteredRange num info n).length = n := by
  unfold pqFilteredRange rangeLabels
  split
  · split <;> simp
  · simp

theorem pqReadLabels_length (num : Int → ι) (ds : PqDataset ι κ α) (filter : Option (StoredRow ι κ α → Bool)) :
    (pqReadLabels num ds filter).length = (keptRows filter ds.rows).length := by
  unfold pqReadLabels
  split
  · exact pqLabels_length _ _ _
  · exact pqFilteredRange_length _ _ _

theorem strips_rows (num : Int → ι) (ds : PqDataset ι κ α) (filter : Option (StoredRow ι κ α → Bool)) (cols : List κ)
    (parts : List (List PqRange)) :
    (Frame.stackRows cols (parts.map (pqStrip num ds filter cols))).rows =
      (keptRows filter (parts.map (stripRows ds)).flatten).map fun r => cols.map r.cells := by
  rw [keptRows_flatten, List.map_flatten]
  simp only [Frame.stackRows, List.map_map, Function.comp_def, pqStrip]

theorem strips_index_length (num : Int → ι) (ds : PqDataset ι κ α) (filter : Option (StoredRow ι κ α → Bool)) (cols : List κ)
    (parts : List (List PqRange)) :
    (Frame.stackRows cols (parts.map (pqStrip num ds filter cols))).index.length =
      (keptRows filter (parts.map (stripRows ds)).flatten).length := by
  rw [keptRows_flatten]
  simp only [Frame.stackRows, List.map_map, Function.comp_def, List.length_flatten]
  congr 1
  apply List.map_congr_left
  intro rs _
  have := (pqStrip_wf num ds filter cols rs).rows_len
  rw [← this]
  simp [pqStrip]

theorem strips_index_stored (num : Int → ι) (ds : PqDataset ι κ α) (hs : ds.info = .stored)
    (filter : Option (StoredRow ι κ α → Bool)) (cols : List κ) (parts : List (List PqRange)) :
    (Frame.stackRows cols (parts.map (pqStrip num ds filter cols))).index =
      (keptRows filter (parts.map (stripRows ds)).flatten).map (·.label) := by
  rw [keptRows_flatten, List.map_flatten]
  simp only [Frame.stackRows, List.map_map, Function.comp_def, pqStrip, hs, pqLabels]
  congr 1
  apply List.map_congr_left
  intro rs _
  rw [stripRows, keptRows_flatten, List.map_flatten]
  simp only [List.map_map, Function.comp_def]

theorem head?_blocks {τ : Type} {cw : List Nat} (hcw : cw ≠ []) (f : Frame ι κ α) (g : Frame ι κ α → τ)
    (hg : ∀ q : Nat × Nat, g (f.ilocCols q.1 q.2) = g f) :
    ((sliceBounds cw).map fun q => f.ilocCols q.1 q.2).head?.map g = some (g f) := by
  have := sliceBounds_ne_nil hcw
  cases h : sliceBounds cw with
  | nil => exact absurd h this
  | cons q qs => simp [hg]

theorem filterMap_head {τ : Type} {cw : List Nat} (hcw : cw ≠ []) (fs : List (Frame ι κ α)) (g : Frame ι κ α → τ)
    (hg : ∀ (f : Frame ι κ α) (q : Nat × Nat), g (f.ilocCols q.1 q.2) = g f) :
    (fs.map fun f => (sliceBounds cw).map fun q => f.ilocCols q.1 q.2).filterMap (fun row => row.head?.map g) =
      fs.map g := by
  induction fs with
  | nil => rfl
  | cons f fs ih =>
    rw [List.map_cons, List.filterMap_cons, head?_blocks hcw f g (hg f), List.map_cons, ih]

theorem readParquet_shows [DecidableEq ι] [DecidableEq κ] (cfg : Cfg) (hp : 1 ≤ cfg.nPartitions)
    (hmr : 1 ≤ cfg.minRow) (hmc : 1 ≤ cfg.minCol) (num : Int → ι) (ds : PqDataset ι κ α) (requested : Option (List κ))
    (filter : Option (StoredRow ι κ α → Bool)) (hg : ds.files.flatten ≠ []) (hcols : pqColumns ds requested ≠ []) :
    ∃ m, readParquet cfg num ds requested filter = some m ∧
      m.Shows { index := pqReadLabels num ds filter, columns := pqColumns ds requested,
                rows := (keptRows filter ds.rows).map fun r => (pqColumns ds requested).map r.cells } := by
  generalize hcs : pqColumns ds requested = cols at *
  obtain ⟨parts, p1, p2, p3, p4, -⟩ := pqPartitioning_spec hp ds.files
  have hlen : 0 < ds.files.flatten.length := List.length_pos_iff.mpr hg
  have hpl : 1 ≤ parts.length ∧ parts.length ≤ cfg.nPartitions := by omega
  have hpne : parts ≠ [] := by rintro rfl; simp at hpl
  obtain ⟨cparts, cw, c1, c2, c3, c4, c5⟩ := buildColumns_spec cfg hp cols hcols (some parts.length)
    (by rintro n ⟨⟩; exact hpl)
  have hall := stripRows_all ds p2
  let fs := parts.map (pqStrip num ds filter cols)
  have hfs : ∀ f ∈ fs, f.WF ∧ f.columns = cols := by
    intro f hf
    obtain ⟨rs, _, rfl⟩ := List.mem_map.mp hf
    exact ⟨pqStrip_wf _ _ _ _ _, rfl⟩
  have hfne : fs ≠ [] := by simpa [fs] using hpne
  obtain ⟨rl, r1, r2, r3⟩ := pqNormRows_spec cfg hmr cols fs hfne hfs cw
  have hwf0 : (Frame.stackRows cols fs).WF := by
    constructor
    · simp only [fs]
      rw [strips_rows, strips_index_length, List.length_map]
    · intro r hr
      simp only [fs] at hr
      rw [strips_rows] at hr
      obtain ⟨x, _, rfl⟩ := List.mem_map.mp hr
      simp [Frame.stackRows]
  obtain ⟨cw', n1, n2⟩ := pqNormCols_spec cfg hmc (df := Frame.stackRows cols fs) hwf0 (rl := rl) (cw := cw)
    ⟨r1, c3, r2, c4⟩
  have hgrid := pqDeploy_eq num ds filter cols parts p4 cw c3
  have hgne : (fs.map fun f => (sliceBounds cw).map fun q => f.ilocCols q.1 q.2).isEmpty = false := by
    cases hfs' : fs with
    | nil => exact absurd hfs' hfne
    | cons _ _ => rfl
  -- the labels
  have hidx : pqIndex num ds filter (fs.map fun f => (sliceBounds cw).map fun q => f.ilocCols q.1 q.2) =
      (pqReadLabels num ds filter, ds.info != .stored) := by
    have hobj := filterMap_head c3 fs (fun b => b.index) (fun _ _ => rfl)
    unfold pqIndex pqReadLabels
    simp only [hgne, Bool.false_and, Bool.or_false, hobj, Bool.false_eq_true, ↓reduceIte]
    by_cases hst : ds.info = .stored
    · have e1 : (ds.info != .stored) = false := by rw [hst]; rfl
      have e2 : (ds.info == .stored) = true := by rw [hst]; rfl
      rw [e1, e2]
      simp only [Bool.false_and, Bool.false_eq_true, ↓reduceIte, Bool.or_true, Prod.mk.injEq, and_true]
      have := strips_index_stored num ds hst filter cols parts
      rw [hall] at this
      rw [hst]
      exact this
    · have e1 : (ds.info != .stored) = true := by simpa using hst
      have e2 : (ds.info == .stored) = false := by simpa using hst
      rw [e1, e2]
      cases filter with
      | none => simp [keptRows]
      | some p =>
        simp only [Option.isNone_some, Bool.and_false, Bool.false_eq_true, ↓reduceIte, Bool.or_false]
        congr 2
        have := strips_index_length num ds (some p) cols parts
        rw [hall] at this
        rw [← this]
        simp [Frame.stackRows, fs, List.length_flatten]
  have hs : LFrame.Shows (LFrame.mk (MFrame.mk ((Frame.stackRows cols fs).cut rl cw')
      (some (pqReadLabels num ds filter)) (some cols) (some rl) (some cw')) (ds.info != .stored) false)
      { index := pqReadLabels num ds filter, columns := cols,
        rows := (keptRows filter ds.rows).map fun r => cols.map r.cells } := by
    refine ⟨⟨?_, ?_⟩, ⟨Frame.stackRows cols fs, rl, cw', hwf0, ?_, rfl, n1, rfl, Or.inr rfl, Or.inr rfl, ?_,
      fun _ => rfl⟩, Or.inr rfl, Or.inr rfl⟩
    · simp [pqReadLabels_length]
    · intro r hr
      obtain ⟨x, _, rfl⟩ := List.mem_map.mp hr
      simp
    · simp only [fs]
      rw [strips_rows, hall]
    · intro hst
      have hst' : ds.info = .stored := by simpa using hst
      simp only [fs]
      rw [strips_index_stored num ds hst', hall]
      simp [pqReadLabels, hst', pqLabels]
  obtain ⟨m, m1, m2⟩ := mk'_shows hs
  refine ⟨_, ?_, m2⟩
  unfold readParquet
  rw [hcs]
  simp only
  rw [p1, Option.bind_some, c1, Option.bind_some]
  simp only
  rw [c5, hgrid, Option.bind_some]
  have hn : pqNormalize cfg (fs.map fun f => (sliceBounds cw).map fun q => f.ilocCols q.1 q.2) cw =
      some ((Frame.stackRows cols fs).cut rl cw', some rl, cw') := by
    unfold pqNormalize
    rw [hgne, filterMap_head c3 fs (fun b => b.nrows) (fun _ _ => rfl)]
    simp only [Bool.false_eq_true, ↓reduceIte]
    rw [r3, Option.bind_some]
    simp only
    rw [n2]
    rfl
  rw [hn, Option.bind_some, hidx]
  simp only
  have m1' : MFrame.mk' (MFrame.mk ((Frame.stackRows cols fs).cut rl cw') (some (pqReadLabels num ds filter)) (some cols)
    (some rl) (some cw')) = some m := m1
  rw [m1']
  rfl

/-! ### the range of labels after filtering -/

theorem pyRangeLen_of_mul {start stop step : Int} (hs : step ≠ 0) {n : Nat} (h : (n : Int) * step = stop - start) :
    pyRangeLen start stop step = n := by
  unfold pyRangeLen
  rcases Nat.eq_zero_or_pos n with rfl | hn
  · have : stop = start := by simp at h; omega
    subst this
    rw [if_neg (by omega), if_neg (by omega)]
  · have hn' : (1 : Int) ≤ n := by omega
    rcases Int.lt_or_gt_of_ne hs with hneg | hpos
    · have hlt : stop < start := by
        have : (n : Int) * step ≤ 1 * step := by
          have := Int.mul_le_mul_of_nonpos_right hn' (Int.le_of_lt hneg)
          exact this
        omega
      rw [if_neg (by omega), if_pos ⟨hneg, hlt⟩]
      have e : start - stop - 1 = (n - 1 : Int) * (-step) + (-step - 1) := by
        have : start - stop = (n : Int) * (-step) := by rw [Int.mul_neg]; omega
        rw [this, Int.sub_mul]; omega
      rw [e, Int.add_comm (_ * _), Int.add_mul_ediv_right _ _ (by omega),
        Int.ediv_eq_zero_of_lt (by omega) (by omega)]
      omega
    · have hlt : start < stop := by
        have : 1 * step ≤ (n : Int) * step := Int.mul_le_mul_of_nonneg_right hn' (Int.le_of_lt hpos)
        omega
      rw [if_pos ⟨hpos, hlt⟩]
      have e : stop - start - 1 = (n - 1 : Int) * step + (step - 1) := by
        rw [← h, Int.sub_mul]; omega
      rw [e, Int.add_comm (_ * _), Int.add_mul_ediv_right _ _ (by omega),
        Int.ediv_eq_zero_of_lt (by omega) (by omega)]
      omega

theorem pqFilteredRange_eq (num : Int → ι) (info : IndexInfo)
    (hd : ∀ start stop step, info = .range start stop step → step ≠ 0 ∧ step ∣ (stop - start)) (hi : info ≠ .stored)
    (rows : List (StoredRow ι κ α)) :
    pqFilteredRange num info rows.length = pqLabels num info rows := by
  cases info with
  | stored => exact absurd rfl hi
  | unknown => rfl
  | range start stop step =>
    obtain ⟨h0, k, hk⟩ := hd start stop step rfl
    unfold pqFilteredRange pqLabels
    simp only
    by_cases h : step ≠ 0 ∧ (rows.length : Int) * step = stop - start
    · rw [if_pos h, if_pos (pyRangeLen_of_mul h.1 h.2)]
    · rw [if_neg h]
      split
      · rename_i he
        -- the described range has the right length although the product differs: both are empty
        rcases Nat.eq_zero_or_pos rows.length with hz | hpos
        · rw [hz]; rfl
        · exfalso
          apply h
          refine ⟨h0, ?_⟩
          by_cases hk0 : 0 ≤ k
          · obtain ⟨n, rfl⟩ := Int.eq_ofNat_of_zero_le hk0
            have := pyRangeLen_of_mul h0 (n := n) (start := start) (stop := stop) (by rw [hk, Int.mul_comm])
            rw [this] at he
            rw [← he, hk, Int.mul_comm]
          · -- a negative number of steps: the range is empty
            exfalso
            have hz : pyRangeLen start stop step = 0 := by
              unfold pyRangeLen
              rcases Int.lt_or_gt_of_ne h0 with hneg | hps
              · have : 0 < step * k := Int.mul_pos_of_neg_of_neg hneg (by omega)
                rw [if_neg (by omega), if_neg (by omega)]
              · have : step * k < 0 := Int.mul_neg_of_pos_of_neg hps (by omega)
                rw [if_neg (by omega), if_neg (by omega)]
            omega
      · rfl

/-! ### read_feather -/

theorem getElem?_range_map_congr {τ : Type} {f g : Nat → τ} {n : Nat} (h : ∀ i < n, f i = g i) :
    (List.range n).map f = (List.range n).map g :=
  List.map_congr_left fun i hi => h i (List.mem_range.mp hi)

theorem columnStoreRowLens_eq (cfg : Cfg) (hp : 1 ≤ cfg.nPartitions) (n : Nat) :
    columnStoreRowLens cfg n = getLengthList n cfg.nPartitions cfg.minRow := by
  unfold columnStoreRowLens getLengthList
  cases computeChunksize n cfg.nPartitions cfg.minRow with
  | none => rfl
  | some c =>
    simp only [Option.map_some, Option.some.injEq]
    obtain ⟨k, hk⟩ : ∃ k, cfg.nPartitions = k + 1 := ⟨cfg.nPartitions - 1, by omega⟩
    rw [hk]
    split
    · rename_i hlt
      rw [List.range_succ_eq_map, List.map_cons]
      have h1 : ¬ (0 + 1) * c ≤ n := by omega
      rw [if_neg h1, Nat.zero_mul, Nat.sub_zero, Nat.add_sub_cancel]
      congr 1
      apply List.ext_getElem
      · simp
      · intro i h1 h2
        simp only [List.getElem_replicate, List.getElem_map, List.getElem_range, Nat.succ_eq_add_one]
        have : c ≤ (i + 1) * c := Nat.le_mul_of_pos_left c (by omega)
        have h3 : c ≤ (i + 1 + 1) * c := Nat.le_mul_of_pos_left c (by omega)
        rw [if_neg (by omega)]; omega
    · apply getElem?_range_map_congr
      intro i _
      have e1 : (i + 1) * c = c * i + c := by rw [Nat.add_mul, Nat.one_mul, Nat.mul_comm]
      have e2 : i * c = c * i := Nat.mul_comm _ _
      rw [e1, e2]
      split <;> split <;> omega

theorem pqFrame_wf (num : Int → ι) (info : IndexInfo) (cols : List κ) (rows : List (StoredRow ι κ α)) :
    (pqFrame num info cols rows).WF := by
  constructor
  · simp [pqFrame, pqLabels_length]
  · intro r hr
    simp only [pqFrame, List.mem_map] at hr
    obtain ⟨x, _, rfl⟩ := hr
    simp [pqFrame]

theorem pqFrame_cols (num : Int → ι) (info : IndexInfo) (cols : List κ) (rows : List (StoredRow ι κ α)) (q : Nat × Nat) :
    pqFrame num info (pySlice cols q.1 q.2) rows = (pqFrame num info cols rows).ilocCols q.1 q.2 := by
  simp [pqFrame, Frame.ilocCols, pySlice_map, Function.comp_def]

theorem readFeather_represents (cfg : Cfg) (hp : 1 ≤ cfg.nPartitions) (hmr : 1 ≤ cfg.minRow) (num : Int → ι)
    (cols : List κ) (hcols : cols ≠ []) (rows : List (StoredRow ι κ α)) :
    ∃ m, readFeather cfg num cols rows = some m ∧ m.Represents (pqFrame num .unknown cols rows) := by
  obtain ⟨cparts, cw, c1, c2, c3, c4, c5⟩ := buildColumns_spec cfg hp cols hcols none (by simp)
  have hwf := pqFrame_wf num .unknown cols rows
  have hn : (pqFrame num .unknown cols rows).nrows = rows.length := by
    simp [pqFrame, Frame.nrows, pqLabels_length]
  obtain ⟨lens, l1, l2, l3⟩ := getLengthList_some (n := rows.length) hp hmr
  have hsplit : ∀ q ∈ sliceBounds cw, splitResult true cfg.nPartitions (pqFrame num .unknown (pySlice cols q.1 q.2) rows)
      cfg.minRow none = some ((sliceBounds lens).map fun p =>
        ((pqFrame num .unknown cols rows).ilocRows p.1 p.2).ilocCols q.1 q.2) := by
    intro q _
    rw [pqFrame_cols]
    by_cases h1 : cfg.nPartitions = 1
    · have hl : lens = [rows.length] := by
        rw [h1, getLengthList_one hmr] at l1
        exact (Option.some.inj l1).symm
      rw [hl, sliceBounds_single]
      unfold splitResult
      rw [if_pos h1]
      simp only [List.map_cons, List.map_nil]
      rw [← hn, hwf.ilocRows_all]
    · rw [splitResult_rows _ _ h1 _ none lens (Or.inr ⟨rfl, by rw [← l1, ← hn]; rfl⟩)]
      simp only [Frame.ilocCols_ilocRows]
  have hdep : featherDeploy num cfg rows cparts = some ((pqFrame num .unknown cols rows).cut lens cw) := by
    unfold featherDeploy
    rw [c5, mapM_map_some _ _ _ _ hsplit, Option.bind_some, ← l3, ← sliceBounds_length lens,
      pieces_transpose (sliceBounds lens) (sliceBounds cw) fun p q =>
        ((pqFrame num .unknown cols rows).ilocRows p.1 p.2).ilocCols q.1 q.2]
    rfl
  have hrep : MFrame.Represents (MFrame.mk ((pqFrame num .unknown cols rows).cut lens cw)
      (some (rangeLabels num 0 1 rows.length)) (some cols) (some lens) (some cw)) (pqFrame num .unknown cols rows) :=
    ⟨hwf, ⟨lens, cw, ⟨by rintro rfl; simp at l3; omega, c3, by rw [l2, hn], c4⟩, rfl, Or.inr rfl, Or.inr rfl⟩,
      Or.inr rfl, Or.inr rfl⟩
  obtain ⟨m, m1, m2⟩ := represents_mk' hrep
  refine ⟨m, ?_, m2⟩
  unfold readFeather
  rw [c1, Option.bind_some]
  simp only
  rw [hdep, Option.bind_some, columnStoreRowLens_eq cfg hp, l1, Option.bind_some]
  exact m1

/-! ### read_sql -/

theorem limitOffset_eq {τ : Type} (rows : List τ) (limit i : Nat) :
    limitOffset rows limit (i * limit) = pySlice rows (i * limit) (i * limit + limit) := by
  unfold limitOffset pySlice
  rw [show i * limit + limit - i * limit = limit by omega]

theorem sqlLimit_mul (n k : Nat) (hk : 1 ≤ k) : n ≤ k * sqlLimit n k := by
  unfold sqlLimit
  have := ceil_mul_ge n k hk
  rw [Nat.mul_comm]; exact this

theorem sql_parts {τ : Type} (rows : List τ) (k : Nat) (hk : 1 ≤ k) :
    ((List.range k).map fun part => limitOffset rows (sqlLimit rows.length k) (part * sqlLimit rows.length k)).flatten =
      rows := by
  simp only [limitOffset_eq]
  rw [map_range_slices, List.take_of_length_le (sqlLimit_mul _ _ hk)]

theorem readSql_shows (cfg : Cfg) (hp : 1 ≤ cfg.nPartitions) (hmc : 1 ≤ cfg.minCol) (num : Int → ι) (indexCol : Bool)
    (cols : List κ) (rows : List (StoredRow ι κ α)) :
    ∃ m, readSql cfg num indexCol cols rows = some m ∧ m.Shows (pandasReadSql num indexCol cols rows) := by
  let parts := (List.range cfg.nPartitions).map fun part =>
    limitOffset rows (sqlLimit rows.length cfg.nPartitions) (part * sqlLimit rows.length cfg.nPartitions)
  have hparts : parts.flatten = rows := sql_parts rows _ hp
  have hpne : parts ≠ [] := by
    simp only [parts]
    intro h
    have := congrArg List.length h
    simp at this; omega
  let fs := parts.map (pandasReadSql num indexCol cols)
  have hfs : ∀ f ∈ fs, f.WF ∧ f.columns = cols := by
    intro f hf
    obtain ⟨x, _, rfl⟩ := List.mem_map.mp hf
    exact ⟨pqFrame_wf _ _ _ _, rfl⟩
  have hfne : fs ≠ [] := by simpa [fs] using hpne
  obtain ⟨lens, l1, l2, l3⟩ := getLengthList_some (n := cols.length) hp hmc
  have hlne : lens ≠ [] := by rintro rfl; simp at l3; omega
  have hsplit : ∀ f ∈ fs, splitResult false cfg.nPartitions f cfg.minCol none =
      some ((sliceBounds lens).map fun q => f.ilocCols q.1 q.2) := by
    intro f hf
    obtain ⟨hw, hcl⟩ := hfs f hf
    have hnc : f.ncols = cols.length := by unfold Frame.ncols; rw [hcl]
    by_cases h1 : cfg.nPartitions = 1
    · have hl : lens = [cols.length] := by
        rw [h1, getLengthList_one hmc] at l1
        exact (Option.some.inj l1).symm
      unfold splitResult
      rw [if_pos h1, hl, sliceBounds_single]
      simp only [List.map_cons, List.map_nil]
      rw [← hnc, hw.ilocCols_all]
    · exact splitResult_cols _ _ h1 _ none lens (Or.inr ⟨rfl, by rw [← l1, ← hnc]⟩)
  have hrows : (Frame.stackRows cols fs).rows = (pandasReadSql num indexCol cols rows).rows := by
    simp only [Frame.stackRows, fs, List.map_map, Function.comp_def, pandasReadSql, pqFrame]
    conv => rhs; rw [← hparts, List.map_flatten]
  have hilen : (Frame.stackRows cols fs).index.length = rows.length := by
    have : rows.length = (parts.map List.length).sum := by rw [← List.length_flatten, hparts]
    rw [this]
    simp only [Frame.stackRows, fs, List.map_map, Function.comp_def, pandasReadSql, pqFrame, List.length_flatten,
      pqLabels_length]
  have hindex : (if indexCol then (fs.map (·.index)).flatten else rangeLabels num 0 1 ((fs.map (·.nrows)).sum)) =
      (pandasReadSql num indexCol cols rows).index := by
    have hsum : (fs.map (·.nrows)).sum = rows.length := by
      rw [← hilen]; simp [Frame.stackRows, List.length_flatten, Frame.nrows, Function.comp_def]
    rw [hsum]
    cases indexCol with
    | false => rfl
    | true =>
      simp only [↓reduceIte, fs, List.map_map, Function.comp_def, pandasReadSql, pqFrame, pqLabels]
      conv => rhs; rw [← hparts, List.map_flatten]
  have hwf0 : (Frame.stackRows cols fs).WF := by
    constructor
    · rw [hrows, hilen]; simp [pandasReadSql, pqFrame]
    · rw [hrows]; exact (pqFrame_wf num _ cols rows).row_width
  have hs : LFrame.Shows (LFrame.mk (MFrame.mk ((Frame.stackRows cols fs).cut (fs.map (·.nrows)) lens)
      (some (pandasReadSql num indexCol cols rows).index) (some cols) none none) true false)
      (pandasReadSql num indexCol cols rows) := by
    refine ⟨pqFrame_wf _ _ _ _, ⟨Frame.stackRows cols fs, _, lens, hwf0, hrows, rfl, ?_, rfl, Or.inl rfl, Or.inl rfl, ?_,
      fun _ => rfl⟩, Or.inr rfl, Or.inr rfl⟩
    · exact stackRows_isCut cols hfne hlne l2
    · simp
  obtain ⟨m, m1, m2⟩ := mk'_shows hs
  refine ⟨_, ?_, m2⟩
  have hres : ((List.range cfg.nPartitions).map fun part => pandasReadSql num indexCol cols
      (limitOffset rows (sqlLimit rows.length cfg.nPartitions) (part * sqlLimit rows.length cfg.nPartitions))) = fs := by
    simp [fs, parts, Function.comp_def]
  unfold readSql
  simp only
  rw [hres, mapM_some_congr hsplit, Option.bind_some, hindex, stack_cut cols lens fs hfs]
  have m1' : MFrame.mk' (MFrame.mk ((Frame.stackRows cols fs).cut (fs.map (·.nrows)) lens)
      (some (pandasReadSql num indexCol cols rows).index) (some cols) none none) = some m := m1
  rw [m1']
  rfl
