import Verif.Model.Rebalance
import Verif.Lemmas.Represents
import Verif.Lemmas.Locate

variable {ι κ α : Type}

/-- the row band `[a, b)` of a frame cut into column bands -/
def bandAt (df : Frame ι κ α) (cw : List Nat) (a b : Nat) : List (Frame ι κ α) :=
  (sliceBounds cw).map fun q => (df.ilocRows a b).ilocCols q.1 q.2

/-- consecutive bands from row `s` on -/
def bandsFrom (df : Frame ι κ α) (cw : List Nat) : Nat → List Nat → List (List (Frame ι κ α))
  | _, [] => []
  | s, l :: ls => bandAt df cw s (s + l) :: bandsFrom df cw (s + l) ls

def partsFrom (df : Frame ι κ α) (cw : List Nat) : Nat → List Nat → List (RowPart ι κ α)
  | _, [] => []
  | s, l :: ls => ⟨l, bandAt df cw s (s + l)⟩ :: partsFrom df cw (s + l) ls

theorem bandsFrom_eq (df : Frame ι κ α) (cw : List Nat) (s : Nat) (ls : List Nat) :
    bandsFrom df cw s ls = (consecutive (cumsumFrom s ls)).map fun p => bandAt df cw p.1 p.2 := by
  induction ls generalizing s with
  | nil => simp [bandsFrom, cumsumFrom, consecutive]
  | cons l ls ih => rw [bandsFrom, ih, consecutive_cumsumFrom_cons]; rfl

theorem cut_eq_bands (df : Frame ι κ α) (rl cw : List Nat) : df.cut rl cw = bandsFrom df cw 0 rl := by
  rw [bandsFrom_eq]; rfl

theorem partsFrom_blocks (df : Frame ι κ α) (cw : List Nat) (s : Nat) (ls : List Nat) :
    (partsFrom df cw s ls).map (·.blocks) = bandsFrom df cw s ls := by
  induction ls generalizing s with
  | nil => rfl
  | cons l ls ih => simp [partsFrom, bandsFrom, ih]

theorem partsFrom_lens (df : Frame ι κ α) (cw : List Nat) (s : Nat) (ls : List Nat) :
    (partsFrom df cw s ls).map (·.len) = ls := by
  induction ls generalizing s with
  | nil => rfl
  | cons l ls ih => simp [partsFrom, ih]

theorem partsFrom_append (df : Frame ι κ α) (cw : List Nat) (s : Nat) (a b : List Nat) :
    partsFrom df cw s (a ++ b) = partsFrom df cw s a ++ partsFrom df cw (s + a.sum) b := by
  induction a generalizing s with
  | nil => simp [partsFrom]
  | cons l ls ih => simp [partsFrom, ih, Nat.add_assoc]

theorem bandsFrom_append (df : Frame ι κ α) (cw : List Nat) (s : Nat) (a b : List Nat) :
    bandsFrom df cw s (a ++ b) = bandsFrom df cw s a ++ bandsFrom df cw (s + a.sum) b := by
  induction a generalizing s with
  | nil => simp [bandsFrom]
  | cons l ls ih => simp [bandsFrom, ih, Nat.add_assoc]

theorem mergeRows_bands [DecidableEq κ] (df : Frame ι κ α) (cw : List Nat) (s : Nat) (ls : List Nat)
    (hne : ls ≠ []) :
    mergeRows (bandsFrom df cw s ls) = some (bandAt df cw s (s + ls.sum)) := by
  have hc : consecutive (cumsumFrom s ls) ≠ [] := by
    cases ls with
    | nil => exact absurd rfl hne
    | cons l ls => rw [consecutive_cumsumFrom_cons]; simp
  unfold mergeRows
  rw [bandsFrom_eq]
  unfold bandAt
  rw [colBlocks_matrix _ _ _ hc, mapM_map_some (g := fun q => (df.ilocRows s (s + ls.sum)).ilocCols q.1 q.2)]
  intro q _
  rw [Frame.vcat_eq (c := pySlice df.columns q.1 q.2) (by simpa using hc)]
  · congr 1
    simp only [Frame.ilocRows, Frame.ilocCols, List.map_map, Frame.mk.injEq, true_and]
    constructor
    · have := sliceBounds_flatten_aux df.index ls s
      simp only [Function.comp_def]
      rw [this]; simp [pySlice]
    · have := sliceBounds_flatten_aux (df.rows.map fun r => pySlice r q.1 q.2) ls s
      simp only [Function.comp_def, ← pySlice_map]
      rw [this]; simp [pySlice]
  · intro x hx
    simp only [List.mem_map] at hx
    obtain ⟨p, _, rfl⟩ := hx
    rfl

theorem ilocRows_ilocRows (f : Frame ι κ α) (a b c d : Nat) (hd : c + (d - c) ≤ b - a ∨ b - a ≤ d) (hcd : c ≤ d) :
    (f.ilocRows a b).ilocRows c d = f.ilocRows (a + c) (min (a + d) b) := by
  have key : ∀ {τ : Type} (l : List τ), pySlice (pySlice l a b) c d = pySlice l (a + c) (min (a + d) b) := by
    intro τ l
    unfold pySlice
    rw [List.drop_take, List.take_take, List.drop_drop]
    congr 1
    omega
  simp only [Frame.ilocRows, key]

theorem bandAt_split {df : Frame ι κ α} {cw : List Nat} {s l k : Nat} (hk : k ≤ l)
    (hn : s + l ≤ df.nrows) :
    (bandAt df cw s (s + l)).map (fun b => b.ilocRows 0 k) = bandAt df cw s (s + k) ∧
    (bandAt df cw s (s + l)).map (fun b => b.ilocRows k b.nrows) = bandAt df cw (s + k) (s + l) := by
  constructor
  · unfold bandAt
    rw [List.map_map]
    apply List.map_congr_left
    intro q _
    simp only [Function.comp]
    rw [Frame.ilocCols_ilocRows, ilocRows_ilocRows _ _ _ _ _ (by omega) (by omega)]
    congr 2
    omega
  · unfold bandAt
    rw [List.map_map]
    apply List.map_congr_left
    intro q _
    simp only [Function.comp]
    have hnr : ((df.ilocRows s (s + l)).ilocCols q.1 q.2).nrows = l := by
      unfold Frame.nrows at hn
      simp only [Frame.nrows, Frame.ilocCols, Frame.ilocRows, pySlice, List.length_take,
        List.length_drop]
      omega
    rw [hnr, Frame.ilocCols_ilocRows, ilocRows_ilocRows _ _ _ _ _ (by omega) (by omega)]
    congr 2
    omega

/-- what one group of the loop does to the lengths -/
theorem grow_spec (df : Frame ι κ α) (cw : List Nat) (ideal s : Nat) (accL : List Nat) (l : Nat)
    (ls : List Nat) (hacc : accL = [] ∨ accL.sum < ideal) :
    (∃ L, L = accL ++ l :: ls ∧
      grow ideal (partsFrom df cw s accL) (accL.sum + l) ⟨l, bandAt df cw (s + accL.sum) (s + accL.sum + l)⟩
        (partsFrom df cw (s + accL.sum + l) ls) = (partsFrom df cw s L, L.sum, none, [])) ∨
    (∃ pre k post, accL ++ l :: ls = pre ++ k :: post ∧ (pre = [] ∨ pre.sum < ideal) ∧ ideal ≤ pre.sum + k ∧
      grow ideal (partsFrom df cw s accL) (accL.sum + l) ⟨l, bandAt df cw (s + accL.sum) (s + accL.sum + l)⟩
        (partsFrom df cw (s + accL.sum + l) ls)
      = (partsFrom df cw s pre, pre.sum + k, some ⟨k, bandAt df cw (s + pre.sum) (s + pre.sum + k)⟩,
          partsFrom df cw (s + pre.sum + k) post)) := by
  induction ls generalizing accL l with
  | nil =>
    by_cases h : accL.sum + l < ideal
    · left
      refine ⟨_, rfl, ?_⟩
      simp only [partsFrom, grow, h, ↓reduceIte]
      rw [partsFrom_append]
      simp [partsFrom]
    · right
      refine ⟨accL, l, [], rfl, hacc, by omega, ?_⟩
      simp only [partsFrom, grow, h, ↓reduceIte]
  | cons x xs ih =>
    by_cases h : accL.sum + l < ideal
    · have hs : (accL ++ [l]).sum = accL.sum + l := by simp
      have e : grow ideal (partsFrom df cw s accL) (accL.sum + l)
          ⟨l, bandAt df cw (s + accL.sum) (s + accL.sum + l)⟩ (partsFrom df cw (s + accL.sum + l) (x :: xs))
          = grow ideal (partsFrom df cw s (accL ++ [l])) ((accL ++ [l]).sum + x)
            ⟨x, bandAt df cw (s + (accL ++ [l]).sum) (s + (accL ++ [l]).sum + x)⟩
            (partsFrom df cw (s + (accL ++ [l]).sum + x) xs) := by
        conv => lhs; unfold partsFrom grow
        simp only [h, ↓reduceIte]
        rw [hs, partsFrom_append]
        simp only [partsFrom, ← Nat.add_assoc]
        cases accL <;> simp [partsFrom]
      rw [e]
      have := ih (accL ++ [l]) x (Or.inr (by rw [hs]; exact h))
      simpa only [List.append_assoc, List.cons_append, List.nil_append] using this
    · right
      refine ⟨accL, l, x :: xs, rfl, hacc, by omega, ?_⟩
      rw [show partsFrom df cw (s + accL.sum + l) (x :: xs)
        = ⟨x, bandAt df cw (s + accL.sum + l) (s + accL.sum + l + x)⟩
          :: partsFrom df cw (s + accL.sum + l + x) xs from rfl, grow, if_neg h]

theorem takeGroup_spec (df : Frame ι κ α) (cw : List Nat) (ideal s l : Nat) (ls : List Nat)
    (hi : 1 ≤ ideal) (hn : s + (l :: ls).sum ≤ df.nrows) :
    ∃ a b, a ≠ [] ∧ a.sum + b.sum = (l :: ls).sum ∧ (b = [] ∨ ideal ≤ a.sum) ∧
      takeGroup ideal ⟨l, bandAt df cw s (s + l)⟩ (partsFrom df cw (s + l) ls)
        = (partsFrom df cw s a, partsFrom df cw (s + a.sum) b) := by
  have h := grow_spec df cw ideal s [] l ls (Or.inl rfl)
  simp only [List.sum_nil, Nat.zero_add, Nat.add_zero, List.nil_append, partsFrom] at h
  rcases h with ⟨L, hL, hg⟩ | ⟨pre, k, post, hsplit, hpre, hk, hg⟩
  · refine ⟨L, [], by rw [hL]; simp, by rw [hL]; simp, Or.inl rfl, ?_⟩
    unfold takeGroup
    rw [hg]
    rfl
  · have hsum : (l :: ls).sum = pre.sum + k + post.sum := by rw [hsplit]; simp; omega
    have hpi : pre.sum < ideal := by
      rcases hpre with h | h
      · rw [h]; exact hi
      · exact h
    unfold takeGroup
    rw [hg]
    simp only
    split
    · rename_i hbig
      rw [partsFrom_lens]
      have hb := bandAt_split (df := df) (cw := cw) (s := s + pre.sum) (l := k)
        (k := ideal - pre.sum) (by omega) (by omega)
      refine ⟨pre ++ [ideal - pre.sum], (pre.sum + k - ideal) :: post, by simp, ?_, Or.inr ?_, ?_⟩
      · rw [hsum]; simp only [List.sum_append, List.sum_cons, List.sum_nil]; omega
      · simp; omega
      · have e1 : pre.sum + (ideal - pre.sum) = ideal := by omega
        rw [partsFrom_append, hb.1, hb.2, e1]
        have e2 : (pre ++ [ideal - pre.sum]).sum = ideal := by simp; omega
        have e3 : s + pre.sum + (ideal - pre.sum) = s + ideal := by omega
        have e4 : s + ideal + (pre.sum + k - ideal) = s + pre.sum + k := by omega
        rw [e2, e3]
        simp only [partsFrom, e3, e4]
    · refine ⟨pre ++ [k], post, by simp, ?_, Or.inr ?_, ?_⟩
      · rw [hsum]; simp
      · simp; omega
      · rw [partsFrom_append]
        simp [partsFrom, Nat.add_assoc]

/-- the groups described by lists of lengths -/
def groupsFrom (df : Frame ι κ α) (cw : List Nat) : Nat → List (List Nat) → List (List (RowPart ι κ α))
  | _, [] => []
  | s, g :: gs => partsFrom df cw s g :: groupsFrom df cw (s + g.sum) gs

theorem rebalanceLoop_spec (df : Frame ι κ α) (cw : List Nat) (ideal : Nat) (hi : 1 ≤ ideal)
    (n s : Nat) (ls : List Nat) (hn : s + ls.sum ≤ df.nrows) (hcap : ls.sum ≤ n * ideal) :
    ∃ gs : List (List Nat), (∀ g ∈ gs, g ≠ []) ∧ (gs.map List.sum).sum = ls.sum ∧
      (ls ≠ [] → 0 < n → gs ≠ []) ∧ gs.length ≤ n ∧
      rebalanceLoop ideal n (partsFrom df cw s ls) = groupsFrom df cw s gs := by
  induction n generalizing s ls with
  | zero => exact ⟨[], by simp, by simp; omega, by simp, by simp, rfl⟩
  | succ n ih =>
    cases ls with
    | nil => exact ⟨[], by simp, by simp, by simp, by simp, rfl⟩
    | cons l ls =>
      obtain ⟨a, b, ha, hsum, hb, htg⟩ := takeGroup_spec df cw ideal s l ls hi hn
      have hcap' : b.sum ≤ n * ideal := by
        rcases hb with rfl | h
        · simp
        · rw [Nat.succ_mul] at hcap; omega
      obtain ⟨gs, h1, h2, _, h4, h5⟩ := ih (s + a.sum) b (by omega) hcap'
      refine ⟨a :: gs, ?_, ?_, by simp, by simp; omega, ?_⟩
      · intro g hg
        rcases List.mem_cons.1 hg with rfl | hg
        · exact ha
        · exact h1 g hg
      · rw [List.map_cons, List.sum_cons, h2, hsum]
      · rw [partsFrom, rebalanceLoop, htg, groupsFrom, h5]

theorem mergeGroups [DecidableEq κ] (df : Frame ι κ α) (cw : List Nat) (s : Nat)
    (gs : List (List Nat)) (hne : ∀ g ∈ gs, g ≠ []) :
    ((groupsFrom df cw s gs).mapM fun grp => mergeRows (grp.map (·.blocks)))
      = some (bandsFrom df cw s (gs.map List.sum)) ∧
    (groupsFrom df cw s gs).map (fun grp => (grp.map (·.len)).sum) = gs.map List.sum := by
  induction gs generalizing s with
  | nil => simp [groupsFrom, bandsFrom]
  | cons g gs ih =>
    have ih := ih (s + g.sum) (fun x hx => hne x (List.mem_cons_of_mem _ hx))
    constructor
    · rw [groupsFrom, List.mapM_cons, partsFrom_blocks,
        mergeRows_bands df cw s g (hne g (by simp)), ih.1]
      rfl
    · rw [groupsFrom, List.map_cons, partsFrom_lens, ih.2, List.map_cons]

theorem sum_flatten' (L : List (List Nat)) : L.flatten.sum = (L.map List.sum).sum := by
  induction L with
  | nil => rfl
  | cons a L ih => simp [ih]

theorem bandsFrom_parts (df : Frame ι κ α) (cw : List Nat) (hcw : cw ≠ []) (s : Nat) (ls : List Nat)
    (hn : s + ls.sum ≤ df.nrows) :
    ((bandsFrom df cw s ls).map fun row =>
      (⟨(row.head?.map (·.nrows)).getD 0, row⟩ : RowPart ι κ α)) = partsFrom df cw s ls := by
  induction ls generalizing s with
  | nil => rfl
  | cons l ls ih =>
    rw [bandsFrom, List.map_cons, partsFrom, ih (s + l) (by simp at hn; omega)]
    congr 1
    congr 1
    cases cw with
    | nil => exact absurd rfl hcw
    | cons w cw =>
      unfold bandAt sliceBounds
      rw [consecutive_cumsumFrom_cons]
      simp only [List.sum_cons, Frame.nrows] at hn
      simp only [List.map_cons, List.head?_cons, Option.map_some, Option.getD_some, Frame.nrows,
        Frame.ilocCols, Frame.ilocRows, pySlice, List.length_take, List.length_drop]
      omega

theorem groupsFrom_append (df : Frame ι κ α) (cw : List Nat) (s : Nat) (a b : List (List Nat)) :
    groupsFrom df cw s (a ++ b) = groupsFrom df cw s a ++ groupsFrom df cw (s + (a.map List.sum).sum) b := by
  induction a generalizing s with
  | nil => simp [groupsFrom]
  | cons l ls ih => simp [groupsFrom, ih, Nat.add_assoc]

theorem pySlice_partsFrom (df : Frame ι κ α) (cw : List Nat) (s : Nat) (rl : List Nat) (i j : Nat) :
    pySlice (partsFrom df cw s rl) i j = partsFrom df cw (s + (rl.take i).sum) (pySlice rl i j) := by
  have hd : ∀ (s : Nat) (rl : List Nat) (i : Nat),
      (partsFrom df cw s rl).drop i = partsFrom df cw (s + (rl.take i).sum) (rl.drop i) := by
    intro s rl i
    induction i generalizing s rl with
    | zero => simp
    | succ i ih => cases rl with
      | nil => simp [partsFrom]
      | cons l ls => simp [partsFrom, ih, Nat.add_assoc]
  have ht : ∀ (s : Nat) (rl : List Nat) (i : Nat),
      (partsFrom df cw s rl).take i = partsFrom df cw s (rl.take i) := by
    intro s rl i
    induction i generalizing s rl with
    | zero => simp [partsFrom]
    | succ i ih => cases rl with
      | nil => simp [partsFrom]
      | cons l ls => simp [partsFrom, ih]
  rw [pySlice_eq, hd, ht, pySlice_eq]

theorem slices_groupsFrom (df : Frame ι κ α) (cw rl : List Nat) (c k : Nat) :
    ((List.range k).map fun i => pySlice (partsFrom df cw 0 rl) (i * c) (i * c + c))
      = groupsFrom df cw 0 ((List.range k).map fun i => pySlice rl (i * c) (i * c + c)) := by
  induction k with
  | zero => simp [groupsFrom]
  | succ k ih =>
    have hs : (((List.range k).map fun i => pySlice rl (i * c) (i * c + c)).map List.sum).sum
        = (rl.take (k * c)).sum := by
      rw [← map_range_slices rl c k, sum_flatten']
    rw [List.range_succ, List.map_append, List.map_append, ih, groupsFrom_append, hs]
    simp [groupsFrom, pySlice_partsFrom]

/-- merging runs of rows gives a coarser cut -/
theorem mergeSlices [DecidableEq κ] (df : Frame ι κ α) (cw rl : List Nat) (c : Nat) (hc : 0 < c) :
    ((pyRangeStep rl.length c).mapM fun i => mergeRows (pySlice (bandsFrom df cw 0 rl) i (i + c)))
      = some (bandsFrom df cw 0 ((pyRangeStep rl.length c).map fun i => (pySlice rl i (i + c)).sum)) := by
  have hg := (mergeGroups df cw 0 ((List.range ((rl.length + c - 1) / c)).map
    fun i => pySlice rl (i * c) (i * c + c)) (by
      intro g hg
      simp only [List.mem_map, List.mem_range] at hg
      obtain ⟨i, hi, rfl⟩ := hg
      have := (mem_pyRangeStep hc (List.mem_map.2 ⟨i, List.mem_range.2 hi, rfl⟩)).1
      intro h
      have hl := congrArg List.length h
      simp only [pySlice_length, List.length_nil] at hl
      omega)).1
  rw [← slices_groupsFrom] at hg
  rw [List.map_map] at hg
  unfold pyRangeStep
  rw [List.map_map]
  refine Eq.trans ?_ hg
  rw [List.mapM_map, List.mapM_map]
  congr 1
  funext i
  rw [Function.comp, ← partsFrom_blocks, pySlice_map]
  rfl

/-- Rebalancing a division of a frame gives a division of the same frame. -/
theorem rebalance_cut [DecidableEq κ] {df : Frame ι κ α} {rl cw : List Nat} (h : df.IsCut rl cw)
    (np : Nat) (hnp : 0 < np) (known : Bool) :
    ∃ rl' lens, df.IsCut rl' cw ∧ rebalance np known (df.cut rl cw) = some (df.cut rl' cw, lens) ∧
      (lens = none ∨ lens = some rl') ∧ (rl' = rl ∨ rl'.length ≤ np) := by
  have hlen : (df.cut rl cw).length = rl.length := by simp [Frame.cut, sliceBounds_length]
  have hpos : 0 < rl.length := List.length_pos_iff.2 h.rl_ne
  unfold rebalance
  split
  · exact ⟨rl, none, h, rfl, Or.inl rfl, Or.inl rfl⟩
  · rename_i hbig
    rw [hlen] at hbig
    cases known with
    | false =>
      simp only [Bool.not_false, ↓reduceIte, hlen]
      have hcs := computeChunksize_eq (n := rl.length) (k := np) (m := 1) hnp (by omega)
      cases hc : computeChunksize rl.length np 1 with
      | none => simp [hc] at hcs
      | some c =>
        obtain ⟨_, _, hc1, hcap⟩ := computeChunksize_spec hc
        refine ⟨(pyRangeStep rl.length c).map fun i => (pySlice rl i (i + c)).sum, none, ?_, ?_, Or.inl rfl, Or.inr ?_⟩
        · refine ⟨?_, h.cw_ne, ?_, h.cw_sum⟩
          · intro hnil
            have hl := congrArg List.length (List.map_eq_nil_iff.1 hnil)
            have := rangeStep_flatten rl c hc1
            rw [List.map_eq_nil_iff.1 hnil] at this
            exact h.rl_ne this.symm
          · rw [← h.rl_sum]
            conv => rhs; rw [← rangeStep_flatten rl c hc1]
            rw [sum_flatten', List.map_map]
            rfl
        · rw [cut_eq_bands, cut_eq_bands]
          show Option.map _ _ = _
          rw [mergeSlices df cw rl c hc1]
          rfl
        · have := fromPandasLengths_length_le hc1 (k := np) hcap
          simpa [fromPandasLengths] using this
    | true =>
      simp only [Bool.not_true, Bool.false_eq_true, ↓reduceIte]
      have hrows : ((df.cut rl cw).map fun row =>
          (⟨(row.head?.map (·.nrows)).getD 0, row⟩ : RowPart ι κ α)) = partsFrom df cw 0 rl := by
        rw [cut_eq_bands]
        exact bandsFrom_parts df cw h.cw_ne 0 rl (by rw [h.rl_sum]; omega)
      rw [hrows, partsFrom_lens]
      have hcs := computeChunksize_eq (n := rl.sum) (k := np) (m := 1) hnp (by omega)
      cases hc : computeChunksize rl.sum np 1 with
      | none => simp [hc] at hcs
      | some ideal =>
        obtain ⟨_, _, hc1, hcap⟩ := computeChunksize_spec hc
        rw [Nat.mul_comm] at hcap
        obtain ⟨gs, h1, h2, h3, h4, h5⟩ := rebalanceLoop_spec df cw ideal hc1 np 0 rl
          (by rw [h.rl_sum]; omega) hcap
        refine ⟨gs.map List.sum, some (gs.map List.sum), ⟨?_, h.cw_ne, ?_, h.cw_sum⟩, ?_, Or.inr rfl, Or.inr ?_⟩
        · simpa using h3 h.rl_ne hnp
        · rw [h2, h.rl_sum]
        · rw [cut_eq_bands]
          simp only [Option.bind_some]
          rw [h5, (mergeGroups df cw 0 gs h1).1, (mergeGroups df cw 0 gs h1).2]
          rfl
        · simpa using h4
