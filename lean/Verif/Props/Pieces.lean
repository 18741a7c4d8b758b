import Verif.Model.Pieces
import Verif.Props.Portion
import Verif.Lemmas.Equals
/-
# C97: cutting into pieces loses nothing and repeats nothing

`IsBatches`, `NpVal.splitAt` and `NpVal.splitEven` (Pandas/Pieces) say what the pieces are.
-/

variable {ι κ α τ : Type}

/-! ### train_test_split -/

/-- **C97** `train_test_split`: the rows of the two results, one after the other, are the rows of the frame with their labels, whatever
    number `int(len(df) * train_size)` is; the first has that number of rows, if there are so many.
    Partial: where one of the results is empty the labels of the columns must have been recorded (the witness is C84's). -/
theorem C97_train_test_split_partial [DecidableEq ι] [DecidableEq κ] (cfg : Cfg) (hp : 1 ≤ cfg.nPartitions) (hmr : 1 ≤ cfg.minRow)
    (hmc : 1 ≤ cfg.minCol) (known : Nat → Nat → Bool × Bool) (nan : α) (m : LFrame ι κ α) (df : Frame ι κ α) (h : m.Shows df)
    (size : Nat → Int)
    (hcols : (df.head (size df.nrows)).nrows = 0 ∨ (df.head (size df.nrows)).nrows = df.nrows → m.columns = some df.columns) :
    ∃ train test a b, m.trainTestSplit cfg known nan size = some (train, test) ∧ train.toPandas nan = some a ∧ test.toPandas nan = some b ∧
      a.index ++ b.index = df.index ∧ a.rows ++ b.rows = df.rows ∧ a.columns = df.columns ∧ b.columns = df.columns ∧
      (0 ≤ size df.nrows → a.nrows = min (size df.nrows).toNat df.nrows) := by
  have hi : m.getIndex.length = df.nrows := by rw [h.getIndex]; rfl
  have h1 := C84_head_partial cfg hp hmr hmc known nan m df h (size df.nrows) (fun e => hcols (Or.inl e))
  unfold LFrame.head at h1
  generalize hk : (if 0 ≤ size df.nrows then (size df.nrows).toNat else df.nrows - (-(size df.nrows)).toNat) = k at *
  have hhead : df.head (size df.nrows) = { index := df.index.take k, columns := df.columns, rows := df.rows.take k } := by
    unfold Frame.head
    rw [hk]
  rw [hhead] at h1 hcols
  have hn : (Frame.mk (df.index.take k) df.columns (df.rows.take k)).nrows = min k df.nrows := by
    simp [Frame.nrows]
  rw [hn] at hcols
  have hsb : sliceBound df.nrows ((min k df.nrows : Nat) : Int) = min k df.nrows := by
    unfold sliceBound
    rw [if_neg (by omega)]
    omega
  have h2 := ilocPart_rows cfg hp hmr hmc known nan h (a := some ((min k df.nrows : Nat) : Int)) (b := none) (s := min k df.nrows)
    (e := df.nrows) (by simp [hsb]) rfl (Nat.min_le_right _ _) (fun e => hcols (Or.inr e))
  cases e1 : m.ilocPart cfg known nan (.slice none (some (size df.nrows))) (.slice none none) with
  | none => rw [e1] at h1; cases h1
  | some train =>
    rw [e1, Option.bind_some] at h1
    cases e2 : m.ilocPart cfg known nan (.slice (some ((min k df.nrows : Nat) : Int)) none) (.slice none none) with
    | none => rw [e2] at h2; cases h2
    | some test =>
      rw [e2, Option.bind_some] at h2
      refine ⟨train, test, _, _, ?_, h1, h2, ?_, ?_, rfl, rfl, ?_⟩
      · unfold LFrame.trainTestSplit
        rw [hi, e1, Option.bind_some, h1, Option.bind_some, hn, e2]
        rfl
      · show df.index.take k ++ takeList df.index (List.range' (min k df.index.length) (df.index.length - min k df.index.length)) = df.index
        rw [takeList_range_drop _ (Nat.min_le_right _ _), List.take_eq_take_min, List.take_append_drop]
      · have hl : df.nrows = df.rows.length := h.wf.rows_len.symm
        show df.rows.take k ++ takeList df.rows (List.range' (min k df.nrows) (df.nrows - min k df.nrows)) = df.rows
        rw [hl, takeList_range_drop _ (Nat.min_le_right _ _), List.take_eq_take_min, List.take_append_drop]
      · intro h0
        rw [hn, ← hk, if_pos h0]

/-! ### ModinDataLoader -/

theorem mapM_axisPos_nat {n : Nat} : ∀ {ps : List Nat}, (∀ p ∈ ps, p < n) → (ps.map Int.ofNat).mapM (axisPos n) = some ps
  | [], _ => rfl
  | p :: ps, h => by
    rw [List.map_cons, List.mapM_cons, mapM_axisPos_nat fun q hq => h q (List.mem_cons_of_mem _ hq)]
    rw [show Int.ofNat p = (p : Int) from rfl, axisPos_nat (h p (by simp))]
    rfl

theorem loaderLoop_spec {size n : Nat} (hs : 0 < size) : ∀ (rest buffer : List τ) (counter : Nat), buffer.length = counter % size →
    counter + rest.length = n → (rest = [] → buffer = []) →
    IsBatches size (buffer ++ rest) (loaderLoop size n counter buffer rest)
  | [], buffer, counter, _, _, he => by
    rw [he rfl]
    exact ⟨rfl, by simp [loaderLoop], by simp [loaderLoop]⟩
  | i :: rest, buffer, counter, hb, hn, _ => by
    have hlt := Nat.mod_lt counter hs
    simp only [List.length_cons] at hn
    unfold loaderLoop
    by_cases hend : endOfBatch size n counter = true
    · rw [if_pos hend]
      simp only [endOfBatch, Bool.or_eq_true, decide_eq_true_eq] at hend
      by_cases hr : rest = []
      · subst hr
        refine ⟨by simp [loaderLoop], by simp [loaderLoop], ?_⟩
        intro b hb'
        simp only [loaderLoop, List.mem_singleton] at hb'
        subst hb'
        simp only [List.length_append, List.length_cons, List.length_nil]
        omega
      · have hfull : counter % size = size - 1 := by
          rcases hend with h | h
          · exact h
          · have : 0 < rest.length := List.length_pos_iff.mpr hr
            omega
        have hnext : (counter + 1) % size = 0 := by
          rw [Nat.add_mod, hfull]
          by_cases h1 : size = 1
          · subst h1; simp
          · rw [Nat.mod_eq_of_lt (show 1 < size by omega), show size - 1 + 1 = size by omega, Nat.mod_self]
        have ih := loaderLoop_spec (n := n) hs rest [] (counter + 1) (by rw [hnext]; rfl) (by omega) (fun _ => rfl)
        have hl : (buffer ++ [i]).length = size := by
          simp only [List.length_append, List.length_cons, List.length_nil]
          omega
        refine ⟨?_, ?_, ?_⟩
        · rw [List.flatten_cons, ih.whole]
          simp
        · intro b hb'
          have hne : loaderLoop size n (counter + 1) [] rest ≠ [] := by
            intro e
            have := ih.whole
            rw [e] at this
            exact hr (by simpa using this.symm)
          rw [List.dropLast_cons_of_ne_nil hne] at hb'
          rcases List.mem_cons.mp hb' with rfl | hb'
          · exact hl
          · exact ih.full b hb'
        · intro b hb'
          rcases List.mem_cons.mp hb' with rfl | hb'
          · omega
          · exact ih.last b hb'
    · rw [if_neg hend]
      simp only [endOfBatch, Bool.or_eq_true, decide_eq_true_eq, not_or] at hend
      have hnext : (counter + 1) % size = counter % size + 1 := by
        rw [Nat.add_mod]
        have h1 : size ≠ 1 := by
          intro h1
          subst h1
          simp [Nat.mod_one] at hend
        rw [Nat.mod_eq_of_lt (show 1 < size by omega), Nat.mod_eq_of_lt (by omega)]
      have ih := loaderLoop_spec (n := n) hs rest (buffer ++ [i]) (counter + 1) (by simp [hnext, hb]) (by omega)
        (by intro e; subst e; simp at hn; omega)
      rw [show buffer ++ i :: rest = buffer ++ [i] ++ rest by simp]
      exact ih

/-- how many batches there are is settled by their sizes -/
theorem IsBatches.count {size : Nat} (hs : 0 < size) : ∀ {B : List (List τ)} {l : List τ}, IsBatches size l B →
    B.length = (l.length + size - 1) / size
  | [], l, h => by
    have := h.whole
    simp only [List.flatten_nil] at this
    subst this
    simp [Nat.div_eq_of_lt (show size - 1 < size by omega)]
  | [b], l, h => by
    have := h.whole
    simp only [List.flatten_cons, List.flatten_nil, List.append_nil] at this
    subst this
    have := h.last b (by simp)
    symm
    show _ = 1
    rw [show b.length + size - 1 = (b.length - 1) + size by omega, Nat.add_div_right _ hs, Nat.div_eq_of_lt (by omega)]
  | b :: c :: B, l, h => by
    have ih := IsBatches.count hs (B := c :: B) (l := (c :: B).flatten)
      ⟨rfl, fun x hx => h.full x (by simp only [List.dropLast_cons_cons]; exact List.mem_cons_of_mem _ hx), fun x hx => h.last x (List.mem_cons_of_mem _ hx)⟩
    have hb := h.full b (by simp [List.dropLast_cons_cons])
    have := h.whole
    rw [List.flatten_cons] at this
    subst this
    rw [List.length_cons, ih, List.length_append, hb]
    have hpos : 0 < (c :: B).flatten.length := by
      have := h.last c (by simp)
      simp only [List.flatten_cons, List.length_append]
      omega
    rw [show size + (c :: B).flatten.length + size - 1 = ((c :: B).flatten.length + size - 1) + size by omega, Nat.add_div_right _ hs]

/-- **C97** The batches of a `ModinDataLoader` are the rows the sampler names, in its order, cut into pieces of `batch_size`; only the last
    may be smaller, none is empty, and `len(loader)` is their number.
    Partial: a sampler that names a row twice needs blocks whose sizes are not recorded (the witness is C84's). -/
theorem C97_loader_partial [DecidableEq ι] [DecidableEq κ] (cfg : Cfg) (hp : 1 ≤ cfg.nPartitions) (hmr : 1 ≤ cfg.minRow)
    (hmc : 1 ≤ cfg.minCol) (known : Nat → Nat → Bool × Bool) (nan : α) (m : LFrame ι κ α) (df : Frame ι κ α) (h : m.Shows df)
    (size : Nat) (hs : 0 < size) (sampler : List Nat) (hin : ∀ p ∈ sampler, p < df.nrows)
    (hd : (∀ i j, known i j = (false, false)) ∨ sampler.Nodup) :
    ∃ out, m.loader cfg known nan size sampler = some out ∧ IsBatches size (takeList df.rows sampler) out ∧
      loaderLen size sampler = some out.length := by
  have hB : IsBatches size sampler (loaderLoop size sampler.length 0 [] sampler) :=
    loaderLoop_spec hs sampler [] 0 (by simp) (by simp) (fun _ => rfl)
  unfold LFrame.loader
  rw [if_neg (by omega)]
  generalize loaderLoop size sampler.length 0 [] sampler = B at *
  have hmem : ∀ b ∈ B, ∀ p ∈ b, p ∈ sampler := fun b hb p hp => by
    rw [← hB.whole]
    exact List.mem_flatten.mpr ⟨b, hb, hp⟩
  have hlen : ∀ b ∈ B, (takeList df.rows b).length = b.length := by
    intro b hb
    refine takeList_length fun p hp => ?_
    rw [h.wf.rows_len]
    exact hin p (hmem b hb p hp)
  refine ⟨B.map (takeList df.rows), ?_, ⟨?_, ?_, ?_⟩, ?_⟩
  · apply mapM_some_congr
    intro b hb
    have hpos : (b.map Int.ofNat).mapM (axisPos df.nrows) = some b := by
      exact mapM_axisPos_nat fun p hp => hin p (hmem b hb p hp)
    have := C84_take_partial cfg hp hmr hmc known nan m df (df.takeRows b) h true (b.map Int.ofNat)
      (by unfold Frame.take; rw [if_pos rfl, hpos]; rfl)
      (by
        rcases hd with hd | hd
        · exact Or.inl hd
        · refine Or.inr fun ps e => ?_
          rw [if_pos rfl, hpos] at e
          cases e
          rw [← hB.whole] at hd
          exact hd.sublist (List.sublist_flatten_of_mem hb))
    unfold LFrame.take at this
    rw [if_pos rfl] at this
    rw [this]
    rfl
  · rw [← hB.whole]
    clear hB hmem hlen
    induction B with
    | nil => rfl
    | cons b B ih =>
      rw [List.map_cons, List.flatten_cons, List.flatten_cons, ih]
      unfold takeList
      rw [List.filterMap_append]
  · intro b hb
    rw [← List.map_dropLast] at hb
    obtain ⟨c, hc, rfl⟩ := List.mem_map.mp hb
    rw [hlen c ((List.dropLast_sublist _).subset hc), hB.full c hc]
  · intro b hb
    obtain ⟨c, hc, rfl⟩ := List.mem_map.mp hb
    rw [hlen c hc]
    exact hB.last c hc
  · unfold loaderLen
    rw [if_neg (by omega), List.length_map, hB.count hs]

/-! ### numpy.split -/

namespace NGrid

theorem part_val {x : NGrid α} (hx : x.WF) (axis0 : Bool) (ps : List Nat) (ha : axis0 = true ∨ x.two = true) :
    (x.part axis0 ps).val = x.val.part axis0 ps := by
  cases h2 : x.two with
  | true => cases axis0 <;> simp [part, val, h2, NpVal.part]
  | false =>
    rcases ha with rfl | ha
    · have h1 : ∀ r ∈ x.rows, r.length = 1 := fun r hr => by rw [hx.2.1 r hr, hx.2.2 h2]
      have hsing : ∀ l : List (List α), (∀ r ∈ l, r.length = 1) → ∃ v : List α, l = v.map ([·]) := by
        intro l
        induction l with
        | nil => exact fun _ => ⟨[], rfl⟩
        | cons r l ih =>
          intro h
          obtain ⟨v, rfl⟩ := ih fun r hr => h r (List.mem_cons_of_mem _ hr)
          have := h r (by simp)
          match r, this with
          | [a], _ => exact ⟨a :: v, rfl⟩
      obtain ⟨v, hv⟩ := hsing _ h1
      have hflat : ∀ w : List α, (w.map ([·])).flatten = w := by
        intro w
        induction w with
        | nil => rfl
        | cons a w ih => simp [ih]
      simp only [part, val, h2, NpVal.part, ↓reduceIte, Bool.false_eq_true, hv, takeList_map, hflat]
    · rw [h2] at ha; cases ha

theorem axisLen_val {x : NGrid α} (hx : x.WF) (axis0 : Bool) : x.val.axisLen axis0 = x.axisLen axis0 := by
  cases h2 : x.two with
  | true => cases axis0 <;> simp [axisLen, val, h2, NpVal.axisLen]
  | false =>
    cases axis0
    · simp [axisLen, val, h2, NpVal.axisLen]
    · have hl : x.rows.flatten.length = x.nr := by
        have h1 : ∀ l : List (List α), (∀ r ∈ l, r.length = 1) → l.flatten.length = l.length := by
          intro l
          induction l with
          | nil => exact fun _ => rfl
          | cons r l ih =>
            intro h
            rw [List.flatten_cons, List.length_append, ih fun r hr => h r (List.mem_cons_of_mem _ hr), h r (by simp), List.length_cons]
            omega
        rw [h1 _ fun r hr => by rw [hx.2.1 r hr, hx.2.2 h2], hx.1]
      simp [axisLen, val, h2, NpVal.axisLen, hl]

theorem axisLen_some {x : NGrid α} {axis0 : Bool} {n : Nat} (h : x.axisLen axis0 = some n) : axis0 = true ∨ x.two = true := by
  unfold axisLen at h
  cases axis0
  · cases h2 : x.two
    · simp [h2] at h
    · exact Or.inr rfl
  · exact Or.inl rfl

end NGrid

/-- where a bound lies before it is cut to the axis -/
def rawBound (n : Nat) (a : Int) : Int := if a < 0 then n + a else a

theorem npPiece_spec {n : Nat} {a b : Int} (ha : -(n : Int) ≤ a) (hb : -(n : Int) ≤ b) :
    npPiece n (rawBound n a) (rawBound n b) = (NpVal.slicePositions n a b).map Int.ofNat := by
  have e1 : ((sliceBound n a : Nat) : Int) = min (rawBound n a) n := by
    unfold sliceBound rawBound
    split <;> omega
  have e2 : ((sliceBound n b : Nat) : Int) = min (rawBound n b) n := by
    unfold sliceBound rawBound
    split <;> omega
  have p1 : 0 ≤ rawBound n a := by unfold rawBound; split <;> omega
  unfold npPiece NpVal.slicePositions
  by_cases h : rawBound n a > n ∨ rawBound n a = rawBound n b
  · rw [if_pos h, show sliceBound n b - sliceBound n a = 0 by omega]
    rfl
  · rw [if_neg h]
    unfold pyRangeInt
    rw [List.range'_eq_map_range, List.map_map, show (min (rawBound n b) n - rawBound n a).toNat = sliceBound n b - sliceBound n a by omega]
    apply List.map_congr_left
    intro i _
    simp only [Function.comp, Int.ofNat_eq_natCast]
    omega

theorem npSplitLoop_nonzero {n : Nat} : ∀ {rest : List Int} {a : Int}, -(n : Int) ≤ a → (∀ i ∈ rest, i ≠ 0 ∧ -(n : Int) ≤ i) →
    npSplitLoop n (rawBound n a) rest = List.zipWith (fun a b => (NpVal.slicePositions n a b).map Int.ofNat) (a :: rest) (rest ++ [(n : Int)])
  | [], a, ha, _ => by
    have := npPiece_spec (b := (n : Int)) ha (by omega)
    rw [show rawBound n (n : Int) = n by unfold rawBound; omega] at this
    simp [npSplitLoop, this]
  | e :: rest, a, ha, h => by
    obtain ⟨h0, h1⟩ := h e (by simp)
    have ih := npSplitLoop_nonzero h1 fun i hi => h i (List.mem_cons_of_mem _ hi)
    unfold npSplitLoop
    rw [if_neg h0]
    show npPiece n (rawBound n a) (rawBound n e) :: npSplitLoop n (rawBound n e) rest = _
    rw [ih, npPiece_spec ha h1]
    rfl

theorem npSplitLoop_zeros {n : Nat} {rest : List Int} (h : ∀ i ∈ rest, i ≠ 0 ∧ -(n : Int) ≤ i) : ∀ z : Nat,
    npSplitLoop n 0 (List.replicate z 0 ++ rest) = List.zipWith (fun a b => (NpVal.slicePositions n a b).map Int.ofNat)
      (0 :: (List.replicate z 0 ++ rest)) ((List.replicate z 0 ++ rest) ++ [(n : Int)])
  | 0 => by
    have := npSplitLoop_nonzero (n := n) (a := 0) (by omega) h
    rw [show rawBound n 0 = 0 by unfold rawBound; omega] at this
    simpa using this
  | z + 1 => by
    rw [List.replicate_succ, List.cons_append]
    unfold npSplitLoop
    rw [if_pos rfl, npSplitLoop_zeros h z]
    have : (NpVal.slicePositions n 0 0).map Int.ofNat = [] := by
      simp [NpVal.slicePositions]
    rw [List.cons_append, List.zipWith_cons_cons, this]

theorem zipWith_map_out {A B C D : Type} (f : A → B → C) (g : C → D) : ∀ (l : List A) (l' : List B),
    List.zipWith (fun a b => g (f a b)) l l' = (List.zipWith f l l').map g
  | [], _ => rfl
  | _ :: _, [] => rfl
  | a :: l, b :: l' => by rw [List.zipWith_cons_cons, List.zipWith_cons_cons, List.map_cons, zipWith_map_out f g l l']

theorem slicePositions_lt {n : Nat} {a b : Int} : ∀ p ∈ NpVal.slicePositions n a b, p < n := by
  intro p hp
  unfold NpVal.slicePositions at hp
  rw [List.mem_range'_1] at hp
  have : sliceBound n b ≤ n := by unfold sliceBound; split <;> omega
  omega

/-- **C97** `split` of a `modin.numpy` array at a list of indices is NumPy's.
    Partial: an index of 0 after another index (`C97_split_zero`) and an index below `-n` (`C97_split_below`) are not. -/
theorem C97_split_at_partial (x : NGrid α) (hx : x.WF) (axis0 : Bool) (z : Nat) (rest : List Int)
    (hrest : ∀ n, x.axisLen axis0 = some n → ∀ i ∈ rest, i ≠ 0 ∧ -(n : Int) ≤ i) :
    (x.splitAt axis0 (List.replicate z 0 ++ rest)).map (·.map NGrid.val) = x.val.splitAt axis0 (List.replicate z 0 ++ rest) := by
  unfold NGrid.splitAt NpVal.splitAt
  rw [NGrid.axisLen_val hx]
  cases hn : x.axisLen axis0 with
  | none => rfl
  | some n =>
    rw [Option.bind_some, Option.map_some, npSplitLoop_zeros (hrest n hn), zipWith_map_out (NpVal.slicePositions n) (List.map Int.ofNat),
      zipWith_map_out (NpVal.slicePositions n) (x.val.part axis0)]
    have hlt : ∀ ps ∈ List.zipWith (NpVal.slicePositions n) (0 :: (List.replicate z 0 ++ rest)) ((List.replicate z 0 ++ rest) ++ [(n : Int)]),
        ∀ p ∈ ps, p < n := by
      intro ps hps
      obtain ⟨i, hi, rfl⟩ := List.getElem_of_mem hps
      rw [List.getElem_zipWith]
      exact slicePositions_lt
    generalize List.zipWith (NpVal.slicePositions n) (0 :: (List.replicate z 0 ++ rest)) ((List.replicate z 0 ++ rest) ++ [(n : Int)]) = P at *
    rw [mapM_map_some _ (List.map Int.ofNat) (x.part axis0) P (fun ps hps => by rw [mapM_axisPos_nat (hlt ps hps)]; rfl),
      Option.map_some, List.map_map]
    congr 1
    apply List.map_congr_left
    intro ps _
    exact NGrid.part_val hx axis0 ps (NGrid.axisLen_some hn)

/-- **C97** `split` of a `modin.numpy` array into a number of equal parts is NumPy's, and raises where NumPy's does.
    Partial: not along an axis of length 0, not for a negative number (`C97_split_no_elements`, `C97_split_negative`). -/
theorem C97_split_even_partial (x : NGrid α) (hx : x.WF) (axis0 : Bool) (k : Int) (hk : 0 ≤ k) (h0 : x.axisLen axis0 ≠ some 0) :
    (x.splitEven axis0 k).map (·.map NGrid.val) = x.val.splitEven axis0 k := by
  unfold NGrid.splitEven NpVal.splitEven
  rw [NGrid.axisLen_val hx]
  cases hn : x.axisLen axis0 with
  | none => rfl
  | some n =>
    have hpos : 0 < n := Nat.pos_of_ne_zero fun e => h0 (by rw [hn, e])
    rw [Option.bind_some, Option.bind_some]
    obtain ⟨k, rfl⟩ := Int.eq_ofNat_of_zero_le hk
    by_cases hk0 : k = 0
    · subst hk0
      simp
    · have hmod : ((n : Int) % (k : Int) ≠ 0) ↔ n % k ≠ 0 := by omega
      rw [if_neg (by omega)]
      by_cases hd : n % k ≠ 0
      · rw [if_pos (hmod.mpr hd), if_pos (Or.inr (by simpa using hd))]
        rfl
      · rw [if_neg (fun h => hd (hmod.mp h)), if_neg (by omega), if_neg (by omega), if_neg (by
          intro h
          rcases h with h | h
          · omega
          · exact hd (by simpa using h))]
        have hs : n = k * (n / k) := (Nat.mul_div_cancel' (Nat.dvd_of_mod_eq_zero (by omega))).symm
        simp only [Int.toNat_natCast]
        generalize n / k = s at hs
        have hspos : 0 < s := Nat.pos_of_ne_zero fun e => by subst e; omega
        have hr : pyRangeStep n s = (List.range k).map (· * s) := by
          unfold pyRangeStep
          rw [show n + s - 1 = s * k + (s - 1) by rw [hs, Nat.mul_comm]; omega, Nat.mul_add_div hspos, Nat.div_eq_of_lt (by omega), Nat.add_zero]
        rw [hr, Option.map_some, List.map_map, List.map_map]
        congr 1
        apply List.map_congr_left
        intro i _
        exact NGrid.part_val hx axis0 _ (NGrid.axisLen_some hn)

namespace PiecesDemo
open PortionDemo

def three : NGrid Int := ⟨false, 3, 1, [[7], [8], [9]]⟩
def square : NGrid Int := ⟨true, 2, 4, [[1, 2, 3, 4], [5, 6, 7, 8]]⟩

/-- **C97** (witness) `np.split([7, 8, 9], [2, 0])`: NumPy's last piece is all of the array, Modin's is its last element -/
theorem C97_split_zero : (three.splitAt true [2, 0]).map (·.map NGrid.val) = some [.vec [7, 8], .vec [], .vec [9]] ∧
    three.val.splitAt true [2, 0] = some [.vec [7, 8], .vec [], .vec [7, 8, 9]] := by decide

/-- **C97** (witness) `np.split([7, 8, 9], [-4])`: NumPy's second piece is all of the array, Modin's begins with the last element -/
theorem C97_split_below : (three.splitAt true [-4]).map (·.map NGrid.val) = some [.vec [], .vec [9, 7, 8, 9]] ∧
    three.val.splitAt true [-4] = some [.vec [], .vec [7, 8, 9]] := by decide

/-- **C97** (witness) an array without elements is split by NumPy, Modin raises -/
theorem C97_split_no_elements : (NGrid.splitEven (α := Int) ⟨false, 0, 1, []⟩ true 2).map (·.map NGrid.val) = none ∧
    (NGrid.val (α := Int) ⟨false, 0, 1, []⟩).splitEven true 2 = some [.vec [], .vec []] := by decide

/-- **C97** (witness) a negative number of parts: Modin gives no parts, NumPy raises -/
theorem C97_split_negative : (three.splitEven true (-3)).map (·.map NGrid.val) = some [] ∧ three.val.splitEven true (-3) = none := by decide

/-- the hypotheses are met: pieces of columns at a leading zero, a negative index and one beyond the end -/
example : (square.splitAt false [0, 1, -1, 9]).map (·.map NGrid.val)
    = some [.mat 2 0 [[], []], .mat 2 1 [[1], [5]], .mat 2 2 [[2, 3], [6, 7]], .mat 2 1 [[4], [8]], .mat 2 0 [[], []]] :=
  (C97_split_at_partial square ⟨rfl, by decide, by decide⟩ false 1 [1, -1, 9] (by
    intro n hn
    cases (Option.some.inj hn : 4 = n)
    decide)).trans (by decide)

/-- the hypotheses are met: two equal parts of the columns -/
example : (square.splitEven false 2).map (·.map NGrid.val) = some [.mat 2 2 [[1, 2], [5, 6]], .mat 2 2 [[3, 4], [7, 8]]] :=
  (C97_split_even_partial square ⟨rfl, by decide, by decide⟩ false 2 (by decide) (by decide)).trans (by decide)

/-- the hypotheses are met: five rows, `int(5 * 0.75) = 3`, labels not recorded -/
example : ∃ train test a b, (held true [1, 2, 2, 5, 9] [7, 8, 9]).trainTestSplit cfg sizes 0 (fun n => n * 3 / 4) = some (train, test) ∧
    train.toPandas 0 = some a ∧ test.toPandas 0 = some b ∧ a.index ++ b.index = [1, 2, 2, 5, 9] ∧ a.nrows = 3 := by
  obtain ⟨tr, te, a, b, h1, h2, h3, h4, _, _, _, h5⟩ := C97_train_test_split_partial cfg (by decide) (by decide) (by decide) sizes 0 _ _
    (held_shows true 1 2 2 5 9 7 8 9) (fun n => n * 3 / 4) (by decide)
  exact ⟨tr, te, a, b, h1, h2, h3, h4, h5 (by decide)⟩

/-- the hypotheses are met: batches of two rows in an order of a sampler -/
example : ∃ out, (held true [1, 2, 2, 5, 9] [7, 8, 9]).loader cfg sizes 0 2 [4, 0, 3] = some out ∧
    IsBatches 2 [[40, 41, 42], [0, 1, 2], [30, 31, 32]] out ∧ out.length = 2 := by
  obtain ⟨out, h1, h2, h3⟩ := C97_loader_partial cfg (by decide) (by decide) (by decide) sizes 0 _ _
    (held_shows true 1 2 2 5 9 7 8 9) 2 (by decide) [4, 0, 3] (by decide) (Or.inr (by decide))
  exact ⟨out, h1, h2, (Option.some.inj h3).symm⟩

end PiecesDemo
