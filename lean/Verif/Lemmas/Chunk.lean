import Verif.Model.Chunking

theorem pySlice_eq {α} (l : List α) (i j : Nat) : pySlice l i j = (l.drop i).take (j - i) := rfl

@[simp] theorem pySlice_length {α} (l : List α) (i j : Nat) :
    (pySlice l i j).length = min (j - i) (l.length - i) := by simp [pySlice]

theorem pySlice_map {α β} (f : α → β) (l : List α) (i j : Nat) :
    pySlice (l.map f) i j = (pySlice l i j).map f := by simp [pySlice, List.map_take, List.map_drop]

theorem pySlice_all {α} (l : List α) (j : Nat) (h : l.length ≤ j) : pySlice l 0 j = l := by
  simp [pySlice, List.take_of_length_le h]

theorem sliceBounds_flatten_aux {α} (l : List α) (lens : List Nat) (s : Nat) :
    ((consecutive (cumsumFrom s lens)).map (fun p => pySlice l p.1 p.2)).flatten
      = (l.drop s).take lens.sum := by
  induction lens generalizing s with
  | nil => simp [cumsumFrom, consecutive]
  | cons x xs ih =>
    have h : consecutive (cumsumFrom s (x :: xs))
        = (s, s + x) :: consecutive (cumsumFrom (s + x) xs) := by
      cases xs <;> simp [cumsumFrom, consecutive]
    rw [h]
    rw [List.map_cons, List.flatten_cons, ih, List.sum_cons, List.take_add, List.drop_drop]
    simp [pySlice]

theorem sliceBounds_flatten {α} (l : List α) (lens : List Nat) :
    ((sliceBounds lens).map (fun p => pySlice l p.1 p.2)).flatten = l.take lens.sum := by
  simpa [sliceBounds] using sliceBounds_flatten_aux l lens 0

theorem sliceBounds_lengths_aux {α} (l : List α) (lens : List Nat) (s : Nat)
    (h : s + lens.sum ≤ l.length) :
    (consecutive (cumsumFrom s lens)).map (fun p => (pySlice l p.1 p.2).length) = lens := by
  induction lens generalizing s with
  | nil => simp [cumsumFrom, consecutive]
  | cons x xs ih =>
    have h' : consecutive (cumsumFrom s (x :: xs))
        = (s, s + x) :: consecutive (cumsumFrom (s + x) xs) := by
      cases xs <;> simp [cumsumFrom, consecutive]
    rw [h']
    simp only [List.sum_cons] at h
    rw [List.map_cons, ih (s + x) (by omega), pySlice_length]
    congr 1
    show min (s + x - s) (l.length - s) = x
    omega

theorem sliceBounds_lengths {α} (l : List α) (lens : List Nat) (h : lens.sum ≤ l.length) :
    (sliceBounds lens).map (fun p => (pySlice l p.1 p.2).length) = lens :=
  sliceBounds_lengths_aux l lens 0 (by simpa using h)

theorem sliceBounds_length (lens : List Nat) : (sliceBounds lens).length = lens.length := by
  have aux : ∀ s, (consecutive (cumsumFrom s lens)).length = lens.length := by
    induction lens with
    | nil => intro s; simp [cumsumFrom, consecutive]
    | cons x xs ih =>
      intro s
      have h' : consecutive (cumsumFrom s (x :: xs))
          = (s, s + x) :: consecutive (cumsumFrom (s + x) xs) := by
        cases xs <;> simp [cumsumFrom, consecutive]
      simp [h', ih]
  exact aux 0

/-- the chunk size is at least the ceiling of `n / k` -/
theorem computeChunksize_spec {n k m c : Nat} (h : computeChunksize n k m = some c) :
    0 < k ∧ 0 < m ∧ m ≤ c ∧ n ≤ c * k := by
  unfold computeChunksize at h
  split at h
  · simp at h
  split at h
  · simp at h
  rename_i h1 h2
  simp only [Option.some.injEq] at h
  have hk : 0 < k := by omega
  refine ⟨hk, by omega, ?_, ?_⟩
  · subst h; exact Nat.le_max_right _ _
  · have hdm := Nat.div_add_mod n k
    have hlt := Nat.mod_lt n hk
    generalize hq : n / k = q at *
    generalize hr : n % k = r at *
    have hc : (if r ≠ 0 then q + 1 else q) ≤ c := by subst h; exact Nat.le_max_left _ _
    calc n ≤ (if r ≠ 0 then q + 1 else q) * k := by
            split
            · rw [Nat.add_mul, Nat.mul_comm q k]; omega
            · rw [Nat.mul_comm q k]; omega
      _ ≤ c * k := Nat.mul_le_mul_right k hc

/-- lengths of `k` consecutive chunks of size `c` of an axis of length `n` -/
theorem lengthList_sum (n c k : Nat) :
    ((List.range k).map fun i => if (i + 1) * c ≤ n then c else n - i * c).sum = min n (k * c) := by
  induction k with
  | zero => simp
  | succ k ih =>
    rw [List.range_succ, List.map_append, List.sum_append, ih]
    simp only [List.map_cons, List.map_nil, List.sum_cons, List.sum_nil, Nat.add_zero]
    have : (k + 1) * c = k * c + c := by rw [Nat.add_mul, Nat.one_mul]
    rw [this]
    split <;> omega

theorem getLengthList_sum {n k m : Nat} {lens : List Nat} (h : getLengthList n k m = some lens) :
    lens.sum = n ∧ lens.length = k := by
  unfold getLengthList at h
  obtain ⟨c, hc, rfl⟩ := Option.map_eq_some_iff.mp h
  have := computeChunksize_spec hc
  refine ⟨?_, by simp⟩
  rw [lengthList_sum]
  have h2 : c * k = k * c := Nat.mul_comm _ _
  omega

theorem map_range_slices {α} (l : List α) (c k : Nat) :
    ((List.range k).map fun i => pySlice l (i * c) (i * c + c)).flatten = l.take (k * c) := by
  induction k with
  | zero => simp
  | succ k ih =>
    rw [List.range_succ, List.map_append, List.flatten_append, ih]
    simp only [List.map_cons, List.map_nil, List.flatten_cons, List.flatten_nil, List.append_nil,
      pySlice, Nat.add_mul, Nat.one_mul]
    rw [List.take_add]
    congr 2
    omega

theorem ceil_mul_ge (n c : Nat) (hc : 0 < c) : n ≤ (n + c - 1) / c * c := by
  have h := Nat.div_add_mod (n + c - 1) c
  have h2 := Nat.mod_lt (n + c - 1) hc
  have h3 : c * ((n + c - 1) / c) = (n + c - 1) / c * c := Nat.mul_comm _ _
  omega

theorem rangeStep_flatten {α} (l : List α) (c : Nat) (hc : 0 < c) :
    ((pyRangeStep l.length c).map fun i => pySlice l i (i + c)).flatten = l := by
  unfold pyRangeStep
  rw [List.map_map]
  show ((List.range _).map fun i => pySlice l (i * c) (i * c + c)).flatten = l
  rw [map_range_slices, List.take_of_length_le (ceil_mul_ge _ _ hc)]

theorem mem_pyRangeStep {n c i : Nat} (hc : 0 < c) (h : i ∈ pyRangeStep n c) :
    i < n ∧ c ∣ i := by
  unfold pyRangeStep at h
  simp only [List.mem_map, List.mem_range] at h
  obtain ⟨k, hk, rfl⟩ := h
  refine ⟨?_, Nat.dvd_mul_left _ _⟩
  have := (Nat.lt_div_iff_mul_lt hc).mp hk
  have h1 : k * c = c * k := Nat.mul_comm _ _
  omega

theorem fromPandasLengths_eq {α} (l : List α) (c : Nat) (hc : 0 < c) :
    fromPandasLengths l.length c
      = (pyRangeStep l.length c).map fun i => (pySlice l i (i + c)).length := by
  unfold fromPandasLengths
  apply List.map_congr_left
  intro i hi
  obtain ⟨h1, k, rfl⟩ := mem_pyRangeStep hc hi
  simp only [pySlice_length]
  split
  · omega
  · rename_i hge
    have hmod : l.length % c = if l.length = c * k + c then 0 else l.length - c * k := by
      split
      · rename_i h; rw [h]; simp
      · rename_i hne
        have : l.length = (l.length - c * k) + c * k := by omega
        rw [this, Nat.add_mul_mod_self_left, Nat.mod_eq_of_lt (by omega)]; omega
    rw [hmod]
    split <;> split <;> omega

theorem fromPandasLengths_sum (n c : Nat) (hc : 0 < c) : (fromPandasLengths n c).sum = n := by
  have h := fromPandasLengths_eq (List.replicate n ()) c hc
  have h2 := congrArg List.length (rangeStep_flatten (List.replicate n ()) c hc)
  simp only [List.length_replicate] at h h2
  rw [h]
  rw [List.length_flatten, List.map_map] at h2
  exact h2

theorem computeChunksize_eq {n k m : Nat} (hk : 0 < k) (hm : 0 < m) :
    computeChunksize n k m = some (max ((n + k - 1) / k) m) := by
  unfold computeChunksize
  rw [if_neg (by omega), if_neg (by omega)]
  simp only [Option.some.injEq]
  congr 1
  have h1 := Nat.div_add_mod n k
  have h2 := Nat.mod_lt n hk
  generalize hq : n / k = q at *
  generalize hr : n % k = r at *
  symm
  split
  · rename_i hr0
    apply Nat.div_eq_of_lt_le
    · rw [Nat.add_mul, Nat.one_mul, Nat.mul_comm q k]; omega
    · rw [Nat.add_mul, Nat.add_mul, Nat.one_mul, Nat.mul_comm q k]; omega
  · rename_i hr0
    apply Nat.div_eq_of_lt_le
    · rw [Nat.mul_comm q k]; omega
    · rw [Nat.add_mul, Nat.one_mul, Nat.mul_comm q k]; omega

theorem fromPandasLengths_le {n c : Nat} (hc : 0 < c) : ∀ x ∈ fromPandasLengths n c, x ≤ c := by
  intro x hx
  unfold fromPandasLengths at hx
  simp only [List.mem_map] at hx
  obtain ⟨i, _, rfl⟩ := hx
  have := Nat.mod_lt n hc
  split
  · omega
  · split <;> omega

theorem fromPandasLengths_dropLast {n c : Nat} (hc : 0 < c) :
    ∀ x ∈ (fromPandasLengths n c).dropLast, x = c := by
  intro x hx
  unfold fromPandasLengths pyRangeStep at hx
  rw [List.map_map, ← List.map_dropLast] at hx
  simp only [List.mem_map, List.dropLast_eq_take, List.length_range, List.take_range,
    List.mem_range, Function.comp] at hx
  obtain ⟨k, hk, rfl⟩ := hx
  rw [if_pos]
  have h2 : k + 1 < (n + c - 1) / c := by omega
  have := (Nat.lt_div_iff_mul_lt hc).mp h2
  have h3 : (k + 1) * c = k * c + c := by rw [Nat.add_mul, Nat.one_mul]
  have h4 : c * (k + 1) = (k + 1) * c := Nat.mul_comm _ _
  omega

theorem fromPandasLengths_length_le {n c k : Nat} (hc : 0 < c) (h : n ≤ c * k) :
    (fromPandasLengths n c).length ≤ k := by
  simp only [fromPandasLengths, pyRangeStep, List.length_map, List.length_range]
  have : (n + c - 1) / c < k + 1 := by
    rw [Nat.div_lt_iff_lt_mul hc, Nat.add_mul, Nat.one_mul, Nat.mul_comm k c]
    omega
  omega
