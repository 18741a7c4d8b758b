import Verif.Lemmas.Text
/-
Lemmas about `partitionedFile` and `readCsv`.
-/

variable {B : Type}

/-! ### dropping lines by number -/

def keepFrom {A : Type} (f : Nat → Bool) : Nat → List A → List A
  | _, [] => []
  | i, a :: l => if f i then keepFrom f (i + 1) l else a :: keepFrom f (i + 1) l

theorem keepFrom_eq {A : Type} (f : Nat → Bool) (l : List A) (i : Nat) :
    ((l.zipIdx i).filter fun e => !f e.2).map (·.1) = keepFrom f i l := by
  induction l generalizing i with
  | nil => rfl
  | cons a l ih =>
    rw [List.zipIdx_cons, List.filter_cons, keepFrom]
    by_cases h : f i = true
    · simp [h, ih]
    · simp [h, ih]

theorem keepFrom_none {A : Type} (f : Nat → Bool) (l : List A) (i : Nat) (h : ∀ x, i ≤ x → x < i + l.length → f x = false) :
    keepFrom f i l = l := by
  induction l generalizing i with
  | nil => rfl
  | cons a l ih =>
    rw [keepFrom, if_neg (by simp [h i (Nat.le_refl i) (by simp)]), ih (i + 1) (fun x h1 h2 => h x (by omega) (by simp; omega))]

theorem keepFrom_all {A : Type} (f : Nat → Bool) (l : List A) (i : Nat) (h : ∀ x, i ≤ x → x < i + l.length → f x = true) :
    keepFrom f i l = [] := by
  induction l generalizing i with
  | nil => rfl
  | cons a l ih =>
    rw [keepFrom, if_pos (h i (Nat.le_refl i) (by simp)), ih (i + 1) (fun x h1 h2 => h x (by omega) (by simp; omega))]

theorem keepFrom_append {A : Type} (f : Nat → Bool) (l m : List A) (i : Nat) :
    keepFrom f i (l ++ m) = keepFrom f i l ++ keepFrom f (i + l.length) m := by
  induction l generalizing i with
  | nil => rfl
  | cons a l ih =>
    simp only [List.cons_append, keepFrom, ih, List.length_cons]
    have : i + 1 + l.length = i + (l.length + 1) := by omega
    rw [this]
    split <;> rfl

theorem keepFrom_shift {A : Type} (f g : Nat → Bool) (l : List A) (i j : Nat) (h : ∀ x, f (i + x) = g (j + x)) :
    keepFrom f i l = keepFrom g j l := by
  induction l generalizing i j with
  | nil => rfl
  | cons a l ih =>
    have h0 := h 0
    simp only [Nat.add_zero] at h0
    rw [keepFrom, keepFrom, h0, ih (i + 1) (j + 1) (fun x => by rw [Nat.add_assoc, Nat.add_assoc]; exact h (1 + x))]

theorem keepFrom_mem {A : Type} (f : Nat → Bool) (l : List A) (i : Nat) : ∀ x ∈ keepFrom f i l, x ∈ l := by
  induction l generalizing i with
  | nil => intro x hx; cases hx
  | cons a l ih =>
    intro x hx
    rw [keepFrom] at hx
    split at hx
    · exact List.mem_cons_of_mem _ (ih _ x hx)
    · rcases List.mem_cons.1 hx with rfl | hx
      · exact List.mem_cons_self
      · exact List.mem_cons_of_mem _ (ih _ x hx)

/-- nothing is skipped among the first `h` -/
theorem keepFrom_drop {A : Type} (f : Nat → Bool) (l : List A) (h : Nat) (hf : ∀ x, x < h → f x = false) :
    (keepFrom f 0 l).drop h = keepFrom (fun x => f (x + h)) 0 (l.drop h) := by
  have e : keepFrom f 0 l = l.take h ++ keepFrom f (0 + (l.take h).length) (l.drop h) := by
    conv => lhs; rw [← List.take_append_drop h l]
    rw [keepFrom_append, keepFrom_none f (l.take h) 0 (fun x _ h2 => hf x (by rw [List.length_take] at h2; omega))]
  rw [e]
  by_cases hl : h ≤ l.length
  · have hlen : (l.take h).length = h := by rw [List.length_take]; omega
    rw [List.drop_append, hlen]
    simp only [Nat.sub_self, List.drop_zero, Nat.zero_add]
    rw [List.drop_eq_nil_of_le (by omega), List.nil_append]
    exact keepFrom_shift _ _ _ _ _ (fun x => by rw [Nat.zero_add, Nat.add_comm])
  · rw [List.drop_eq_nil_of_le (as := l) (by omega)]
    simp only [keepFrom, List.append_nil]
    exact List.drop_eq_nil_of_le (by rw [List.length_take]; omega)

/-- a run of lines is skipped -/
theorem keepFrom_run {A : Type} (f : Nat → Bool) (l : List A) (s m : Nat) (hf : ∀ x, f x = true ↔ s ≤ x ∧ x < s + m) :
    keepFrom f 0 l = l.take s ++ l.drop (s + m) := by
  conv => lhs; rw [← List.take_append_drop s l, ← List.take_append_drop m (l.drop s)]
  rw [keepFrom_append, keepFrom_append, keepFrom_none f (l.take s), keepFrom_all, List.drop_drop, List.nil_append]
  · by_cases h : s + m ≤ l.length
    · rw [keepFrom_none]
      intro x h1 h2
      have : ¬ f x = true := by
        rw [hf]
        simp only [List.length_take, List.length_drop] at h1
        omega
      simpa using this
    · rw [List.drop_eq_nil_of_le (as := l) (i := s + m) (by omega)]; rfl
  · intro x h1 h2
    rw [hf]
    simp only [List.length_take, List.length_drop] at h1 h2
    omega
  · intro x h1 h2
    have : ¬ f x = true := by
      rw [hf]
      simp only [List.length_take] at h2
      omega
    simpa using this

variable [DecidableEq B]

/-! ### `partitioned_file` -/

/-- the rows still wanted when `c` have been read -/
def wanted {A : Type} (nrows : Option Nat) (c : Nat) (l : List A) : List A :=
  match nrows with
  | some n => l.take (n - c)
  | none => l

theorem partitionLoop_spec (d : Dialect B) (hd : d.Ok) (file : List B) (np : Nat) (nrows : Option Nat) (h0 : nrows ≠ some 0) (pos k c : Nat)
    (hat : AtRecord d file pos k) : ∃ gs : List (List (List B)),
      gs.flatten = wanted nrows c ((d.precords true file).drop k) ∧
      (partitionLoop d file np nrows c pos).map (fun r => pySlice file r.1 r.2) = gs.map List.flatten ∧
      (∀ g ∈ gs, ∃ a j, g = ((d.precords true file).drop a).take j) ∧
      Tiles (fun e => nrows = none → file.length ≤ e) pos (partitionLoop d file np nrows c pos) := by
  have mono : ∀ (p q : Nat → Prop) rs pos, (∀ e, p e → q e) → Tiles p pos rs → Tiles q pos rs := by
    intro p q rs
    induction rs with
    | nil => intro pos h; exact h pos
    | cons r rs ih => intro pos h ht; exact ⟨ht.1, ht.2.1, ih _ h ht.2.2⟩
  match nrows, h0 with
  | none, _ =>
    obtain ⟨gs, e1, e2, e3, e4⟩ := byteLoop_spec d hd file (max 1 (max np (file.length / np))) (by omega) (file.length + 1) pos k hat (by omega)
    exact ⟨gs, e1, e2, e3, mono _ _ _ _ (fun e h _ => h) e4⟩
  | some 0, h0 => exact absurd rfl h0
  | some (n + 1), _ =>
    obtain ⟨gs, e1, e2, e3, e4⟩ := rowLoop_spec d hd file (n + 1) (file.length + 1) (max 1 (max np ((n + 1) / np))) c pos k (by omega) hat (by omega)
    exact ⟨gs, e1, e2, e3, mono _ _ _ _ (fun e _ h => by simp at h) e4⟩

theorem partitionedFile_spec (d : Dialect B) (hd : d.Ok) (file : List B) (np : Nat) (nrows : Option Nat) (skip h pre : Nat) (h0 : nrows ≠ some 0) :
    ∃ gs : List (List (List B)),
      gs.flatten = ((d.precords true file).drop h).take pre ++
        wanted nrows (min pre ((d.precords true file).length - h)) ((d.precords true file).drop (h + pre + skip)) ∧
      (partitionedFile d file np nrows skip h pre).map (fun r => pySlice file r.1 r.2) = gs.map List.flatten ∧
      (∀ g ∈ gs, ∃ a j, g = ((d.precords true file).drop a).take j) := by
  unfold partitionedFile
  by_cases hp : pre = 0
  · subst hp
    have hat := skipRows_at d hd (skipRows_at d hd (atRecord_zero d file) skip) h
    obtain ⟨gs, e1, e2, e3, _⟩ := partitionLoop_spec d hd file np nrows h0 _ _ 0 hat
    refine ⟨gs, ?_, ?_, e3⟩
    · have : 0 + skip + h = h + 0 + skip := by omega
      rw [e1, this]
      simp
    · simpa using e2
  · have hat0 := skipRows_at d hd (atRecord_zero d file) h
    rw [Nat.zero_add] at hat0
    obtain ⟨r1, r2, r3, _⟩ := readRows_at d hd hat0 pre (by omega)
    have hat := skipRows_at d hd r1 skip
    obtain ⟨gs, e1, e2, e3, _⟩ := partitionLoop_spec d hd file np nrows h0 _ _ (readRows d file pre true (skipRows d file h 0)).2.1 hat
    refine ⟨((d.precords true file).drop h).take pre :: gs, ?_, ?_, ?_⟩
    · rw [List.flatten_cons, e1, r3]
    · rw [if_pos hp]
      simp only [List.singleton_append, List.map_cons]
      rw [r2, ← e2]
    · intro g hg
      rcases List.mem_cons.1 hg with rfl | hg
      · exact ⟨h, pre, rfl⟩
      · exact e3 g hg

/-! ### parsing one range -/

theorem records_group (d : Dialect B) (hd : d.Ok) (file : List B) (a j : Nat) :
    d.records (((d.records file).drop a).take j).flatten = ((d.records file).drop a).take j := by
  have h1 := cutWith_drop d.step d.ends (treset d hd) .start file a (Or.inr rfl)
  have h2 := cutWith_take d.step d.ends .start ((d.records file).drop a).flatten j
  unfold Dialect.records at h2 ⊢
  rw [h1] at h2
  exact h2

theorem records_header_group (d : Dialect B) (hd : d.Ok) (file : List B) (h a j : Nat) (hh : h < (d.records file).length) :
    d.records (((d.records file).take h).flatten ++ (((d.records file).drop a).take j).flatten) =
      (d.records file).take h ++ ((d.records file).drop a).take j := by
  have h1 := cutWith_append d.step d.ends (treset d hd) .start file (((d.records file).drop a).take j).flatten h hh (Or.inr rfl)
  have h2 := records_group d hd file a j
  unfold Dialect.records at h1 h2 ⊢
  rw [h1, h2]

theorem pandasCsv_none (d : Dialect B) (blank : List B → Bool) (h : Nat) (file : List B) :
    pandasCsv d blank h .none none file = ((d.records file).filter fun r => !blank r).drop h := by
  unfold pandasCsv
  simp only [keepFrom_eq]
  rw [keepFrom_none Skip.none.skips _ _ (fun x _ _ => rfl)]

theorem pandasCsv_clean (d : Dialect B) (blank : List B → Bool) (h : Nat) (skip : Skip) (nrows : Option Nat) (file : List B)
    (hb : ∀ r ∈ d.records file, blank r = false) :
    pandasCsv d blank h skip nrows file =
      (match nrows with
       | some n => ((keepFrom skip.skips 0 (d.records file)).drop h).take n
       | none => (keepFrom skip.skips 0 (d.records file)).drop h) := by
  unfold pandasCsv
  simp only [keepFrom_eq]
  rw [List.filter_eq_self.2]
  · cases nrows <;> rfl
  · intro r hr
    rw [hb r (keepFrom_mem _ _ _ r hr)]; rfl

theorem parseRange_group (d : Dialect B) (hd : d.Ok) (blank : List B → Bool) (inferred : Bool) (h : Nat) (file : List B) (range : Nat × Nat)
    (a j : Nat) (hr : pySlice file range.1 range.2 = (((d.records file).drop a).take j).flatten)
    (hhdr : inferred = false → (splitLines d.nl file).take h = (d.records file).take h ∧ ∀ r ∈ (d.records file).take h, blank r = false)
    (hg : (d.records file).length ≤ h → ((d.records file).drop a).take j = []) :
    parseRange d blank inferred h file range = (((d.records file).drop a).take j).filter fun r => !blank r := by
  unfold parseRange
  cases inferred with
  | true =>
    rw [if_pos rfl, pandasCsv_none, hr, records_group d hd]; rfl
  | false =>
    obtain ⟨h1, h2⟩ := hhdr rfl
    rw [if_neg (by simp), pandasCsv_none, hr, h1]
    have hf : ((d.records file).take h).filter (fun r => !blank r) = (d.records file).take h :=
      List.filter_eq_self.2 fun r hr => by rw [h2 r hr]; rfl
    by_cases hh : h < (d.records file).length
    · rw [records_header_group d hd file h a j hh, List.filter_append, hf]
      have hlen : ((d.records file).take h).length = h := by rw [List.length_take]; omega
      rw [List.drop_append, hlen, List.drop_eq_nil_of_le (by omega)]
      simp
    · rw [hg (by omega)]
      have := records_group d hd file 0 h
      simp only [List.drop_zero] at this
      rw [List.flatten_nil, List.append_nil, this, hf]
      simp

theorem parse_groups (d : Dialect B) (hd : d.Ok) (blank : List B → Bool) (inferred : Bool) (h : Nat) (file : List B)
    (ranges : List (Nat × Nat)) (gs : List (List (List B)))
    (hr : ranges.map (fun r => pySlice file r.1 r.2) = gs.map List.flatten)
    (hgs : ∀ g ∈ gs, ∃ a j, g = ((d.records file).drop a).take j)
    (hhdr : inferred = false → (splitLines d.nl file).take h = (d.records file).take h ∧ ∀ r ∈ (d.records file).take h, blank r = false)
    (hg : (d.records file).length ≤ h → gs.flatten = []) :
    ranges.flatMap (parseRange d blank inferred h file) = gs.flatten.filter fun r => !blank r := by
  induction ranges generalizing gs with
  | nil =>
    cases gs with
    | nil => rfl
    | cons g gs => simp at hr
  | cons r rs ih =>
    cases gs with
    | nil => simp at hr
    | cons g gs =>
      simp only [List.map_cons, List.cons.injEq] at hr
      obtain ⟨a, j, rfl⟩ := hgs g List.mem_cons_self
      rw [List.flatMap_cons, List.flatten_cons, List.filter_append,
        parseRange_group d hd blank inferred h file r a j hr.1 hhdr (fun hl => by
          have := hg hl
          rw [List.flatten_cons] at this
          exact (List.append_eq_nil_iff.1 this).1),
        ih gs hr.2 (fun g hg => hgs g (List.mem_cons_of_mem _ hg)) (fun hl => by
          have := hg hl
          rw [List.flatten_cons] at this
          exact (List.append_eq_nil_iff.1 this).2)]

/-! ### `read_csv` -/

theorem readCsv_plain (d : Dialect B) (hd : d.Ok) (blank : List B → Bool) (np h : Nat) (file : List B) (hc : d.Clean .start file)
    (hhdr : (splitLines d.nl file).take h = (d.records file).take h ∧ ∀ r ∈ (d.records file).take h, blank r = false) :
    readCsv d blank np h .none none file = some (pandasCsv d blank h .none none file) := by
  obtain ⟨gs, e1, e2, e3⟩ := partitionedFile_spec d hd file np none 0 h 0 (by simp)
  rw [← records_eq d file hc] at e1 e3
  simp only [List.take_zero, List.nil_append, wanted, Nat.add_zero] at e1
  have := parse_groups d hd blank false h file _ gs e2 e3 (fun _ => hhdr) (fun hl => by rw [e1]; exact List.drop_eq_nil_of_le hl)
  have hm : manageSkiprows .none h = (.no, 0, 0) := rfl
  unfold readCsv
  rw [hm]
  have hu : skipUnsupported .none .no h = false := rfl
  simp only [hu, usesInferredNames, skipAfterwards, Bool.false_eq_true, if_false, this, e1, pandasCsv_none]
  have hf : ((d.records file).take h).filter (fun r => !blank r) = (d.records file).take h :=
    List.filter_eq_self.2 fun r hr => by rw [hhdr.2 r hr]; rfl
  congr 1
  conv => rhs; rw [← List.take_append_drop h (d.records file), List.filter_append, hf]
  by_cases hl : h ≤ (d.records file).length
  · rw [List.drop_append, List.length_take, Nat.min_eq_left hl,
      List.drop_eq_nil_of_le (as := (d.records file).take h) (i := h) (by rw [List.length_take]; omega)]
    simp
  · rw [List.drop_eq_nil_of_le (as := d.records file) (by omega)]
    simp only [List.filter_nil, List.append_nil]
    rw [List.drop_eq_nil_of_le (by rw [List.length_take]; omega)]

/-- the bytes read in parallel, when nothing is left to be skipped afterwards -/
theorem readCsv_now (d : Dialect B) (hd : d.Ok) (blank : List B → Bool) (np h : Nat) (skip : Skip) (nrows : Option Nat) (file : List B)
    (hc : d.Clean .start file) (hb : ∀ r ∈ d.records file, blank r = false) (h0 : nrows ≠ some 0)
    (hhdr : usesInferredNames skip = false → (splitLines d.nl file).take h = (d.records file).take h)
    (pre sk : Nat) (hm : manageSkiprows skip h = (.no, pre, sk)) (hu : skipUnsupported skip .no h = false) :
    readCsv d blank np h skip nrows file = some (((d.records file).drop h).take pre ++
        wanted nrows (min pre ((d.records file).length - h)) ((d.records file).drop (h + pre + sk))) := by
  obtain ⟨gs, e1, e2, e3⟩ := partitionedFile_spec d hd file np nrows sk h pre h0
  rw [← records_eq d file hc] at e1 e3
  have := parse_groups d hd blank (usesInferredNames skip) h file _ gs e2 e3
    (fun hi => ⟨hhdr hi, fun r hr => hb r (List.mem_of_mem_take hr)⟩) (fun hl => by
      rw [e1, List.drop_eq_nil_of_le hl, List.drop_eq_nil_of_le (by omega)]
      cases nrows <;> simp [wanted])
  unfold readCsv
  rw [hm]
  simp only [hu, skipAfterwards, Bool.false_eq_true, if_false, this]
  rw [List.filter_eq_self.2, e1]
  intro r hr
  rw [e1, List.mem_append] at hr
  have : r ∈ d.records file := by
    rcases hr with hr | hr
    · exact List.mem_of_mem_drop (List.mem_of_mem_take hr)
    · cases nrows with
      | none => exact List.mem_of_mem_drop hr
      | some n => exact List.mem_of_mem_drop (List.mem_of_mem_take hr)
  rw [hb r this]; rfl

/-- everything after the header is read, and lines are dropped by their number afterwards -/
theorem readCsv_later (d : Dialect B) (hd : d.Ok) (blank : List B → Bool) (np h : Nat) (skip : Skip) (nrows : Option Nat) (file : List B)
    (hc : d.Clean .start file) (hb : ∀ r ∈ d.records file, blank r = false)
    (hhdr : usesInferredNames skip = true)
    (later : SkipLater) (hl : later ≠ .no) (hm : manageSkiprows skip h = (later, 0, 0)) (hu : skipUnsupported skip later h = false) :
    readCsv d blank np h skip nrows file = skipAfterwards later nrows ((d.records file).drop h) := by
  obtain ⟨gs, e1, e2, e3⟩ := partitionedFile_spec d hd file np none 0 h 0 (by simp)
  rw [← records_eq d file hc] at e1 e3
  simp only [List.take_zero, List.nil_append, wanted, Nat.add_zero] at e1
  have := parse_groups d hd blank true h file _ gs e2 e3 (by simp) (fun hl => by rw [e1]; exact List.drop_eq_nil_of_le hl)
  unfold readCsv
  rw [hm]
  have hlt : (match later with
      | .no => false
      | _ => true) = true := by
    cases later
    · exact absurd rfl hl
    · rfl
    · rfl
  simp only [hu, hhdr, Bool.false_eq_true, if_false, hlt, if_true]
  rw [this, e1, List.filter_eq_self.2]
  intro r hr
  rw [hb r (List.mem_of_mem_drop hr)]; rfl

theorem isRun_mem (l : List Nat) : ∀ s, isRun (s :: l) = true → ∀ x, x ∈ s :: l ↔ s ≤ x ∧ x < s + (l.length + 1) := by
  induction l with
  | nil => intro s _ x; simp; omega
  | cons b l ih =>
    intro s h x
    simp only [isRun, Bool.and_eq_true, decide_eq_true_eq] at h
    have := ih b h.2 x
    rw [List.mem_cons, this, h.1]
    simp only [List.length_cons]
    omega

/-- when Modin's treatment of `skiprows` is right -/
def SkipOk (skip : Skip) (h n : Nat) (nrows : Option Nat) : Prop :=
  match skip with
  | .list ls =>
    if isRun (npSort ls) then ∀ k, nrows = some k → ls = [] ∨ ∃ x ∈ ls, x ≤ h + k
    else (∀ x ∈ ls, x < n) ∧ (h = 0 ∨ h ∉ ls ∨ ∃ x ∈ ls, x < h)
  | _ => True

theorem drop_run {A : Type} (l : List A) (s m h : Nat) : (l.take s ++ l.drop (s + m)).drop h =
    if s > h then (l.drop h).take (s - h) ++ l.drop (h + (s - h) + m) else l.drop (h + 0 + m) := by
  split
  · rename_i hs
    have e : h + (s - h) + m = s + m := by omega
    rw [List.drop_append, List.drop_take, e]
    by_cases hl : h ≤ l.length
    · have : h - (l.take s).length = 0 := by rw [List.length_take]; omega
      rw [this, List.drop_zero]
    · rw [List.drop_eq_nil_of_le (as := l) (i := s + m) (by omega), List.drop_nil]
  · rename_i hs
    rw [List.drop_append, List.drop_eq_nil_of_le (by rw [List.length_take]; omega), List.nil_append, List.drop_drop, List.length_take]
    by_cases hl : s ≤ l.length
    · congr 1; omega
    · rw [List.drop_eq_nil_of_le (by omega), List.drop_eq_nil_of_le (by omega)]

theorem wanted_run {A : Type} (l : List A) (nrows : Option Nat) (h pre sk : Nat) (hk : ∀ k, nrows = some k → pre ≤ k) :
    (l.drop h).take pre ++ wanted nrows (min pre (l.length - h)) (l.drop (h + pre + sk)) =
      wanted nrows 0 ((l.drop h).take pre ++ l.drop (h + pre + sk)) := by
  cases nrows with
  | none => rfl
  | some k =>
    have := hk k rfl
    simp only [wanted, Nat.sub_zero]
    rw [List.take_append, List.take_of_length_le (i := k) (l := (l.drop h).take pre) (by rw [List.length_take]; omega)]
    rw [List.length_take, List.length_drop]

theorem readCsv_spec (d : Dialect B) (hd : d.Ok) (blank : List B → Bool) (np h : Nat) (skip : Skip) (nrows : Option Nat) (file : List B)
    (hc : d.Clean .start file) (hb : ∀ r ∈ d.records file, blank r = false) (h0 : nrows ≠ some 0)
    (hhdr : usesInferredNames skip = false → (splitLines d.nl file).take h = (d.records file).take h)
    (hs : SkipOk skip h (d.records file).length nrows) :
    readCsv d blank np h skip nrows file = some (pandasCsv d blank h skip nrows file) := by
  have hp : pandasCsv d blank h skip nrows file = wanted nrows 0 ((keepFrom skip.skips 0 (d.records file)).drop h) := by
    rw [pandasCsv_clean d blank h skip nrows file hb]
    cases nrows <;> rfl
  have now : ∀ pre sk, manageSkiprows skip h = (.no, pre, sk) → skipUnsupported skip .no h = false →
      (∀ k, nrows = some k → pre ≤ k) →
      (keepFrom skip.skips 0 (d.records file)).drop h = ((d.records file).drop h).take pre ++ (d.records file).drop (h + pre + sk) →
      readCsv d blank np h skip nrows file = some (pandasCsv d blank h skip nrows file) := by
    intro pre sk hm hu hk he
    rw [readCsv_now d hd blank np h skip nrows file hc hb h0 hhdr pre sk hm hu, wanted_run _ _ _ _ _ hk, hp, he]
  have later : ∀ lt, usesInferredNames skip = true → lt ≠ SkipLater.no → manageSkiprows skip h = (lt, 0, 0) →
      (skipUnsupported skip lt h = false → skipAfterwards lt nrows ((d.records file).drop h) =
        some (wanted nrows 0 ((keepFrom skip.skips 0 (d.records file)).drop h))) →
      readCsv d blank np h skip nrows file = some (pandasCsv d blank h skip nrows file) := by
    intro lt hi hl hm hsk
    by_cases hu : skipUnsupported skip lt h = true
    · unfold readCsv
      rw [hm]
      simp only [hu, if_true]
    · have hu' : skipUnsupported skip lt h = false := by simpa using hu
      rw [readCsv_later d hd blank np h skip nrows file hc hb hi lt hl hm hu', hsk hu', hp]
  have hcut : ∀ rs : List (List B), cutRows nrows rs = wanted nrows 0 rs := by
    intro rs
    match nrows, h0 with
    | none, _ => rfl
    | some 0, h0 => exact absurd rfl h0
    | some (n + 1), _ => rfl
  match skip, hs with
  | .none, _ =>
    refine now 0 0 rfl rfl (fun _ _ => Nat.zero_le _) ?_
    rw [keepFrom_none Skip.none.skips _ _ (fun x _ _ => rfl)]
    simp
  | .int k, _ =>
    refine now 0 k rfl rfl (fun _ _ => Nat.zero_le _) ?_
    rw [keepFrom_run _ _ 0 k (fun x => by simp [Skip.skips]), drop_run]
    simp
  | .pred f, _ =>
    refine later (.pred fun x => f (x + h)) rfl (by simp) rfl (fun hu => ?_)
    have hf : ∀ x, x < h → f x = false := by
      simp only [skipUnsupported, List.any_eq_false, List.mem_range] at hu
      exact fun x hx => by simpa using hu x hx
    simp only [skipAfterwards, keepFrom_eq, hcut]
    rw [keepFrom_drop (Skip.pred f).skips _ _ hf, keepFrom_eq (fun x => f (x + h))]
    rfl
  | .list ls, hs =>
    have hmem : ∀ x, x ∈ npSort ls ↔ x ∈ ls := fun x => (npSort_perm ls).mem_iff
    have hpw := npSort_pairwise ls
    simp only [SkipOk] at hs
    cases hsort : npSort ls with
    | nil =>
      have hls : ls = [] := by
        have := (npSort_perm ls).length_eq
        rw [hsort] at this
        exact List.length_eq_zero_iff.1 this.symm
      subst hls
      refine now 0 0 rfl rfl (fun _ _ => Nat.zero_le _) ?_
      rw [keepFrom_none (Skip.list []).skips _ _ (fun x _ _ => rfl)]
      simp
    | cons s0 rest =>
      rw [hsort] at hs hmem hpw
      have hmin : ∀ x ∈ ls, s0 ≤ x := by
        intro x hx
        rcases List.mem_cons.1 ((hmem x).2 hx) with rfl | hx
        · exact Nat.le_refl _
        · exact (List.pairwise_cons.1 hpw).1 x hx
      have hs0 : s0 ∈ ls := (hmem s0).1 List.mem_cons_self
      by_cases hr : isRun (s0 :: rest) = true
      · rw [if_pos hr] at hs
        have hm : manageSkiprows (.list ls) h = (.no, if s0 > h then s0 - h else 0, (s0 :: rest).length) := by
          simp only [manageSkiprows, hsort, hr, if_true]
        refine now _ _ hm rfl ?_ ?_
        · intro k hk
          rcases hs k hk with rfl | ⟨x, hx, hxk⟩
          · simp at hs0
          · have := hmin x hx
            split <;> omega
        · rw [keepFrom_run _ _ s0 (rest.length + 1) (fun x => by
            simp only [Skip.skips, List.contains_iff_mem]
            rw [← hmem, isRun_mem rest s0 hr]), drop_run]
          split
          · rfl
          · simp
      · rw [if_neg hr] at hs
        by_cases hgt : s0 > h
        · have hm : manageSkiprows (.list ls) h = (.positions ((s0 :: rest).map (· - h)), 0, 0) := by
            simp only [manageSkiprows, hsort, hr, hgt, if_true]; rfl
          refine later _ rfl (by simp) hm (fun _ => ?_)
          have hall : ((s0 :: rest).map (· - h)).all (fun x => decide (x < ((d.records file).drop h).length)) = true := by
            simp only [List.all_eq_true, List.mem_map, decide_eq_true_eq]
            rintro y ⟨x, hx, rfl⟩
            have h1 := hs.1 x ((hmem x).1 hx)
            have h2 := hmin x ((hmem x).1 hx)
            rw [List.length_drop]; omega
          have hf : ∀ x, x < h → Skip.skips (.list ls) x = false := by
            intro x hx
            simp only [Skip.skips]
            cases hc' : ls.contains x with
            | false => rfl
            | true =>
              have := hmin x (List.contains_iff_mem.1 hc')
              omega
          simp only [skipAfterwards, hall, if_true, hcut, keepFrom_eq]
          rw [keepFrom_drop _ _ _ hf]
          congr 2
          apply keepFrom_shift
          intro x
          rw [Bool.eq_iff_iff]
          simp only [Nat.zero_add, Skip.skips, List.contains_iff_mem, List.mem_map]
          constructor
          · rintro ⟨y, hy, rfl⟩
            have := hmin y ((hmem y).1 hy)
            have e : y - h + h = y := by omega
            rw [e]; exact (hmem y).1 hy
          · intro hx
            exact ⟨x + h, (hmem _).2 hx, by omega⟩
        · have hm : manageSkiprows (.list ls) h = (.positions (s0 :: rest), 0, 0) := by
            simp only [manageSkiprows, hsort, hr, hgt, if_false]; rfl
          refine later _ rfl (by simp) hm (fun hu => ?_)
          have hh0 : h = 0 := by
            have hge : ¬ s0 < h := by
              simpa [skipUnsupported] using hu
            have he : s0 = h := by omega
            rcases hs.2 with h0 | hn | ⟨x, hx, hxh⟩
            · exact h0
            · rw [he] at hs0; exact absurd hs0 hn
            · have := hmin x hx; omega
          subst hh0
          have hall : (s0 :: rest).all (fun x => decide (x < ((d.records file).drop 0).length)) = true := by
            simp only [List.all_eq_true, decide_eq_true_eq]
            intro x hx
            exact hs.1 x ((hmem x).1 hx)
          simp only [skipAfterwards, hall, if_true, hcut, keepFrom_eq]
          rw [List.drop_zero, List.drop_zero]
          congr 2
          apply keepFrom_shift
          intro x
          rw [Bool.eq_iff_iff]
          simp only [Nat.zero_add, Skip.skips, List.contains_iff_mem]
          exact hmem x
