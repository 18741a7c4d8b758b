import Verif.Model.Sheet
import Verif.Lemmas.Readers
import Verif.Lemmas.TextRead
/-
Lemmas about reading spreadsheets and JSON lines.
-/

variable {ι κ α : Type}

/-! ### places of a tag -/

theorem isPrefixOf_append_tag (q A S : List Char) (hq : '<' ∉ q) (hS : ∀ c, S.head? = some c → c = '<') :
    q.isPrefixOf (A ++ S) = q.isPrefixOf A := by
  induction q generalizing A with
  | nil => simp
  | cons x q ih =>
    cases A with
    | nil =>
      cases S with
      | nil => rfl
      | cons c S =>
        have : c = '<' := hS c rfl
        subst this
        have hx : x ≠ '<' := fun h => hq (by simp [h])
        simp [List.isPrefixOf, hx]
    | cons a A =>
      simp only [List.cons_append, List.isPrefixOf]
      rw [ih A (fun h => hq (List.mem_cons_of_mem _ h))]

theorem occurs_append (q A S : List Char) (hq : '<' ∉ q) (hS : ∀ c, S.head? = some c → c = '<') :
    occurs ('<' :: q) (A ++ S) = occurs ('<' :: q) A ++ (occurs ('<' :: q) S).map (· + A.length) := by
  induction A with
  | nil => simp [occurs]
  | cons a A ih =>
    rw [List.cons_append, occurs, occurs, ih]
    have : ('<' :: q).isPrefixOf (a :: (A ++ S)) = ('<' :: q).isPrefixOf (a :: A) := by
      simp only [List.isPrefixOf]
      rw [isPrefixOf_append_tag q A S hq hS]
    rw [this]
    simp [Function.comp_def, Nat.add_assoc]

theorem isPrefixOf_take_len (p s : List Char) (k : Nat) : p.isPrefixOf (s.take k) = (p.isPrefixOf s && decide (p.length ≤ k)) := by
  induction p generalizing s k with
  | nil => simp
  | cons x p ih =>
    cases s with
    | nil => simp [List.isPrefixOf]
    | cons c s =>
      cases k with
      | zero => simp [List.isPrefixOf]
      | succ k =>
        simp only [List.take_succ_cons, List.isPrefixOf, ih]
        simp [Bool.and_assoc]

theorem occurs_take (p : List Char) (hp : p ≠ []) (s : List Char) (k : Nat) :
    occurs p (s.take k) = (occurs p s).filter fun i => decide (i + p.length ≤ k) := by
  have hl : 1 ≤ p.length := by cases p with | nil => exact absurd rfl hp | cons _ _ => simp
  induction s generalizing k with
  | nil => simp [occurs]
  | cons c s ih =>
    cases k with
    | zero =>
      rw [List.take_zero, occurs]
      symm
      rw [List.filter_eq_nil_iff]
      intro i _ h
      have := of_decide_eq_true h
      omega
    | succ k =>
      have h1 := isPrefixOf_take_len p (c :: s) (k + 1)
      rw [List.take_succ_cons] at h1 ⊢
      rw [occurs, occurs, h1, ih k, List.filter_append]
      congr 1
      · by_cases h : p.isPrefixOf (c :: s) = true
        · by_cases h2 : p.length ≤ k + 1
          · simp [h, h2]
          · simp [h, h2]
        · simp [h]
      · rw [List.filter_map]
        congr 1
        apply List.filter_congr
        intro i _
        simp only [Function.comp_def, decide_eq_decide]
        omega

theorem rowOpen_eq : rowOpen = '<' :: ['r', 'o', 'w'] := rfl
theorem rowClose_eq : rowClose = '<' :: ['/', 'r', 'o', 'w', '>'] := rfl
theorem dataClose_eq : dataClose = '<' :: ['/', 's', 'h', 'e', 'e', 't', 'D', 'a', 't', 'a', '>'] := rfl

/-- where the rows end, less the length of the tag -/
def rowEnds : List (List Char) → List Nat
  | [] => []
  | r :: rs => (r.length - 6) :: (rowEnds rs).map (· + r.length)

theorem RowText.head {r : List Char} (h : RowText r) : ∃ t, r = rowOpen ++ t := by
  have := h.opens
  rw [List.isPrefixOf_iff_prefix] at this
  obtain ⟨t, rfl⟩ := this
  exact ⟨t, rfl⟩

theorem occurs_bound (p s : List Char) (hp : p ≠ []) : ∀ i ∈ occurs p s, i + p.length ≤ s.length := by
  intro i hi
  have h := occurs_take p hp s s.length
  rw [List.take_length] at h
  rw [h, List.mem_filter] at hi
  simpa using hi.2

theorem RowText.long {r : List Char} (h : RowText r) : 6 ≤ r.length := by
  have := occurs_bound rowClose r (by decide) (r.length - 6) (by rw [h.closes]; simp)
  simp only [rowClose, List.length_cons, List.length_nil] at this
  omega

theorem rows_head {rows : List (List Char)} {tail : List Char} (hr : ∀ r ∈ rows, RowText r) (ht : ∀ c, tail.head? = some c → c = '<') :
    ∀ c, (rows.flatten ++ tail).head? = some c → c = '<' := by
  intro c hc
  cases rows with
  | nil => exact ht c (by simpa using hc)
  | cons r rs =>
    obtain ⟨t, rfl⟩ := (hr r (by simp)).head
    simp [rowOpen] at hc
    exact hc.symm

theorem occurs_close_rows {rows : List (List Char)} {tail : List Char} (hr : ∀ r ∈ rows, RowText r) (ht : ∀ c, tail.head? = some c → c = '<')
    (hc : occurs rowClose tail = []) : occurs rowClose (rows.flatten ++ tail) = rowEnds rows := by
  induction rows with
  | nil => simpa [rowEnds] using hc
  | cons r rs ih =>
    have hrs : ∀ r ∈ rs, RowText r := fun x hx => hr x (List.mem_cons_of_mem _ hx)
    rw [List.flatten_cons, List.append_assoc, rowClose_eq, occurs_append _ _ _ (by decide) (rows_head hrs ht), ← rowClose_eq, ih hrs,
      (hr r (by simp)).closes, rowEnds]
    rfl

theorem occurs_data_rows {rows : List (List Char)} {tail : List Char} (hr : ∀ r ∈ rows, RowText r) (ht : ∀ c, tail.head? = some c → c = '<') :
    occurs dataClose (rows.flatten ++ tail) = (occurs dataClose tail).map (· + rows.flatten.length) := by
  induction rows with
  | nil => simp
  | cons r rs ih =>
    have hrs : ∀ r ∈ rs, RowText r := fun x hx => hr x (List.mem_cons_of_mem _ hx)
    rw [List.flatten_cons, List.append_assoc, dataClose_eq, occurs_append _ _ _ (by decide) (rows_head hrs ht), ← dataClose_eq, ih hrs,
      (hr r (by simp)).inside, List.nil_append, List.map_map]
    apply List.map_congr_left
    intro i _
    simp only [Function.comp_def, List.length_append]
    omega

/-- the ends of the complete rows in the first `k` characters -/
theorem rowEnds_filter (rows : List (List Char)) (hr : ∀ r ∈ rows, RowText r) (k : Nat) : ∃ j, j ≤ rows.length ∧
    ((rowEnds rows).filter fun i => decide (i + rowClose.length ≤ k)) = rowEnds (rows.take j) ∧
    (rows.flatten.length ≤ k → j = rows.length) := by
  induction rows generalizing k with
  | nil => exact ⟨0, by simp, by simp [rowEnds], by simp⟩
  | cons r rs ih =>
    have hl := (hr r (by simp)).long
    have hrs : ∀ r ∈ rs, RowText r := fun x hx => hr x (List.mem_cons_of_mem _ hx)
    by_cases h : r.length ≤ k
    · obtain ⟨j, h1, h2, h3⟩ := ih hrs (k - r.length)
      refine ⟨j + 1, by simpa using h1, ?_, ?_⟩
      · rw [List.take_succ_cons, rowEnds, rowEnds, List.filter_cons, if_pos (by simp [rowClose]; omega), List.filter_map, ← h2]
        congr 2
        apply List.filter_congr
        intro i _
        simp only [Function.comp_def, decide_eq_decide]
        omega
      · intro hk
        rw [List.length_cons, h3 (by simp at hk ⊢; omega)]
    · refine ⟨0, by simp, ?_, ?_⟩
      · rw [List.take_zero, rowEnds, rowEnds, List.filter_eq_nil_iff]
        intro i hi
        rcases List.mem_cons.1 hi with rfl | hi
        · simp [rowClose]; omega
        · obtain ⟨x, _, rfl⟩ := List.mem_map.1 hi
          simp [rowClose]; omega
      · intro hk
        simp at hk
        omega

theorem rowEnds_length (rows : List (List Char)) : (rowEnds rows).length = rows.length := by
  induction rows with
  | nil => rfl
  | cons r rs ih => simp [rowEnds, ih]

theorem rowEnds_last (rows : List (List Char)) (hr : ∀ r ∈ rows, RowText r) (hne : rows ≠ []) :
    (rowEnds rows).getLast?.getD 0 + rowClose.length = rows.flatten.length := by
  induction rows with
  | nil => exact absurd rfl hne
  | cons r rs ih =>
    have hl := (hr r (by simp)).long
    cases rs with
    | nil => simp [rowEnds, rowClose]; omega
    | cons r' rs =>
      have ih := ih (fun x hx => hr x (List.mem_cons_of_mem _ hx)) (by simp)
      have hne' : rowEnds (r' :: rs) ≠ [] := by simp [rowEnds]
      obtain ⟨y, hy⟩ : ∃ y, (rowEnds (r' :: rs)).getLast? = some y := by
        rw [List.getLast?_eq_some_getLast hne']; exact ⟨_, rfl⟩
      rw [hy, Option.getD_some] at ih
      rw [rowEnds, List.getLast?_cons, List.getLast?_map, hy]
      simp only [Option.map_some, Option.getD_some]
      rw [List.flatten_cons, List.length_append, ← ih]
      omega

theorem growChunk_spec (size : Nat) (hs : 1 ≤ size) (rest : List Char) (hne : occurs rowClose rest ≠ []) (fuel k : Nat)
    (hf : rest.length ≤ k + fuel * size) (hf1 : 1 ≤ fuel) (hk : rest.length + 1 ≤ fuel + k) :
    ∃ k', growChunk size rest fuel k = some (rest.take k') ∧ occurs rowClose (rest.take k') ≠ [] := by
  induction fuel generalizing k with
  | zero => omega
  | succ fuel ih =>
    unfold growChunk
    by_cases h : occurs rowClose (rest.take k) = []
    · rw [if_pos (by simp [h])]
      by_cases hf0 : fuel = 0
      · subst hf0
        exfalso
        rw [List.take_of_length_le (by omega)] at h
        exact hne h
      · exact ih (k + size) (by rw [Nat.add_mul] at hf; omega) (by omega) (by omega)
    · rw [if_neg (by simpa using h)]
      exact ⟨k, rfl, h⟩

/-- pieces with the number of rows before them -/
def numbered (skip : Nat) : List (List (List Char)) → List (Nat × List Char)
  | [] => []
  | g :: gs => (skip, g.flatten) :: numbered (skip + g.length) gs

theorem excelPieces_spec (size : Nat) (hs : 4 ≤ size) {tail : List Char} (ht : ∀ c, tail.head? = some c → c = '<')
    (ho : occurs rowOpen tail = []) (hc : occurs rowClose tail = []) (fuel : Nat) :
    ∀ (rows : List (List Char)) (skip : Nat), (∀ r ∈ rows, RowText r) → rows.length < fuel →
    ∃ gs : List (List (List Char)), gs.flatten = rows ∧ (∀ g ∈ gs, g ≠ []) ∧
      excelPieces size fuel (rows.flatten ++ tail) skip = some (numbered skip gs) := by
  induction fuel with
  | zero => intro rows _ _ h; omega
  | succ fuel ih =>
    intro rows skip hr hf
    unfold excelPieces
    by_cases hne : rows = []
    · subst hne
      refine ⟨[], rfl, by simp, ?_⟩
      by_cases h0 : tail = []
      · subst h0; rfl
      · rw [if_neg (by simpa using h0)]
        rw [if_pos (by rw [occurs_take _ (by decide)]; simp [ho])]
        rfl
    · obtain ⟨r, rs, rfl⟩ : ∃ r rs, rows = r :: rs := by
        cases rows with
        | nil => exact absurd rfl hne
        | cons r rs => exact ⟨r, rs, rfl⟩
      have hR := hr r (by simp)
      obtain ⟨t, htr⟩ := hR.head
      have hstart : 0 ∈ occurs rowOpen (((r :: rs).flatten ++ tail).take size) := by
        rw [occurs_take _ (by decide), List.mem_filter]
        constructor
        · rw [htr, List.flatten_cons, List.append_assoc, List.append_assoc]
          simp [rowOpen, occurs, List.isPrefixOf]
        · simp [rowOpen]; omega
      rw [if_neg (by rw [htr]; simp [rowOpen])]
      rw [if_neg (by intro h; rw [List.isEmpty_iff] at h; rw [h] at hstart; cases hstart)]
      have hcl := occurs_close_rows hr ht hc
      obtain ⟨k, e1, e2⟩ := growChunk_spec size (by omega) ((r :: rs).flatten ++ tail) (by rw [hcl]; simp [rowEnds])
        (((r :: rs).flatten ++ tail).length + 1) size (by
          have := Nat.le_mul_of_pos_right (((r :: rs).flatten ++ tail).length + 1) (show 0 < size by omega)
          omega) (by omega) (by omega)
      rw [e1, Option.bind_some]
      have e3 := occurs_take rowClose (by decide) ((r :: rs).flatten ++ tail) k
      rw [hcl] at e3
      obtain ⟨j, j1, j2, j3⟩ := rowEnds_filter (r :: rs) hr k
      rw [j2] at e3
      have hj : 1 ≤ j := by
        rcases Nat.eq_zero_or_pos j with h | h
        · subst h; rw [e3] at e2; exact absurd rfl e2
        · exact h
      have hj' : (r :: rs).take j ≠ [] := by
        intro h
        have := congrArg List.length h
        simp at this
        omega
      have hlen : (rowEnds ((r :: rs).take j)).length = j := by
        rw [rowEnds_length, List.length_take]; omega
      have hend := rowEnds_last ((r :: rs).take j) (fun x hx => hr x (List.mem_of_mem_take hx)) hj'
      have hsplit : (r :: rs).flatten ++ tail = ((r :: rs).take j).flatten ++ (((r :: rs).drop j).flatten ++ tail) := by
        rw [← List.append_assoc, ← List.flatten_append, List.take_append_drop]
      have htake : ((r :: rs).flatten ++ tail).take (((r :: rs).take j).flatten.length) = ((r :: rs).take j).flatten := by
        rw [hsplit, List.take_left]
      have hdrop : ((r :: rs).flatten ++ tail).drop (((r :: rs).take j).flatten.length) = ((r :: rs).drop j).flatten ++ tail := by
        rw [hsplit, List.drop_left]
      simp only [e3, hend, hlen, htake, hdrop]
      by_cases hd : occurs dataClose (((r :: rs).flatten ++ tail).take k) = []
      · rw [hd, if_neg (by simp)]
        obtain ⟨gs, g1, g2, g3⟩ := ih ((r :: rs).drop j) (skip + j) (fun x hx => hr x (List.mem_of_mem_drop hx)) (by
          rw [List.length_drop]; simp only [List.length_cons] at hf j1 ⊢; omega)
        refine ⟨(r :: rs).take j :: gs, by rw [List.flatten_cons, g1, List.take_append_drop], ?_, ?_⟩
        · intro g hg
          rcases List.mem_cons.1 hg with rfl | hg
          · exact hj'
          · exact g2 g hg
        · rw [g3, Option.map_some, numbered]
          have : ((r :: rs).take j).length = j := by rw [List.length_take]; omega
          rw [this]
      · rw [if_pos (by simpa using hd)]
        have hall : j = (r :: rs).length := by
          apply j3
          obtain ⟨i, hi⟩ := List.exists_mem_of_ne_nil _ hd
          rw [occurs_take _ (by decide), occurs_data_rows hr ht, List.mem_filter] at hi
          obtain ⟨h1, h2⟩ := hi
          obtain ⟨x, _, rfl⟩ := List.mem_map.1 h1
          have := of_decide_eq_true h2
          omega
        refine ⟨[r :: rs], by simp, by simp, ?_⟩
        simp only [hall, List.take_length]
        rfl

/-- the rows of a piece are found again -/
theorem splitRows_rows (rows : List (List Char)) (hr : ∀ r ∈ rows, RowText r) (fuel : Nat) (hf : rows.length ≤ fuel) :
    splitRows fuel rows.flatten = rows := by
  induction rows generalizing fuel with
  | nil =>
    cases fuel with
    | zero => rfl
    | succ fuel => rfl
  | cons r rs ih =>
    cases fuel with
    | zero => simp at hf
    | succ fuel =>
      have hcl := occurs_close_rows (tail := []) hr (by simp) rfl
      rw [List.append_nil] at hcl
      have hl := (hr r (by simp)).long
      unfold splitRows
      rw [hcl]
      simp only [rowEnds, List.head?_cons]
      have : r.length - 6 + rowClose.length = r.length := by simp [rowClose]; omega
      rw [this, List.flatten_cons, List.take_left, List.drop_left, ih (fun x hx => hr x (List.mem_cons_of_mem _ hx)) fuel (by simpa using hf)]

/-! ### tables -/

theorem foldl_max_ge (l : List Nat) (a : Nat) : a ≤ l.foldl max a := by
  induction l generalizing a with
  | nil => exact Nat.le_refl _
  | cons x l ih => exact Nat.le_trans (Nat.le_max_left a x) (ih _)

theorem widest_eq (rows : List (Int × List α)) (w : Nat) (hw : ∀ r ∈ rows, r.2.length = w) (hne : rows ≠ []) : widest rows = w := by
  unfold widest
  have : ∀ (l : List Nat) (a : Nat), a ≤ w → (∀ x ∈ l, x = w) → l ≠ [] ∨ a = w → l.foldl max a = w := by
    intro l
    induction l with
    | nil => intro a _ _ h; simpa using h
    | cons x l ih =>
      intro a ha hx _
      have hxw : x = w := hx x (by simp)
      exact ih (max a x) (by omega) (fun y hy => hx y (List.mem_cons_of_mem _ hy)) (Or.inr (by omega))
  apply this _ 0 (by omega)
  · intro x hx
    obtain ⟨r, hr, rfl⟩ := List.mem_map.1 hx
    exact hw r hr
  · exact Or.inl (by simpa using hne)

/-- rows numbered from 1 on -/
def fromOne (cells : List (List α)) : List (Int × List α) := cells.mapIdx fun i c => ((i : Int) + 1, c)

theorem fromOne_top (cells : List (List α)) :
    (fromOne cells).foldl (fun m (r : Int × List α) => max m r.1) 0 = (cells.length : Int) := by
  have key : ∀ (cells : List (List α)) (k : Nat) (a : Int), a = k →
      (cells.mapIdx fun i c => ((k + i : Nat) + (1 : Int), c)).foldl (fun m (r : Int × List α) => max m r.1) a = ((k + cells.length : Nat) : Int) := by
    intro cells
    induction cells with
    | nil => intro k a h; simp [h]
    | cons c cells ih =>
      intro k a h
      rw [List.mapIdx_cons, List.foldl_cons]
      have := ih (k + 1) (max a ((k + 0 : Nat) + 1)) (by rw [h]; omega)
      have e : (fun (i : Nat) (c : List α) => ((k + (i + 1) : Nat) + (1 : Int), c)) = fun i c => ((k + 1 + i : Nat) + (1 : Int), c) := by
        funext i c
        congr 2
        omega
      rw [e, this]
      congr 1
      simp; omega
  have := key cells 0 0 rfl
  simpa [fromOne] using this

theorem fromOne_find (cells : List (List α)) (i : Nat) (hi : i < cells.length) :
    (fromOne cells).reverse.find? (fun r => decide (r.1 = (i : Int) + 1)) = some ((i : Int) + 1, cells[i]) := by
  have hm : ((i : Int) + 1, cells[i]) ∈ fromOne cells := by
    unfold fromOne
    rw [List.mem_mapIdx]
    exact ⟨i, hi, rfl⟩
  cases hf : (fromOne cells).reverse.find? (fun r => decide (r.1 = (i : Int) + 1)) with
  | none =>
    rw [List.find?_eq_none] at hf
    exact absurd (by simp) (hf _ (List.mem_reverse.2 hm))
  | some r =>
    have h1 := List.find?_some hf
    have h2 := List.mem_of_find?_eq_some hf
    rw [List.mem_reverse] at h2
    unfold fromOne at h2
    rw [List.mem_mapIdx] at h2
    obtain ⟨j, hj, rfl⟩ := h2
    have : (j : Int) + 1 = i + 1 := of_decide_eq_true h1
    have : j = i := by omega
    subst this
    rfl

theorem sheetTable_fromOne (blank : α) (cells : List (List α)) (w : Nat) (hw : ∀ c ∈ cells, c.length = w) :
    sheetTable blank (fromOne cells) = cells := by
  unfold sheetTable
  rw [fromOne_top]
  apply List.ext_getElem
  · simp
  · intro i h1 h2
    have hw' : widest (fromOne cells) = w := by
      apply widest_eq
      · intro r hr
        unfold fromOne at hr
        rw [List.mem_mapIdx] at hr
        obtain ⟨j, hj, rfl⟩ := hr
        exact hw _ (List.getElem_mem hj)
      · intro h
        have := congrArg List.length h
        simp [fromOne] at this
        subst this
        simp at h2
    simp only [List.getElem_map, List.getElem_range]
    rw [fromOne_find cells i h2, hw']
    simp [hw _ (List.getElem_mem h2)]

theorem trimBlank_keep (isna : α → Bool) (rows : List (List α)) (h : ∀ r, rows.getLast? = some r → r.all isna = false) :
    trimBlank isna rows = rows := by
  unfold trimBlank
  cases hr : rows.reverse with
  | nil => simpa using congrArg List.reverse hr.symm
  | cons r rs =>
    have hl : rows.getLast? = some r := by rw [← List.head?_reverse, hr]; rfl
    rw [List.dropWhile_cons_of_neg (by simp [h r hl]), ← hr, List.reverse_reverse]

/-! ### putting the frame together -/

theorem defineMetadata_spec (cfg : Cfg) (hp : 1 ≤ cfg.nPartitions) (hmc : 1 ≤ cfg.minCol) (n : Nat) :
    ∃ lens k, defineMetadata cfg n = some (lens, k) ∧ lens.sum = n ∧ lens ≠ [] ∧
      ∀ {ι κ α : Type} (f : Frame ι κ α), f.WF → f.ncols = n →
        splitResult false k f cfg.minCol none = some ((sliceBounds lens).map fun q => f.ilocCols q.1 q.2) := by
  have hk : 1 ≤ min (if n = 0 then 1 else n) cfg.nPartitions := by
    split <;> omega
  obtain ⟨lens, l1, l2, l3⟩ := getLengthList_some (n := n) hk hmc
  unfold defineMetadata
  unfold getLengthList at l1
  simp only at l1 ⊢
  cases hc : computeChunksize n (min (if n = 0 then 1 else n) cfg.nPartitions) cfg.minCol with
  | none => rw [hc] at l1; cases l1
  | some c =>
    have hone : ∀ {ι κ α : Type} (f : Frame ι κ α), f.WF → f.ncols = n →
        splitResult false 1 f cfg.minCol none = some ((sliceBounds [n]).map fun q => f.ilocCols q.1 q.2) := by
      intro ι κ α f hw hn
      unfold splitResult
      rw [if_pos rfl, sliceBounds_single]
      simp only [List.map_cons, List.map_nil]
      rw [← hn, hw.ilocCols_all]
    by_cases hcn : c > n
    · refine ⟨[n], 1, by simp [hcn], by simp, by simp, hone⟩
    · have hlens : ((List.range (min (if n = 0 then 1 else n) cfg.nPartitions)).map fun i =>
          if n > c * (i + 1) then c else if n < c * i then 0 else n - c * i) = lens := by
        rw [hc, Option.map_some, Option.some.injEq] at l1
        rw [← l1]
        apply List.map_congr_left
        intro i _
        rw [Nat.mul_comm c (i + 1), Nat.mul_comm c i, Nat.add_mul]
        generalize i * c = x
        split <;> split <;> (try split) <;> omega
      refine ⟨lens, _, by rw [Option.map_some, if_neg hcn, hlens], l2, by rintro rfl; simp at l3; omega, ?_⟩
      intro ι κ α f hw hn
      by_cases h1 : min (if n = 0 then 1 else n) cfg.nPartitions = 1
      · have : lens = [n] := by
          rw [h1] at l3
          match lens, l3, l2 with
          | [x], _, h => simp at h; rw [h]
        rw [h1, this]
        exact hone f hw hn
      · refine splitResult_cols _ _ h1 _ none lens (Or.inr ⟨rfl, ?_⟩)
        rw [hn]
        unfold getLengthList
        exact l1

theorem assembleRead_shows [DecidableEq ι] [DecidableEq κ] (cfg : Cfg) (hp : 1 ≤ cfg.nPartitions) (hmc : 1 ≤ cfg.minCol) (num : Int → ι) (cols : List κ)
    (fs : List (Frame ι κ α)) (hne : fs ≠ []) (hfs : ∀ f ∈ fs, f.WF ∧ f.columns = cols) :
    ∃ m, assembleRead cfg num cols fs = some m ∧
      m.Shows { index := rangeLabels num 0 1 (fs.map (·.rows)).flatten.length, columns := cols, rows := (fs.map (·.rows)).flatten } := by
  obtain ⟨lens, k, d1, d2, d3, d4⟩ := defineMetadata_spec cfg hp hmc cols.length
  have hsum : (fs.map (·.nrows)).sum = (fs.map (·.rows)).flatten.length := by
    rw [List.length_flatten, List.map_map]
    congr 1
    apply List.map_congr_left
    intro f hf
    exact (hfs f hf).1.rows_len.symm
  have hwf : (Frame.stackRows cols fs).WF := by
    constructor
    · simp only [Frame.stackRows, List.length_flatten, List.map_map, Function.comp_def]
      congr 1
      apply List.map_congr_left
      intro f hf
      exact (hfs f hf).1.rows_len
    · intro r hr
      simp only [Frame.stackRows, List.mem_flatten, List.mem_map] at hr
      obtain ⟨_, ⟨f, hf, rfl⟩, hr⟩ := hr
      rw [(hfs f hf).1.row_width r hr, (hfs f hf).2]
      rfl
  have hs : LFrame.Shows (LFrame.mk (MFrame.mk ((Frame.stackRows cols fs).cut (fs.map (·.nrows)) lens)
      (some (rangeLabels num 0 1 (fs.map (·.nrows)).sum)) (some cols) (some (fs.map (·.nrows))) (some lens)) true false)
      { index := rangeLabels num 0 1 (fs.map (·.rows)).flatten.length, columns := cols, rows := (fs.map (·.rows)).flatten } := by
    refine ⟨⟨by simp [rangeLabels], ?_⟩, ⟨Frame.stackRows cols fs, _, lens, hwf, rfl, rfl, ?_, rfl, Or.inr rfl, Or.inr rfl, ?_,
      fun _ => rfl⟩, Or.inr ?_, Or.inr rfl⟩
    · intro r hr
      exact hwf.row_width r hr
    · exact stackRows_isCut cols hne d3 d2
    · simp
    · simp only [hsum]
  obtain ⟨m, m1, m2⟩ := mk'_shows hs
  refine ⟨_, ?_, m2⟩
  unfold assembleRead
  rw [d1, Option.bind_some]
  simp only
  rw [mapM_some_congr (g := fun f => (sliceBounds lens).map fun q => f.ilocCols q.1 q.2) (fun f hf => d4 f (hfs f hf).1 (by unfold Frame.ncols; rw [(hfs f hf).2])),
    Option.bind_some, stack_cut cols lens fs hfs]
  have m1' : MFrame.mk' (MFrame.mk ((Frame.stackRows cols fs).cut (fs.map (·.nrows)) lens)
      (some (rangeLabels num 0 1 (fs.map (·.nrows)).sum)) (some cols) (some (fs.map (·.nrows))) (some lens)) = some m := m1
  rw [m1']
  rfl

/-! ### pieces of a worksheet -/

theorem splitRows_tail (rows : List (List Char)) (hr : ∀ r ∈ rows, RowText r) {tail : List Char} (ht : ∀ c, tail.head? = some c → c = '<')
    (hc : occurs rowClose tail = []) (fuel : Nat) (hf : rows.length ≤ fuel) : splitRows fuel (rows.flatten ++ tail) = rows := by
  induction rows generalizing fuel with
  | nil =>
    cases fuel with
    | zero => rfl
    | succ fuel =>
      unfold splitRows
      simp [hc]
  | cons r rs ih =>
    cases fuel with
    | zero => simp at hf
    | succ fuel =>
      have hcl := occurs_close_rows hr ht hc
      have hl := (hr r (by simp)).long
      unfold splitRows
      rw [hcl]
      simp only [rowEnds, List.head?_cons]
      have : r.length - 6 + rowClose.length = r.length := by simp [rowClose]; omega
      rw [this, List.flatten_cons, List.append_assoc, List.take_left, List.drop_left,
        ih (fun x hx => hr x (List.mem_cons_of_mem _ hx)) fuel (by simpa using hf)]

theorem flatten_long (rows : List (List Char)) (hr : ∀ r ∈ rows, RowText r) : rows.length ≤ rows.flatten.length := by
  induction rows with
  | nil => simp
  | cons r rs ih =>
    have hl := (hr r (by simp)).long
    have := ih fun x hx => hr x (List.mem_cons_of_mem _ hx)
    simp only [List.length_cons, List.flatten_cons, List.length_append]
    omega

/-- how the columns of a piece are called -/
def namesOf (colNum : Nat → α) (mangle : List α → List α) (w : Nat) : List (List α) → List α
  | [] => (List.range w).map colNum
  | c :: _ => mangle c

theorem excelParse_group (decode : List Char → Int × List α) (num : Int → ι) (colNum : Nat → α) (blank : α) (isna : α → Bool)
    (mangle : List α → List α) (header : Option Nat) (head : List (List Char)) (pref : List (List α)) (w : Nat)
    (hh : header = none ∧ pref = [] ∨ header = some 0 ∧ pref.length = 1) (hhead : head.map decode = fromOne pref)
    (hpw : ∀ c ∈ pref, c.length = w) (g : List (List Char)) (hg : ∀ r ∈ g, RowText r) (hne : g ≠ []) (skip : Nat) (cg : List (List α))
    (hdec : g.map decode = cg.mapIdx fun i c => (((skip + pref.length + i : Nat) : Int) + 1, c)) (hcw : ∀ c ∈ cg, c.length = w)
    (hna : ∀ c ∈ cg, c.all isna = false) :
    excelParse decode num colNum blank isna mangle header head (skip, g.flatten) =
      some { index := rangeLabels num skip 1 cg.length, columns := namesOf colNum mangle w pref, rows := cg } := by
  have hrows : (splitRows g.flatten.length g.flatten).map (fun r => ((decode r).1 - (skip : Int), (decode r).2)) =
      cg.mapIdx fun i c => (((i + pref.length : Nat) : Int) + 1, c) := by
    rw [splitRows_rows g hg _ (flatten_long g hg)]
    have : g.map (fun r => ((decode r).1 - (skip : Int), (decode r).2)) = (g.map decode).map fun p => (p.1 - (skip : Int), p.2) := by
      rw [List.map_map]; rfl
    rw [this, hdec]
    apply List.ext_getElem
    · simp
    · intro i h1 h2
      simp only [List.getElem_map, List.getElem_mapIdx]
      congr 1
      omega
  have htable : sheetTable blank (head.map decode ++ cg.mapIdx fun i c => (((i + pref.length : Nat) : Int) + 1, c)) = pref ++ cg := by
    have : head.map decode ++ (cg.mapIdx fun i c => (((i + pref.length : Nat) : Int) + 1, c)) = fromOne (pref ++ cg) := by
      rw [hhead]
      unfold fromOne
      rw [List.mapIdx_append]
    rw [this]
    apply sheetTable_fromOne blank _ w
    intro c hc
    rcases List.mem_append.1 hc with hc | hc
    · exact hpw c hc
    · exact hcw c hc
  have hcne : cg ≠ [] := by
    intro h
    have := congrArg List.length hdec
    rw [h] at this
    simp at this
    exact hne this
  obtain ⟨c, cs, rfl⟩ : ∃ c cs, cg = c :: cs := by
    cases cg with
    | nil => exact absurd rfl hcne
    | cons c cs => exact ⟨c, cs, rfl⟩
  have hdropped : ¬ ((c :: cs).all (fun x => x.all isna) = true) := by
    rw [List.all_cons, hna c (by simp)]
    simp
  unfold excelParse
  simp only
  rw [hrows, htable]
  rcases hh with ⟨rfl, rfl⟩ | ⟨rfl, hl⟩
  · simp only [List.nil_append, List.head?_cons, Option.map_some]
    rw [if_neg (fun h => hdropped h.2.2), hcw c (by simp)]
    rfl
  · match pref, hl with
    | [p], _ =>
      simp only [List.cons_append, List.nil_append, List.getElem?_cons_zero, Option.map_some, Nat.zero_add, List.drop_succ_cons, List.drop_zero]
      rw [if_neg (fun h => hdropped h.2.2)]
      rfl

theorem excelParse_groups (decode : List Char → Int × List α) (num : Int → ι) (colNum : Nat → α) (blank : α) (isna : α → Bool)
    (mangle : List α → List α) (header : Option Nat) (head : List (List Char)) (pref : List (List α)) (w : Nat)
    (hh : header = none ∧ pref = [] ∨ header = some 0 ∧ pref.length = 1) (hhead : head.map decode = fromOne pref)
    (hpw : ∀ c ∈ pref, c.length = w) (gs : List (List (List Char))) (hgne : ∀ g ∈ gs, g ≠ []) :
    ∀ (skip : Nat) (cs : List (List α)), (∀ r ∈ gs.flatten, RowText r) →
    gs.flatten.map decode = (cs.mapIdx fun i c => (((skip + pref.length + i : Nat) : Int) + 1, c)) → (∀ c ∈ cs, c.length = w) →
    (∀ c ∈ cs, c.all isna = false) →
    ∃ fs : List (Frame ι α α), (numbered skip gs).mapM (excelParse decode num colNum blank isna mangle header head) = some fs ∧
      fs.length = gs.length ∧ (∀ f ∈ fs, f.index.length = f.rows.length ∧ f.columns = namesOf colNum mangle w pref) ∧ (fs.map (·.rows)).flatten = cs := by
  induction gs with
  | nil =>
    intro skip cs _ hdec _ _
    refine ⟨[], rfl, rfl, by simp, ?_⟩
    have := congrArg List.length hdec
    simp at this
    simpa using this.symm
  | cons g gs ih =>
    intro skip cs hr hdec hw hna
    rw [List.flatten_cons, List.map_append] at hdec
    have hlen := congrArg List.length hdec
    simp only [List.length_append, List.length_map, List.length_mapIdx] at hlen
    have hcs : cs = cs.take g.length ++ cs.drop g.length := (List.take_append_drop _ _).symm
    have htl : (cs.take g.length).length = g.length := by rw [List.length_take]; omega
    rw [hcs, List.mapIdx_append] at hdec
    obtain ⟨d1, d2⟩ := List.append_inj hdec (by simp only [List.length_map, List.length_mapIdx, htl])
    obtain ⟨fs, f1, f2, f3, f4⟩ := ih (fun x hx => hgne x (List.mem_cons_of_mem _ hx)) (skip + g.length) (cs.drop g.length)
      (fun r hx => hr r (by rw [List.flatten_cons]; exact List.mem_append_right _ hx)) (by
        rw [d2]
        apply List.ext_getElem
        · simp
        · intro i h1 h2
          simp only [List.getElem_mapIdx, htl]
          congr 2
          omega)
      (fun c hc => hw c (List.mem_of_mem_drop hc)) (fun c hc => hna c (List.mem_of_mem_drop hc))
    have e := excelParse_group decode num colNum blank isna mangle header head pref w hh hhead hpw g
      (fun r hx => hr r (by rw [List.flatten_cons]; exact List.mem_append_left _ hx)) (hgne g (by simp)) skip (cs.take g.length) d1
      (fun c hc => hw c (List.mem_of_mem_take hc)) (fun c hc => hna c (List.mem_of_mem_take hc))
    refine ⟨Frame.mk (rangeLabels num skip 1 (cs.take g.length).length) (namesOf colNum mangle w pref) (cs.take g.length) :: fs, ?_,
      by simp [f2], ?_, ?_⟩
    · rw [numbered, List.mapM_cons, e, f1]; rfl
    · intro f hf
      rcases List.mem_cons.1 hf with rfl | hf
      · exact ⟨by simp [rangeLabels], rfl⟩
      · exact f3 f hf
    · rw [List.map_cons, List.flatten_cons, f4, List.take_append_drop]

/-! ### lines -/

theorem splitLines_precords {B : Type} [DecidableEq B] (d : Dialect B) (bs : List B) : ∀ o, splitLines d.nl bs = (d.precords o bs).flatMap (splitLines d.nl) := by
  unfold splitLines Dialect.precords
  induction bs with
  | nil => intro o; rfl
  | cons b bs ih =>
    intro o
    rw [cutWith_cons, cutWith_cons]
    have h1 : ∀ x : B, cutWith (fun (_ : Unit) _ => ()) (fun _ b => decide (b = d.nl)) () [x] = [[x]] := by
      intro x
      rw [cutWith_cons]
      split <;> rfl
    have ih := ih (d.pstep o b)
    by_cases hb : b = d.nl
    · rw [if_pos (by simpa using hb)]
      by_cases hf : d.pfin o b = true
      · rw [if_pos hf, List.flatMap_cons, h1, ih]
        rfl
      · rw [if_neg hf]
        cases hc : cutWith d.pstep d.pfin (d.pstep o b) bs with
        | nil =>
          rw [hc] at ih
          simp only [glue, List.flatMap_cons, List.flatMap_nil, List.append_nil, h1]
          rw [ih]
          rfl
        | cons r rs =>
          rw [hc] at ih
          simp only [glue, List.flatMap_cons]
          rw [cutWith_cons, if_pos (by simpa using hb), ih, List.flatMap_cons]
          rfl
    · rw [if_neg (by simpa using hb)]
      have hf : ¬ d.pfin o b = true := by
        unfold Dialect.pfin
        simp [hb]
      rw [if_neg hf]
      cases hc : cutWith d.pstep d.pfin (d.pstep o b) bs with
      | nil =>
        rw [hc] at ih
        simp only [glue, List.flatMap_cons, List.flatMap_nil, List.append_nil, h1]
        rw [ih]
        rfl
      | cons r rs =>
        have hr : r ≠ [] := cutWith_ne d.pstep d.pfin (d.pstep o b) bs r (by rw [hc]; simp)
        rw [hc] at ih
        simp only [glue, List.flatMap_cons]
        rw [cutWith_cons, if_neg (by simpa using hb), ih, List.flatMap_cons]
        cases hq : cutWith (fun (_ : Unit) _ => ()) (fun _ b => decide (b = d.nl)) () r with
        | nil => exact absurd ((cutWith_eq_nil _ _ _ _).1 hq) hr
        | cons x xs => simp [glue]

theorem precords_group {B : Type} [DecidableEq B] (d : Dialect B) (hd : d.Ok) (file : List B) (a j : Nat) :
    d.precords true (((d.precords true file).drop a).take j).flatten = ((d.precords true file).drop a).take j := by
  have h1 := cutWith_drop d.pstep d.pfin (preset d hd) true file a (Or.inr rfl)
  have h2 := cutWith_take d.pstep d.pfin true ((d.precords true file).drop a).flatten j
  unfold Dialect.precords at h2 ⊢
  rw [h1] at h2
  exact h2

/-- the ranges a file is cut into hold its lines, in order, each once; none is empty -/
theorem ranges_lines {B : Type} [DecidableEq B] (d : Dialect B) (hd : d.Ok) (file : List B) (np : Nat) :
    ((partitionedFile d file np none 0 0 0).map fun r => splitLines d.nl (pySlice file r.1 r.2)).flatten = splitLines d.nl file := by
  obtain ⟨gs, e1, e2, e3⟩ := partitionedFile_spec d hd file np none 0 0 0 (by simp)
  have : ((partitionedFile d file np none 0 0 0).map fun r => splitLines d.nl (pySlice file r.1 r.2)) =
      ((partitionedFile d file np none 0 0 0).map fun r => pySlice file r.1 r.2).map (splitLines d.nl) := by
    rw [List.map_map]; rfl
  rw [this, e2, List.map_map]
  have h2 : gs.map (splitLines d.nl ∘ List.flatten) = gs.map fun g => g.flatMap (splitLines d.nl) := by
    apply List.map_congr_left
    intro g hg
    obtain ⟨a, j, rfl⟩ := e3 g hg
    simp only [Function.comp_def]
    rw [splitLines_precords d _ true, precords_group d hd]
  rw [h2, splitLines_precords d file true]
  simp only [List.take_zero, List.nil_append, wanted, Nat.add_zero, List.drop_zero] at e1
  rw [← e1]
  clear e1 e2 e3 this h2
  induction gs with
  | nil => rfl
  | cons g gs ih => simp [ih, List.flatMap_append]
