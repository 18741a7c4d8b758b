import Verif.Model.Corr
import Verif.Lemmas.FullAxis
import Verif.Lemmas.Labels
import Verif.Lemmas.Sort
import Verif.Lemmas.Readers
/-
Correlation and covariance.
-/

variable {ι κ R : Type}

/-! ### sums -/

theorem ratSum_append (a b : List Rat) : (a ++ b).sum = a.sum + b.sum := by
  induction a with
  | nil => simp; grind
  | cons x xs ih => simp only [List.cons_append, List.sum_cons, ih]; grind

theorem ratSum_flatten (l : List (List Rat)) : l.flatten.sum = (l.map List.sum).sum := by
  induction l with
  | nil => rfl
  | cons x xs ih => simp only [List.flatten_cons, ratSum_append, List.map_cons, List.sum_cons, ih]

theorem ratSum_split {A : Type} (p : A → Bool) (f : A → Rat) (l : List A) :
    ((l.filter p).map f).sum + ((l.filter (!p ·)).map f).sum = (l.map f).sum := by
  induction l with
  | nil => simp; grind
  | cons x xs ih => cases hx : p x <;> simp [hx] <;> grind

theorem natSum_split {A : Type} (p : A → Bool) (f : A → Nat) (l : List A) :
    ((l.filter p).map f).sum + ((l.filter (!p ·)).map f).sum = (l.map f).sum := by
  induction l with
  | nil => simp
  | cons x xs ih => cases hx : p x <;> simp [hx] <;> omega

/-- the sum of products of deviations from any two numbers, multiplied out -/
theorem sum_shift (a b : Rat) (l : List (Rat × Rat)) :
    (l.map fun p => (p.1 - a) * (p.2 - b)).sum =
      (l.map fun p => p.1 * p.2).sum - b * (l.map (·.1)).sum - a * (l.map (·.2)).sum + l.length * a * b := by
  induction l with
  | nil => simp; grind
  | cons p ps ih =>
    simp only [List.map_cons, List.sum_cons, ih, List.length_cons]
    grind

/-! ### one row partition -/

/-- a band of rows that all have `n` cells -/
def Band.Wide (n : Nat) (b : Band) : Prop := ∀ row ∈ b, row.length = n

theorem pairsOf_flatten (bands : List Band) (i j : Nat) : pairsOf bands.flatten i j = (bands.map fun b => pairsOf b i j).flatten := by
  unfold pairsOf
  rw [List.filterMap_flatten]

theorem pairsOf_cons (row : List (Option Rat)) (b : Band) (i j : Nat) : pairsOf (row :: b) i j =
    (match row[i]?, row[j]? with
      | some (some x), some (some y) => [(x, y)]
      | _, _ => []) ++ pairsOf b i j := by
  unfold pairsOf
  rw [List.filterMap_cons]
  split <;> rename_i h <;> split at h <;> simp_all

theorem pairsOf_swap (rows : Band) (i j : Nat) : pairsOf rows j i = (pairsOf rows i j).map fun p => (p.2, p.1) := by
  induction rows with
  | nil => rfl
  | cons row b ih =>
    rw [pairsOf_cons, pairsOf_cons, ih]
    cases row[i]? with
    | none => cases row[j]? with
      | none => simp
      | some y => cases y <;> simp
    | some x => cases x <;> (cases row[j]? with
      | none => simp
      | some y => cases y <;> simp)

theorem mul_pairs (b : Band) (r c : Nat) : b.mul r c = ((pairsOf b r c).map fun p => p.1 * p.2).sum := by
  induction b with
  | nil => rfl
  | cons row b ih =>
    unfold Band.mul at ih ⊢
    rw [pairsOf_cons, List.map_cons, List.sum_cons, ih, List.map_append, ratSum_append]
    congr 1
    unfold zeroFilled
    rcases row[r]? with _ | (_ | x) <;> rcases row[c]? with _ | (_ | y) <;> simp <;> grind

theorem nanSum_pairs (b : Band) (r c : Nat) : b.nanSum r c = ((pairsOf b r c).map (·.2)).sum := by
  induction b with
  | nil => rfl
  | cons row b ih =>
    unfold Band.nanSum at ih ⊢
    rw [pairsOf_cons, List.map_cons, List.sum_cons, ih, List.map_append, ratSum_append]
    congr 1
    unfold zeroFilled isValid
    rcases row[r]? with _ | (_ | x) <;> rcases row[c]? with _ | (_ | y) <;> simp <;> grind

theorem nanPow_pairs (b : Band) (r c : Nat) : b.nanPow r c = ((pairsOf b r c).map fun p => p.2 * p.2).sum := by
  induction b with
  | nil => rfl
  | cons row b ih =>
    unfold Band.nanPow at ih ⊢
    rw [pairsOf_cons, List.map_cons, List.sum_cons, ih, List.map_append, ratSum_append]
    congr 1
    unfold zeroFilled isValid
    rcases row[r]? with _ | (_ | x) <;> rcases row[c]? with _ | (_ | y) <;> simp <;> grind

theorem nanCount_pairs (b : Band) (r c : Nat) : b.nanCount r c = (pairsOf b r c).length := by
  have h : (pairsOf b r c).length + (b.filter fun row => !isValid row r || !isValid row c).length = b.length := by
    induction b with
    | nil => rfl
    | cons row b ih =>
      rw [pairsOf_cons, List.length_append, List.filter_cons, List.length_cons]
      unfold isValid at ih ⊢
      rcases row[r]? with _ | (_ | x) <;> rcases row[c]? with _ | (_ | y) <;> simp <;> simp at ih <;> omega
  unfold Band.nanCount
  omega

/-- in a partition without missing values every row counts -/
theorem pairsOf_plain {b : Band} {n : Nat} (hw : b.Wide n) (hb : b.hasNans = false) {r c : Nat} (hr : r < n) (hc : c < n) :
    pairsOf b r c = b.map fun row => (zeroFilled row r, zeroFilled row c) := by
  induction b with
  | nil => rfl
  | cons row b ih =>
    have h0 : row.length = n := hw row (by simp)
    simp only [Band.hasNans, List.any_cons, Bool.or_eq_false_iff] at hb
    rw [pairsOf_cons, List.map_cons, ih (fun x hx => hw x (by simp [hx])) hb.2]
    have hs : ∀ i, i < n → ∃ x, row[i]? = some (some x) := by
      intro i hi
      have h1 : row[i]? = some (row[i]'(by omega)) := List.getElem?_eq_getElem _
      cases hx : row[i]'(by omega) with
      | none =>
        have := hb.1
        rw [List.any_eq_false] at this
        exact absurd (by rw [hx]; rfl) (this _ (List.getElem_mem (show i < row.length by omega)))
      | some x => exact ⟨x, by rw [h1, hx]⟩
    obtain ⟨x, hx⟩ := hs r hr
    obtain ⟨y, hy⟩ := hs c hc
    simp [zeroFilled, hx, hy]

theorem plainSum_pairs {b : Band} {n : Nat} (hw : b.Wide n) (hb : b.hasNans = false) {r c : Nat} (hr : r < n) (hc : c < n) :
    b.plainSum c = ((pairsOf b r c).map (·.2)).sum := by
  rw [pairsOf_plain hw hb hr hc, List.map_map]
  rfl

theorem plainPow_pairs {b : Band} {n : Nat} (hw : b.Wide n) (hb : b.hasNans = false) {r c : Nat} (hr : r < n) (hc : c < n) :
    b.plainPow c = ((pairsOf b r c).map fun p => p.2 * p.2).sum := by
  rw [pairsOf_plain hw hb hr hc, List.map_map]
  rfl

theorem plainLength_pairs {b : Band} {n : Nat} (hw : b.Wide n) (hb : b.hasNans = false) {r c : Nat} (hr : r < n) (hc : c < n) :
    b.length = (pairsOf b r c).length := by
  rw [pairsOf_plain hw hb hr hc, List.length_map]

/-! ### all row partitions -/

theorem labelOrder_sorted (le : κ → κ → Bool) (cols : List κ) (h : cols.Pairwise fun a b => le a b = true) :
    labelOrder le cols = List.range cols.length := by
  unfold labelOrder
  apply sortBy_of_pairwise
  rw [List.pairwise_iff_getElem]
  intro i j hi hj hij
  simp only [List.length_range] at hi hj
  simp only [List.getElem_range, List.getElem?_eq_getElem hi, List.getElem?_eq_getElem hj]
  exact List.pairwise_iff_getElem.mp h i j hi hj hij

theorem sum_pairs_flatten (bands : List Band) (r c : Nat) (f : Rat × Rat → Rat) :
    (bands.map fun b => ((pairsOf b r c).map f).sum).sum = ((pairsOf bands.flatten r c).map f).sum := by
  rw [pairsOf_flatten, List.map_flatten, ratSum_flatten, List.map_map, List.map_map]
  rfl

theorem length_pairs_flatten (bands : List Band) (r c : Nat) :
    (bands.map fun b => (pairsOf b r c).length).sum = (pairsOf bands.flatten r c).length := by
  rw [pairsOf_flatten, List.length_flatten, List.map_map]
  rfl

/-- What is added up is what the pairs of values give: `withNans` is whether some partition has missing values. -/
theorem corrTotals_nan (le : κ → κ → Bool) (cols : List κ) (bands : List Band) (hw : ∀ b ∈ bands, b.Wide cols.length)
    (hsome : bands.any (·.hasNans) = true)
    (hord : bands.all (·.hasNans) = true ∨ cols.Pairwise fun a b => le a b = true) {r c : Nat}
    (hr : r < cols.length) (hc : c < cols.length) :
    (corrTotals le cols bands).sums r c = ((pairsOf bands.flatten r c).map (·.2)).sum ∧
    (corrTotals le cols bands).pows r c = ((pairsOf bands.flatten r c).map fun p => p.2 * p.2).sum ∧
    (corrTotals le cols bands).counts r c = (pairsOf bands.flatten r c).length := by
  have h0 : bands.filter (·.hasNans) ≠ [] := by
    rw [List.any_eq_true] at hsome
    obtain ⟨b, h1, h2⟩ := hsome
    exact List.ne_nil_of_mem (List.mem_filter.mpr ⟨h1, h2⟩)
  have hget : ∀ f : Nat → Band → Rat, ((bands.filter (!·.hasNans)).map (f ((labelOrder le cols).getD c c))).sum =
      ((bands.filter (!·.hasNans)).map (f c)).sum := by
    intro f
    rcases hord with h | h
    · have : bands.filter (!·.hasNans) = [] := by
        rw [List.filter_eq_nil_iff]
        intro b hb
        simp [List.all_eq_true.mp h b hb]
      rw [this]
      rfl
    · rw [labelOrder_sorted le cols h]
      simp [List.getD, List.getElem?_range hc]
  have hplain : ∀ f g : Band → Rat, (∀ b, b.Wide cols.length → b.hasNans = false → f b = g b) →
      ((bands.filter (!·.hasNans)).map f).sum = ((bands.filter (!·.hasNans)).map g).sum := by
    intro f g h
    congr 1
    apply List.map_congr_left
    intro b hb
    obtain ⟨h1, h2⟩ := List.mem_filter.mp hb
    exact h b (hw b h1) (by simpa using h2)
  refine ⟨?_, ?_, ?_⟩
  · simp only [corrTotals, if_neg h0]
    rw [hget (fun i b => b.plainSum i), hplain _ _ (fun b h1 h2 => plainSum_pairs h1 h2 hr hc)]
    simp only [nanSum_pairs]
    rw [ratSum_split, sum_pairs_flatten]
  · simp only [corrTotals, if_neg h0]
    rw [hget (fun i b => b.plainPow i), hplain _ _ (fun b h1 h2 => plainPow_pairs h1 h2 hr hc)]
    simp only [nanPow_pairs]
    rw [ratSum_split, sum_pairs_flatten]
  · simp only [corrTotals, if_neg h0]
    have : (bands.filter (!·.hasNans)).map (·.length) = (bands.filter (!·.hasNans)).map fun b => (pairsOf b r c).length := by
      apply List.map_congr_left
      intro b hb
      obtain ⟨h1, h2⟩ := List.mem_filter.mp hb
      exact plainLength_pairs (hw b h1) (by simpa using h2) hr hc
    rw [this]
    simp only [nanCount_pairs]
    rw [natSum_split, length_pairs_flatten]

theorem corrTotals_plain (le : κ → κ → Bool) (cols : List κ) (bands : List Band) (hw : ∀ b ∈ bands, b.Wide cols.length)
    (hnone : bands.any (·.hasNans) = false) {r c : Nat} (hr : r < cols.length) (hc : c < cols.length) (z w : Nat) :
    (corrTotals le cols bands).sums r z = ((pairsOf bands.flatten r c).map (·.1)).sum ∧
    (corrTotals le cols bands).pows r z = ((pairsOf bands.flatten r c).map fun p => p.1 * p.1).sum ∧
    (corrTotals le cols bands).counts w z = (pairsOf bands.flatten r c).length ∧
    (corrTotals le cols bands).sumCols = 1 := by
  have h1 : ∀ b ∈ bands, b.hasNans = false := by
    intro b hb
    rw [List.any_eq_false] at hnone
    simpa using hnone b hb
  have h0 : bands.filter (·.hasNans) = [] := by
    rw [List.filter_eq_nil_iff]
    intro b hb
    simp [h1 b hb]
  have h2 : bands.filter (!·.hasNans) = bands := by
    rw [List.filter_eq_self]
    intro b hb
    simp [h1 b hb]
  have hs : ∀ f g : Band → Rat, (∀ b, b.Wide cols.length → b.hasNans = false → f b = g b) → (bands.map f).sum = (bands.map g).sum := by
    intro f g h
    congr 1
    exact List.map_congr_left fun b hb => h b (hw b hb) (h1 b hb)
  have hf : ∀ f : Rat → Rat, (pairsOf bands.flatten r c).map (fun p => f p.1) = (pairsOf bands.flatten c r).map (fun p => f p.2) := by
    intro f
    rw [pairsOf_swap bands.flatten r c, List.map_map]
    rfl
  refine ⟨?_, ?_, ?_, ?_⟩
  · simp only [corrTotals, if_pos h0, h2]
    rw [hs _ _ (fun b p q => plainSum_pairs p q hc hr), sum_pairs_flatten, hf (fun x => x)]
  · simp only [corrTotals, if_pos h0, h2]
    rw [hs _ _ (fun b p q => plainPow_pairs p q hc hr), sum_pairs_flatten, hf (fun x => x * x)]
  · simp only [corrTotals, if_pos h0, h2]
    rw [← length_pairs_flatten]
    congr 1
    exact List.map_congr_left fun b hb => plainLength_pairs (hw b hb) (h1 b hb) hr hc
  · simp only [corrTotals, if_pos h0]

theorem corrTotals_mul (le : κ → κ → Bool) (cols : List κ) (bands : List Band) (r c : Nat) :
    (corrTotals le cols bands).mul r c = ((pairsOf bands.flatten r c).map fun p => p.1 * p.2).sum := by
  simp only [corrTotals, mul_pairs]
  rw [sum_pairs_flatten]

/-! ### the entries of the table -/

theorem deviation_eq (l : List Rat) :
    deviation l = (l.map fun x => x * x).sum - 2 * meanOf l * l.sum + l.length * (meanOf l * meanOf l) := by
  have := sum_shift (meanOf l) (meanOf l) (l.map fun x => (x, x))
  simp only [List.map_map, Function.comp_def, List.map_id', List.length_map] at this
  unfold deviation
  rw [this]
  grind

theorem codeviation_eq (l : List (Rat × Rat)) :
    codeviation l = (l.map fun p => p.1 * p.2).sum - (l.map (·.1)).sum * meanOf (l.map (·.2)) -
      meanOf (l.map (·.1)) * (l.map (·.2)).sum + l.length * meanOf (l.map (·.1)) * meanOf (l.map (·.2)) := by
  unfold codeviation
  rw [sum_shift]
  grind

/-- the entry pandas computes -/
def corrSpec (quotient : Rat → Rat → Rat → R) (nan : R) (minPeriods : Nat) (l : List (Rat × Rat)) : R :=
  if l.length < minPeriods ∨ l = [] then nan
  else quotient (codeviation l) (deviation (l.map (·.1))) (deviation (l.map (·.2)))

theorem corrEntryNan_eq (quotient : Rat → Rat → Rat → R) (hsym : ∀ t a b, quotient t a b = quotient t b a) (nan : R)
    (minPeriods : Nat) (t : CorrTotals) (r c : Nat) (l : List (Rat × Rat))
    (hm : t.mul r c = (l.map fun p => p.1 * p.2).sum)
    (h1 : t.sums r c = (l.map (·.2)).sum) (h2 : t.pows r c = (l.map fun p => p.2 * p.2).sum) (h3 : t.counts r c = l.length)
    (g1 : t.sums c r = (l.map (·.1)).sum) (g2 : t.pows c r = (l.map fun p => p.1 * p.1).sum) (g3 : t.counts c r = l.length) :
    corrEntryNan quotient nan minPeriods t r c = corrSpec quotient nan minPeriods l := by
  unfold corrEntryNan corrSpec
  simp only [hm, h1, h2, h3, g1, g2, g3, or_self]
  by_cases hn : l.length < minPeriods
  · simp [hn]
  · by_cases he : l = []
    · simp [he]
    · have : l.length ≠ 0 := by simpa using he
      rw [if_neg hn, if_neg this, if_neg (by simp [hn, he]), hsym, codeviation_eq, deviation_eq, deviation_eq]
      simp only [meanOf, List.length_map, List.map_map, Function.comp_def]
      congr 1
      grind

theorem corrEntryPlain_eq (quotient : Rat → Rat → Rat → R) (nan : R)
    (minPeriods : Nat) (t : CorrTotals) (r c : Nat) (l : List (Rat × Rat))
    (hm : t.mul r c = (l.map fun p => p.1 * p.2).sum)
    (h1 : t.sums r 0 = (l.map (·.1)).sum) (h2 : t.pows r 0 = (l.map fun p => p.1 * p.1).sum) (h3 : t.counts 0 0 = l.length)
    (g1 : t.sums c 0 = (l.map (·.2)).sum) (g2 : t.pows c 0 = (l.map fun p => p.2 * p.2).sum) :
    corrEntryPlain quotient nan minPeriods t r c = corrSpec quotient nan minPeriods l := by
  unfold corrEntryPlain corrSpec
  simp only [hm, h1, h2, h3, g1, g2]
  by_cases hn : l.length < minPeriods
  · simp [hn]
  · by_cases he : l = []
    · simp [he]
    · have : l.length ≠ 0 := by simpa using he
      rw [if_neg hn, if_neg this, if_neg (by simp [hn, he]), codeviation_eq, deviation_eq, deviation_eq]
      simp only [meanOf, List.length_map, List.map_map, Function.comp_def]

/-- **The table is the one pandas computes.** -/
theorem corrReduce_eq (le : κ → κ → Bool) (quotient : Rat → Rat → Rat → R) (hsym : ∀ t a b, quotient t a b = quotient t b a) (nan : R)
    (minPeriods : Nat) (df : Frame ι κ (Option Rat)) (bands : List Band) (hw : ∀ b ∈ bands, b.Wide df.columns.length)
    (hrows : bands.flatten = df.rows)
    (hord : bands.all (·.hasNans) = true ∨ bands.any (·.hasNans) = false ∨ df.columns.Pairwise fun a b => le a b = true) :
    corrReduce le quotient nan minPeriods df.columns bands = df.corr quotient nan minPeriods := by
  unfold corrReduce Frame.corr Frame.columnTable
  simp only [Frame.mk.injEq, true_and]
  apply List.map_congr_left
  intro r hr
  apply List.map_congr_left
  intro c hc
  rw [List.mem_range] at hr hc
  show _ = corrSpec quotient nan minPeriods (pairsOf df.rows r c)
  rw [← hrows]
  have hsw := pairsOf_swap bands.flatten r c
  cases hany : bands.any (·.hasNans) with
  | false =>
    obtain ⟨p1, p2, p3, p4⟩ := corrTotals_plain le df.columns bands hw hany hr hc 0 0
    obtain ⟨q1, q2, _, _⟩ := corrTotals_plain le df.columns bands hw hany hc hr 0 0
    rw [p4, if_neg (by omega)]
    apply corrEntryPlain_eq _ _ _ _ _ _ _ (corrTotals_mul _ _ _ _ _) p1 p2 p3
    · rw [q1, hsw, List.map_map]; rfl
    · rw [q2, hsw, List.map_map]; rfl
  | true =>
    have hord' : bands.all (·.hasNans) = true ∨ df.columns.Pairwise fun a b => le a b = true := by
      rcases hord with h | h | h
      · exact Or.inl h
      · rw [h] at hany; cases hany
      · exact Or.inr h
    split
    · obtain ⟨p1, p2, p3⟩ := corrTotals_nan le df.columns bands hw hany hord' hr hc
      obtain ⟨q1, q2, q3⟩ := corrTotals_nan le df.columns bands hw hany hord' hc hr
      apply corrEntryNan_eq _ hsym _ _ _ _ _ _ (corrTotals_mul _ _ _ _ _) p1 p2 p3
      · rw [q1, hsw, List.map_map]; rfl
      · rw [q2, hsw, List.map_map]; rfl
      · rw [q3, hsw, List.length_map]
    · rename_i h1
      have h0 : bands.filter (·.hasNans) ≠ [] := by
        rw [List.any_eq_true] at hany
        obtain ⟨b, h1, h2⟩ := hany
        exact List.ne_nil_of_mem (List.mem_filter.mpr ⟨h1, h2⟩)
      have hn : df.columns.length ≤ 1 := by
        simp only [corrTotals, if_neg h0] at h1
        split at h1 <;> omega
      obtain rfl : r = 0 := by omega
      obtain rfl : c = 0 := by omega
      obtain ⟨p1, p2, p3⟩ := corrTotals_nan le df.columns bands hw hany hord' hr hc
      apply corrEntryPlain_eq _ _ _ _ _ _ _ (corrTotals_mul _ _ _ _ _) _ _ p3 p1 p2
      · rw [p1]
        conv => lhs; rw [hsw, List.map_map]
        rfl
      · rw [p2]
        conv => lhs; rw [hsw, List.map_map]
        rfl

theorem Frame.columnTable_wf (df : Frame ι κ (Option Rat)) (f : Nat → Nat → R) : (df.columnTable f).WF := by
  refine ⟨by simp [Frame.columnTable], ?_⟩
  intro row hrow
  simp only [Frame.columnTable, List.mem_map] at hrow
  obtain ⟨i, _, rfl⟩ := hrow
  simp [Frame.columnTable]

theorem corr_wf (quotient : Rat → Rat → Rat → R) (nan : R) (minPeriods : Nat) (df : Frame ι κ (Option Rat)) :
    (df.corr quotient nan minPeriods).WF := Frame.columnTable_wf _ _

/-- the row partitions of the blocks -/
def bandRows (m : LFrame ι κ (Option Rat)) [DecidableEq ι] [DecidableEq κ] : List Band :=
  match m.synced.bind fun m1 => m1.parts.mapM fun row => Frame.hcat row with
  | some bs => bs.map (·.rows)
  | none => []

theorem corr_shows [DecidableEq ι] [DecidableEq κ] (cfg : Cfg) (hmr : 1 ≤ cfg.minRow) (le : κ → κ → Bool)
    (quotient : Rat → Rat → Rat → R) (hsym : ∀ t a b, quotient t a b = quotient t b a) (nan : R) (minPeriods : Nat)
    {m : LFrame ι κ (Option Rat)} {df : Frame ι κ (Option Rat)} (h : m.Shows df)
    (hord : (bandRows m).all (·.hasNans) = true ∨ (bandRows m).any (·.hasNans) = false ∨
      df.columns.Pairwise fun a b => le a b = true) :
    ∃ m', m.corr cfg le quotient nan minPeriods = some m' ∧ m'.Shows (df.corr quotient nan minPeriods) := by
  obtain ⟨m1, e1, e2⟩ := synced_spec h
  obtain ⟨rl, cw, hc, hp, _, _⟩ := e2.blocks
  have hb : (m1.parts.mapM fun row => Frame.hcat row) = some (bandsOf rl df) := by
    rw [hp]; exact hcat_rows_cut h.wf hc
  have hbr : bandRows m = (bandsOf rl df).map (·.rows) := by
    unfold bandRows
    rw [e1, Option.bind_some, hb]
  rw [hbr] at hord
  have hne := bandsOf_ne hc.rl_ne df
  obtain ⟨b0, bs, hbs⟩ : ∃ b0 bs, bandsOf rl df = b0 :: bs := by
    cases hx : bandsOf rl df with
    | nil => exact absurd hx hne
    | cons a l => exact ⟨a, l, rfl⟩
  have hcol : b0.columns = df.columns := (bandsOf_wf h.wf rl b0 (by simp [hbs])).2
  have hres := corrReduce_eq le quotient hsym nan minPeriods df ((bandsOf rl df).map (·.rows)) (by
    intro b hb row hrow
    rw [List.mem_map] at hb
    obtain ⟨f, hf, rfl⟩ := hb
    obtain ⟨g1, g2⟩ := bandsOf_wf h.wf rl f hf
    rw [g1.row_width row hrow, g2]) (bandsOf_rows h.wf hc) hord
  have hwf := corr_wf quotient nan minPeriods df
  obtain ⟨lens, l1, l2, l3⟩ : ∃ lens, splitResult true (bandsOf rl df).length (df.corr quotient nan minPeriods) cfg.minRow none =
      some ((sliceBounds lens).map fun p => (df.corr quotient nan minPeriods).ilocRows p.1 p.2) ∧ lens ≠ [] ∧
      lens.sum = (df.corr quotient nan minPeriods).nrows := by
    by_cases h1 : (bandsOf rl df).length = 1
    · refine ⟨[(df.corr quotient nan minPeriods).nrows], ?_, by simp, by simp⟩
      unfold splitResult
      rw [if_pos h1, sliceBounds_single]
      simp only [List.map_cons, List.map_nil]
      rw [hwf.ilocRows_all]
    · obtain ⟨lens, q1, q2, q3⟩ := getLengthList_some (n := (df.corr quotient nan minPeriods).nrows) (k := (bandsOf rl df).length)
        (mb := cfg.minRow) (by rw [hbs]; simp) hmr
      refine ⟨lens, splitResult_rows _ _ h1 _ none lens (Or.inr ⟨rfl, q1⟩), ?_, q2⟩
      intro he
      rw [he, hbs] at q3
      simp at q3
  have hs : LFrame.Shows ⟨⟨((sliceBounds lens).map fun p => (df.corr quotient nan minPeriods).ilocRows p.1 p.2).map ([·]),
      m.columns, m.columns, none, m.columns.map fun c => [c.length]⟩, m.columns.isSome, m.columns.isSome⟩
      (df.corr quotient nan minPeriods) := by
    have hcolumns : (m.columns = none ∧ m.columns.isSome = false) ∨ m.columns = some df.columns := by
      rcases h.columns with e | e
      · exact Or.inl ⟨e.1, by rw [e.1]; rfl⟩
      · exact Or.inr e
    refine ⟨hwf, ⟨df.corr quotient nan minPeriods, lens, [(df.corr quotient nan minPeriods).ncols], hwf, rfl, rfl,
      ⟨l2, by simp, l3, by simp⟩, ?_, Or.inl rfl, ?_, fun _ => rfl, fun _ => rfl⟩, hcolumns, hcolumns⟩
    · unfold Frame.cut
      rw [List.map_map]
      apply List.map_congr_left
      intro p _
      simp only [Function.comp, sliceBounds_single, List.map_cons, List.map_nil]
      rw [show (df.corr quotient nan minPeriods).ncols = ((df.corr quotient nan minPeriods).ilocRows p.1 p.2).ncols from rfl,
        (hwf.ilocRows p.1 p.2).ilocCols_all]
    · rcases hcolumns with e | e
      · left; simp [e.1]
      · right; simp [e, Frame.ncols, Frame.corr, Frame.columnTable]
  obtain ⟨r, e3, e4⟩ := mk'_shows hs
  refine ⟨_, ?_, e4⟩
  unfold LFrame.corr
  rw [e1, Option.bind_some, hb, Option.bind_some]
  have hh : (bandsOf rl df).head? = some b0 := by rw [hbs]; rfl
  rw [hh, Option.bind_some, hcol]
  simp only
  rw [hres, l1, Option.bind_some, e3]
  rfl

/-! ### covariance -/

theorem covEntry_pairs (minPeriods ddof : Nat) (rows : Band) {n : Nat} (hw : rows.Wide n) {i j : Nat} (hi : i < n) (hj : j < n) :
    covEntry minPeriods ddof ((rows.filterMap (·[i]?)).zip (rows.filterMap (·[j]?))) =
      (let l := pairsOf rows i j
       if l.length < minPeriods then none
       else if (l.length : Rat) - ddof = 0 then none
       else some (codeviation l / ((l.length : Rat) - ddof))) := by
  have hv : ((rows.filterMap (·[i]?)).zip (rows.filterMap (·[j]?))).filterMap bothPresent = pairsOf rows i j := by
    induction rows with
    | nil => rfl
    | cons row b ih =>
      have h0 : row.length = n := hw row (by simp)
      have h1 : row[i]? = some (row[i]'(by omega)) := List.getElem?_eq_getElem _
      have h2 : row[j]? = some (row[j]'(by omega)) := List.getElem?_eq_getElem _
      rw [pairsOf_cons, ← ih (fun x hx => hw x (by simp [hx])), List.filterMap_cons, List.filterMap_cons, h1, h2]
      simp only [List.zip_cons_cons]
      rw [List.filterMap_cons]
      rcases row[i]'(by omega) with _ | x <;> rcases row[j]'(by omega) with _ | y <;> simp [bothPresent]
  unfold covEntry
  simp only [hv]
  split
  · rfl
  · by_cases hd : ((pairsOf rows i j).length : Rat) - ddof = 0
    · simp [hd]
    · rw [if_pos hd, if_neg hd]
      simp only [codeviation, meanOf, List.length_map, List.zipWith_map, List.zipWith_self]

/-- the covariances of the columns with the numbers of a list, as a frame -/
theorem applyFullRowsSynced_shows {ι' κ' α β : Type} [DecidableEq ι] [DecidableEq κ] [DecidableEq ι'] [DecidableEq κ'] (cfg : Cfg)
    (hmc : 1 ≤ cfg.minCol) (F : Frame ι κ α → Frame ι' κ' β) (c : List κ') {m : LFrame ι κ α} {df : Frame ι κ α} (h : m.Shows df)
    (hF : ∀ b : Frame ι κ α, b.WF → (F b).WF ∧ (F b).columns = c ∧ (F b).nrows = b.nrows) {df' : Frame ι' κ' β} (hwf' : df'.WF)
    (hcl : df'.columns.length = c.length) (hil : df'.index.length = df.index.length)
    (hrows : ∀ rl cw, df.IsCut rl cw → ((bandsOf rl df).map fun b => (F b).rows).flatten = df'.rows) :
    ∃ m', m.applyFullRowsSynced cfg (fun b => some (F b)) df'.index df'.columns = some m' ∧ m'.Shows df' := by
  obtain ⟨m1, e1, e2⟩ := synced_spec h
  obtain ⟨rl, cw, hc, hp, _, hcw⟩ := e2.blocks
  have hfunc : ∀ (i : Nat) (b : Frame ι κ α), (bandsOf rl df)[i]? = some b → some (F b) = some (F b) ∧ (F b).WF ∧ (F b).columns = c := by
    intro i b hb
    have hw := (bandsOf_wf h.wf rl b (List.mem_of_getElem? hb)).1
    exact ⟨rfl, (hF b hw).1, (hF b hw).2.1⟩
  have hcwl : 1 ≤ cw.length := by
    have := hc.cw_ne
    cases cw with
    | nil => exact absurd rfl this
    | cons a l => simp
  have hns : axisNumSplits cfg true none none cw.length = cw.length := by simp [axisNumSplits]
  obtain ⟨lens, h1, h2, h3, h4⟩ := applyRowBands_cut cfg hmc (fun _ => F) h.wf hc (fun _ b => some (F b)) c hfunc true none
    (by rw [hns]; exact hcwl)
  have hmi : (bandsOf rl df).mapIdx (fun _ => F) = (bandsOf rl df).map F := by
    apply List.ext_getElem?
    intro i
    simp [List.getElem?_mapIdx]
  rw [hmi] at h4
  have hwfF : ∀ f ∈ (bandsOf rl df).map F, f.WF ∧ f.columns = c := by
    intro f hf
    rw [List.mem_map] at hf
    obtain ⟨b, hb, rfl⟩ := hf
    have hw := (bandsOf_wf h.wf rl b hb).1
    exact ⟨(hF b hw).1, (hF b hw).2.1⟩
  have hne : (bandsOf rl df).map F ≠ [] := by
    have := bandsOf_ne hc.rl_ne df
    simpa using this
  have hcut := stackRows_isCut c hne h1 h2
  have hlen : ((bandsOf rl df).map F).map (·.nrows) = rl := by
    rw [List.map_map]
    refine Eq.trans ?_ (bandsOf_nrows hc)
    apply List.map_congr_left
    intro b hb
    exact (hF b (bandsOf_wf h.wf rl b hb).1).2.2
  rw [hlen] at hcut h4
  have hrl : rl.sum = df'.index.length := by rw [hil]; exact hc.rl_sum
  have hs : LFrame.Shows ⟨⟨(Frame.stackRows c ((bandsOf rl df).map F)).cut rl lens, some df'.index, some df'.columns,
      if ((Frame.stackRows c ((bandsOf rl df).map F)).cut rl lens).length = 1 then some [df'.index.length] else none,
      fullAxisWidths cfg true m1.colWidths (some df'.columns) ((Frame.stackRows c ((bandsOf rl df).map F)).cut rl lens)⟩, true, true⟩ df' := by
    refine ⟨hwf', ⟨Frame.stackRows c ((bandsOf rl df).map F), rl, lens, stackRows_wf c _ hwfF, ?_, ?_, hcut, rfl, ?_, ?_, by simp, by simp⟩,
      Or.inr rfl, Or.inr rfl⟩
    · rw [← hrows rl cw hc]
      simp [Frame.stackRows, List.map_map, Function.comp_def]
    · rw [hcl]; rfl
    · split
      · rename_i hl
        right
        have : rl.length = 1 := by simpa [Frame.cut, sliceBounds_length] using hl
        obtain ⟨x, rfl⟩ := List.length_eq_one_iff.mp this
        simp at hrl
        rw [hrl]
      · exact Or.inl rfl
    · unfold fullAxisWidths
      simp only [Option.bind_some, ↓reduceIte]
      rcases hcw with e | e
      · left; simp [e]
      · rw [e, Option.bind_some]
        split
        · rename_i hq
          right
          rw [hns] at h3
          rw [(deployLens_keep h3 hmc).1 (by rw [← hcl]; exact hq.1)]
        · exact Or.inl rfl
  obtain ⟨r, e3, e4⟩ := mk'_shows hs
  refine ⟨_, ?_, e4⟩
  unfold LFrame.applyFullRowsSynced
  rw [e1, Option.bind_some, hp, h4, Option.bind_some]
  rw [e3]
  rfl

theorem covBand_wf (num : Nat → κ) (minPeriods ddof : Nat) (other : Frame ι κ (Option Rat)) (b : Frame κ ι (Option Rat)) (hb : b.WF) :
    (covBand num minPeriods ddof other b).WF ∧ (covBand num minPeriods ddof other b).columns = (List.range other.columns.length).map num ∧
      (covBand num minPeriods ddof other b).nrows = b.nrows := by
  refine ⟨⟨by simp [covBand], ?_⟩, rfl, by simp [covBand, Frame.nrows, hb.rows_len]⟩
  intro row hrow
  simp only [covBand, List.mem_map] at hrow
  obtain ⟨x, _, rfl⟩ := hrow
  simp [covBand]

theorem nancorr_shows [DecidableEq ι] [DecidableEq κ] (cfg : Cfg) (hmc : 1 ≤ cfg.minCol) (num : Nat → κ) (minPeriods : Option Nat)
    (ddof : Nat) {m : LFrame ι κ (Option Rat)} {df : Frame ι κ (Option Rat)} (h : m.Shows df) (hto : m.toPandas none = some df)
    (hd : ddof = 1 ∨ df.rows.any (·.any (·.isNone)) = false) :
    ∃ m', m.nancorr cfg num minPeriods ddof = some m' ∧ m'.Shows (df.cov minPeriods ddof) := by
  obtain ⟨t, e1, e2⟩ := transpose_shows h
  have hdd : (if df.rows.any (·.any (·.isNone)) = true then 1 else ddof) = ddof := by
    rcases hd with e | e
    · rw [e]; simp
    · simp [e]
  have hcov : df.cov minPeriods ddof = df.columnTable fun i j => covEntry (minPeriods.getD 1) ddof
      ((df.rows.filterMap (·[i]?)).zip (df.rows.filterMap (·[j]?))) := by
    unfold Frame.cov
    simp only [hdd]
    unfold Frame.columnTable
    simp only [Frame.mk.injEq, true_and]
    apply List.map_congr_left
    intro i hi
    apply List.map_congr_left
    intro j hj
    rw [List.mem_range] at hi hj
    exact (covEntry_pairs _ _ df.rows h.wf.row_width hi hj).symm
  have := applyFullRowsSynced_shows cfg hmc (covBand num (minPeriods.getD 1) ddof df) ((List.range df.columns.length).map num) e2
    (fun b hb => covBand_wf num _ ddof df b hb) (df' := df.cov minPeriods ddof) (Frame.columnTable_wf _ _)
    (by simp [Frame.cov, Frame.columnTable]) rfl (by
      intro rl cw hc
      have hb := bandsOf_rows h.wf.transpose hc
      have hr : (df.cov minPeriods ddof).rows = df.transpose.rows.map fun x =>
          (List.range df.columns.length).map fun j => covEntry (minPeriods.getD 1) ddof (x.zip (df.rows.filterMap (·[j]?))) := by
        rw [hcov]
        simp [Frame.columnTable, Frame.transpose, Frame.ncols, List.map_map, Function.comp_def]
      rw [hr, ← hb, List.map_flatten, List.map_map]
      rfl)
  obtain ⟨m', e3, e4⟩ := this
  refine ⟨m', ?_, e4⟩
  unfold LFrame.nancorr
  rw [hto, Option.bind_some, e1, Option.bind_some, h.getColumns]
  exact e3

theorem bandRows_flatten [DecidableEq ι] [DecidableEq κ] {m : LFrame ι κ (Option Rat)} {df : Frame ι κ (Option Rat)} (h : m.Shows df) :
    (bandRows m).flatten = df.rows := by
  obtain ⟨m1, e1, e2⟩ := synced_spec h
  obtain ⟨rl, cw, hc, hp, _, _⟩ := e2.blocks
  have hb : (m1.parts.mapM fun row => Frame.hcat row) = some (bandsOf rl df) := by
    rw [hp]; exact hcat_rows_cut h.wf hc
  unfold bandRows
  rw [e1, Option.bind_some, hb]
  exact bandsOf_rows h.wf hc
