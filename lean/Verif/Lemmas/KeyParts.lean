import Verif.Pandas.KeyParts
import Verif.Lemmas.RangePart
/-
Operations that look at the rows of each key separately can be done range by range.
-/

variable {ι κ α β τ σ K Q : Type}

/-- Two lists that agree key by key hold the same elements. -/
theorem perm_of_filters [DecidableEq K] (key : τ → K) (l₁ l₂ : List τ)
    (h : ∀ k, (l₁.filter fun x => key x == k).Perm (l₂.filter fun x => key x == k)) : l₁.Perm l₂ := by
  classical
  rw [List.perm_iff_count]
  intro a
  have := List.perm_iff_count.1 (h (key a)) a
  rwa [List.count_filter (by simp), List.count_filter (by simp)] at this

/-- An operation on labelled rows that treats every key by itself. -/
structure KeyLocal [DecidableEq K] (key : τ → K) (key' : σ → K) (F : List τ → List σ) : Prop where
  nil : F [] = []
  local_ : ∀ l k, (F l).filter (fun x => key' x == k) = F (l.filter fun x => key x == k)

theorem flatten_single {τ : Type} (ls : List (List τ)) (i : Nat) (x : List τ) (hi : i < ls.length)
    (h : ∀ j l, ls[j]? = some l → l = if j = i then x else []) : ls.flatten = x := by
  induction ls generalizing i with
  | nil => simp at hi
  | cons l ls ih =>
    have h0 := h 0 l rfl
    cases i with
    | zero =>
      simp only [↓reduceIte] at h0
      have hr : ls.flatten = [] := by
        rw [List.flatten_eq_nil_iff]
        intro m hm
        obtain ⟨j, hj, rfl⟩ := List.getElem_of_mem hm
        have := h (j + 1) ls[j] (by simp [hj])
        simpa using this
      rw [List.flatten_cons, hr, h0, List.append_nil]
    | succ i =>
      simp only [show ¬ (0 = i + 1) by omega, ↓reduceIte] at h0
      rw [List.flatten_cons, h0, List.nil_append]
      apply ih i (by simpa using hi)
      intro j m hj
      have := h (j + 1) m (by simpa using hj)
      simpa using this

/-- **Keys treated by themselves.** The results on the parts together are the result on the whole. -/
theorem KeyParts.perm [DecidableEq K] {key : ι × List α → K} {df : Frame ι κ α} {bins : List (Frame ι κ α)}
    (h : KeyParts key df bins) {key' : σ → K} {F : List (ι × List α) → List σ} (hF : KeyLocal key key' F) :
    ((bins.map fun b => F b.records).flatten).Perm (F df.records) := by
  apply perm_of_filters key'
  intro k
  apply List.Perm.of_eq
  rw [hF.local_, List.filter_flatten, List.map_map]
  obtain ⟨i, hi, hall⟩ := h.together k
  apply flatten_single _ i _ (by simpa using hi)
  intro j l hl
  rw [List.getElem?_map] at hl
  cases hb : bins[j]? with
  | none => rw [hb] at hl; cases hl
  | some b =>
    rw [hb, Option.map_some, Option.some.injEq] at hl
    rw [← hl]
    simp only [Function.comp]
    rw [hF.local_, hall j b hb]
    split
    · rfl
    · exact hF.nil

theorem filter_beq_comm [DecidableEq K] (l : List τ) (key : τ → K) (k k' : K) :
    (l.filter fun y => key y ≠ k').filter (fun y => key y == k) =
      if k = k' then [] else l.filter fun y => key y == k := by
  rw [List.filter_filter]
  split
  · rename_i h
    subst h
    rw [List.filter_eq_nil_iff]
    intro a _
    simp
  · rename_i h
    apply List.filter_congr
    intro a _
    by_cases ha : key a = k
    · simp [ha, h]
    · simp [ha]

theorem any_filter_key [DecidableEq K] (key : τ → K) (xs : List τ) (k : K) :
    ((xs.filter fun y => key y == k).any fun y => key y = k) = xs.any fun y => key y = k := by
  rw [List.any_filter]
  congr 1
  funext y
  by_cases h : key y = k <;> simp [h]

theorem dropDuplicates_local [DecidableEq K] (keep : Keep) (key : τ → K) : KeyLocal key key (dropDuplicates keep key) := by
  refine ⟨rfl, ?_⟩
  intro l k
  induction l with
  | nil => rfl
  | cons x xs ih =>
    by_cases hx : key x = k
    · subst hx
      have e : (x :: xs).filter (fun y => key y == key x) = x :: xs.filter fun y => key y == key x := by simp
      rw [e]
      cases keep with
      | first =>
        simp only [dropDuplicates, List.filter_cons, beq_self_eq_true, ↓reduceIte, filter_beq_comm]
        congr 1
        rw [← ih]
        simp only [List.filter_filter]
        symm
        rw [List.filter_eq_nil_iff]
        intro a _
        by_cases h : key a = key x <;> simp [h]
      | last =>
        simp only [dropDuplicates, any_filter_key]
        split
        · exact ih
        · simp [ih]
      | none =>
        simp only [dropDuplicates, any_filter_key]
        split
        · simp only [filter_beq_comm, ↓reduceIte]
          rw [← ih]
          simp only [List.filter_filter]
          symm
          rw [List.filter_eq_nil_iff]
          intro a _
          by_cases h : key a = key x <;> simp [h]
        · simp [ih]
    · have e : (x :: xs).filter (fun y => key y == k) = xs.filter fun y => key y == k := by simp [hx]
      rw [e, ← ih]
      have hne : ¬ k = key x := fun h => hx h.symm
      cases keep with
      | first => simp only [dropDuplicates, List.filter_cons, beq_iff_eq, hx, ↓reduceIte, filter_beq_comm, hne]
      | last =>
        simp only [dropDuplicates]
        split
        · rfl
        · simp [hx]
      | none =>
        simp only [dropDuplicates]
        split
        · simp only [filter_beq_comm, hne, ↓reduceIte]
        · simp [hx]

theorem nodup_filter_eq [DecidableEq K] {l : List K} (h : l.Nodup) (k : K) :
    l.filter (fun x => x == k) = if k ∈ l then [k] else [] := by
  induction l with
  | nil => rfl
  | cons x xs ih =>
    rw [List.nodup_cons] at h
    have ih := ih h.2
    by_cases hx : x = k
    · subst hx
      simp [ih, h.1]
    · have : ¬ k = x := fun e => hx e.symm
      simp [hx, this, ih]

theorem groupRecords_local [DecidableEq K] (G : Grouping K) (key : τ → K) (agg : K → List τ → β) :
    KeyLocal key (·.1) (groupRecords G key agg) := by
  refine ⟨?_, ?_⟩
  · unfold groupRecords Grouping.groups
    split <;> simp [firsts, sortBy]
  · intro l k
    unfold groupRecords
    rw [List.filter_map]
    have e1 : ((fun x : K × β => x.1 == k) ∘ fun k' => (k', agg k' (l.filter fun r => key r == k'))) = fun k' => k' == k := rfl
    rw [e1, nodup_filter_eq (G.nodup_groups _)]
    have hg : (G.groups ((l.filter fun x => key x == k).map key)) = if k ∈ G.groups (l.map key) then [k] else [] := by
      rw [← nodup_filter_eq (G.nodup_groups _)]
      have hf : ((l.filter fun x => key x == k).map key) = (l.map key).filter fun x => x == k := by
        rw [List.filter_map]; rfl
      rw [hf]
      apply List.Perm.eq_of_pairwise (le := fun a b => a = k ∧ b = k)
      · rintro a b _ _ ⟨rfl, rfl⟩ _; rfl
      · refine (List.pairwise_of_forall_mem_list ?_)
        intro a ha b hb
        rw [G.mem_groups] at ha hb
        simp only [List.mem_filter, beq_iff_eq] at ha hb
        exact ⟨ha.1.2, hb.1.2⟩
      · refine (List.pairwise_of_forall_mem_list ?_)
        intro a ha b hb
        simp only [List.mem_filter, beq_iff_eq] at ha hb
        exact ⟨ha.2, hb.2⟩
      · rw [List.perm_ext_iff_of_nodup (G.nodup_groups _) ((G.nodup_groups _).sublist List.filter_sublist)]
        intro a
        rw [G.mem_groups, List.mem_filter, List.mem_filter, G.mem_groups]
        constructor
        · rintro ⟨⟨h1, h2⟩, h3⟩; exact ⟨⟨h1, h3⟩, h2⟩
        · rintro ⟨⟨h1, h3⟩, h2⟩; exact ⟨⟨h1, h2⟩, h3⟩
    rw [hg]
    split
    · simp [List.filter_filter]
    · rfl

/-- What decides a row's range. -/
def SameRange (cols : List (KeyCol α Q)) (r s : ι × List α) : Prop :=
  ∀ c ∈ cols, c.missing r = c.missing s ∧ (sortKey c.conv c.pos r) = (sortKey c.conv c.pos s)

theorem any_congr' {τ : Type} {l : List τ} {p q : τ → Bool} (h : ∀ x ∈ l, p x = q x) : l.any p = l.any q := by
  induction l with
  | nil => rfl
  | cons x xs ih => rw [List.any_cons, List.any_cons, h x (by simp), ih fun y hy => h y (by simp [hy])]

theorem naRow_congr {cols : List (KeyCol α Q)} {r s : ι × List α} (h : SameRange cols r s) : naRow cols r = naRow cols s :=
  any_congr' fun c hc => (h c hc).1

theorem binOf_congr {le : Q → Q → Bool} (asc naLast closedRight : Bool) {cols : List (KeyCol α Q)} {r s : ι × List α}
    (h : SameRange cols r s) : binOf le asc naLast closedRight cols r = binOf le asc naLast closedRight cols s := by
  unfold binOf
  rw [naRow_congr h]
  congr 2
  apply List.map_congr_left
  intro c hc
  unfold KeyCol.code
  rw [(h c (List.mem_filter.1 hc).1).2]

theorem pivotFn_sameRange (ideal : Nat) (cols : List (KeyCol α Q × (Nat → List (Option Q)))) (g : Nat) (first : Bool)
    {r s : ι × List α} (h : SameRange (cols.map (·.1)) r s) : SameRange (pivotFn ideal cols g first) r s := by
  intro c hc
  obtain ⟨x, hx, h1, h2, h3⟩ := pivotFn_mem ideal cols g first c hc
  have := h x.1 (List.mem_map.2 ⟨x, hx, rfl⟩)
  unfold KeyCol.missing at this ⊢
  rw [h1, h2, h3]
  exact this

/-- Ranges are parts by key, for every key that decides the range. -/
theorem isBins_keyParts [DecidableEq K] {rq : RangeReq α Q} (hle : TotalLe rq.le) (hd : GoodDraws rq)
    {df : Frame ι κ α} (hwf : df.WF) {bins : List (Frame ι κ α)} (h : IsBins rq df bins) (key : ι × List α → K)
    (hk : ∀ r s, r ∈ df.records → s ∈ df.records → key r = key s → SameRange (rq.cols.map (·.1)) r s) : KeyParts key df bins := by
  refine ⟨isBins_wf hwf h, ?_, ?_⟩
  · rcases h with rfl | ⟨ideal, rl, cw, hi, hc, rfl⟩
    · simp
    · have hp := pivotFn_increasing ideal rq.cols (fun x hx n hn => (hd.2 x hx n hn).2) 1 true
      have := binRows_all hle rq.asc rq.naLast rq.closedRight _ hp hwf hc
      simpa [List.map_map, Function.comp_def] using this
  · intro k
    rcases h with rfl | ⟨ideal, rl, cw, hi, hc, rfl⟩
    · refine ⟨0, by simp, ?_⟩
      intro j b hb
      cases j with
      | zero => simp at hb; subst hb; simp
      | succ j => simp at hb
    · have hp := pivotFn_increasing ideal rq.cols (fun x hx n hn => (hd.2 x hx n hn).2) 1 true
      generalize hcs : pivotFn ideal rq.cols 1 true = cols at hp ⊢
      -- the range of the key
      by_cases hex : ∃ r ∈ df.records, key r = k
      · obtain ⟨r0, hr0, rfl⟩ := hex
        have hsame : ∀ r ∈ df.records, key r = key r0 → SameRange cols r r0 := by
          intro r hr he
          rw [← hcs]
          exact pivotFn_sameRange _ _ _ _ (hk r r0 hr hr0 he)
        refine ⟨binOf rq.le rq.asc rq.naLast rq.closedRight cols r0, ?_, ?_⟩
        · simp only [List.length_map, List.length_range, numBins_eq]
          exact binOf_lt hle _ _ _ cols hp r0
        · intro j b hb
          rw [List.getElem?_map] at hb
          cases hj : (List.range (numBins cols))[j]? with
          | none => rw [hj] at hb; cases hb
          | some i =>
            have : i = j := by
              have := List.getElem?_eq_some_iff.1 hj
              obtain ⟨h1, h2⟩ := this
              simpa using h2.symm
            subst this
            rw [hj, Option.map_some, Option.some.injEq] at hb
            rw [← hb, Frame.records_ofRecords]
            have hq := binRows_filter (le := rq.le) rq.asc rq.naLast rq.closedRight cols hwf hc i
              (fun r => (key r == key r0) && naRow cols r == naRow cols r0) (naRow cols r0)
              (by intro r hr; simp only [Bool.and_eq_true, beq_iff_eq] at hr; exact hr.2)
            have hmem : ∀ r ∈ binRows rq.le rq.asc rq.naLast rq.closedRight cols rl df i, r ∈ df.records := by
              intro r hr
              exact (List.mem_filter.1 ((binRows_perm _ _ _ cols hwf hc i).mem_iff.1 hr)).1
            have e1 : (binRows rq.le rq.asc rq.naLast rq.closedRight cols rl df i).filter (fun r => key r == key r0) =
                (binRows rq.le rq.asc rq.naLast rq.closedRight cols rl df i).filter
                  (fun r => (key r == key r0) && naRow cols r == naRow cols r0) := by
              apply List.filter_congr
              intro r hr
              by_cases he : key r = key r0
              · simp [he, naRow_congr (hsame r (hmem r hr) he)]
              · simp [he]
            rw [e1, hq]
            split
            · rename_i hij
              apply List.filter_congr
              intro r hr
              by_cases he : key r = key r0
              · have h1 := binOf_congr (le := rq.le) rq.asc rq.naLast rq.closedRight (hsame r hr he)
                have h2 := naRow_congr (hsame r hr he)
                simp only [h1, h2, he, ← hij, beq_self_eq_true, Bool.and_self]
              · have : (key r == key r0) = false := by simpa using he
                simp only [this, Bool.false_and, Bool.and_false]
            · rename_i hij
              rw [List.filter_eq_nil_iff]
              intro r hr
              by_cases he : key r = key r0
              · rw [binOf_congr _ _ _ (hsame r hr he)]
                have hne : ¬ binOf rq.le rq.asc rq.naLast rq.closedRight cols r0 = i := fun h => hij h.symm
                simp [hne]
              · simp [he]
      · refine ⟨0, ?_, ?_⟩
        · simpa using numBins_pos cols
        · intro j b hb
          have hnil : df.records.filter (fun r => key r == k) = [] := by
            rw [List.filter_eq_nil_iff]
            intro r hr
            simp only [beq_iff_eq]
            exact fun he => hex ⟨r, hr, he⟩
          rw [hnil, ite_self, List.filter_eq_nil_iff]
          intro r hr
          rw [List.getElem?_map] at hb
          cases hj : (List.range (numBins cols))[j]? with
          | none => rw [hj] at hb; cases hb
          | some i =>
            rw [hj, Option.map_some, Option.some.injEq] at hb
            rw [← hb, Frame.records_ofRecords] at hr
            have := (List.mem_filter.1 ((binRows_perm _ _ _ cols hwf hc i).mem_iff.1 hr)).1
            simp only [beq_iff_eq]
            exact fun he => hex ⟨r, this, he⟩

/-- With one key column the ranges follow each other in the order of the sort. -/
theorem isBins_ordered {rq : RangeReq α Q} (hle : TotalLe rq.le) (hd : GoodDraws rq) (hcr : rq.closedRight = false)
    {c : KeyCol α Q} {d : Nat → List (Option Q)} (hone : rq.cols = [(c, d)]) (hkey : ∀ a, c.isna a = (c.conv a).isNone)
    {df : Frame ι κ α} (hwf : df.WF) (hpos : c.pos < df.ncols) {bins : List (Frame ι κ α)} (h : IsBins rq df bins)
    {i j : Nat} {b b' : Frame ι κ α} (hb : bins[i]? = some b) (hb' : bins[j]? = some b') (hij : i < j)
    {r s : ι × List α} (hr : r ∈ b.records) (hs : s ∈ b'.records) :
    rowBefore rq.le c.conv rq.naLast [(c.pos, rq.asc)] r s = true ∧
    rowBefore rq.le c.conv rq.naLast [(c.pos, rq.asc)] s r = false := by
  rcases h with rfl | ⟨ideal, rl, cw, hi, hc, rfl⟩
  · cases j with
    | zero => omega
    | succ j => simp at hb'
  · have hpf : pivotFn ideal rq.cols 1 true = [sortCol c.pos c.isna c.conv c.numeric (d ideal)] := by
      rw [hone]
      simp [pivotFn, pickPivots, sortCol, show ¬ ideal ≤ 1 by omega]
    rw [hpf, hcr] at hb hb'
    obtain ⟨hne, hinc⟩ := hd.2 (c, d) (by simp [hone]) ideal hi
    have key : ∀ {n : Nat} {x : Frame ι κ α} {t : ι × List α},
        ((List.range (numBins [sortCol c.pos c.isna c.conv c.numeric (d ideal)])).map fun i => Frame.ofRecords df.columns
          (binRows rq.le rq.asc rq.naLast false [sortCol c.pos c.isna c.conv c.numeric (d ideal)] rl df i))[n]? = some x →
        t ∈ x.records → binOf rq.le rq.asc rq.naLast false [sortCol c.pos c.isna c.conv c.numeric (d ideal)] t = n ∧
          c.pos < t.2.length := by
      intro n x t hx ht
      rw [List.getElem?_map] at hx
      cases hj : (List.range (numBins [sortCol c.pos c.isna c.conv c.numeric (d ideal)]))[n]? with
      | none => rw [hj] at hx; cases hx
      | some i =>
        have : i = n := by
          obtain ⟨h1, h2⟩ := List.getElem?_eq_some_iff.1 hj
          simpa using h2.symm
        subst this
        rw [hj, Option.map_some, Option.some.injEq] at hx
        rw [← hx, Frame.records_ofRecords] at ht
        have hm := (binRows_perm _ _ _ _ hwf hc i).mem_iff.1 ht
        rw [List.mem_filter, beq_iff_eq] at hm
        exact ⟨hm.2, by rw [hwf.records_width hm.1]; exact hpos⟩
    obtain ⟨e1, w1⟩ := key hb hr
    obtain ⟨e2, w2⟩ := key hb' hs
    exact binOf_strict hle rq.asc rq.naLast hkey c.numeric hinc hne w1 w2 [] (by rw [e1, e2]; exact hij)
