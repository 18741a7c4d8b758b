import Verif.Lemmas.Align

variable {ι κ α L : Type}

/-! ### indexers -/

/-- what is assumed of pandas' `Index.join(return_indexers=True)` -/
def JoinOps.Good (P : JoinOps L) : Prop :=
  ∀ a b, IsIndexer a (P.join2 a b).1 (P.join2 a b).2.1 ∧ IsIndexer b (P.join2 a b).1 (P.join2 a b).2.2

theorem isIndexer_same (J : List L) : IsIndexer J J ((List.range J.length).map some) := by
  refine ⟨by simp, ?_, ?_, fun _ => rfl⟩
  · intro k p h
    simp only [List.getElem?_map, Option.map_eq_some_iff] at h
    obtain ⟨a, ha, hb⟩ := h
    have hk : k < J.length := by
      have := (List.getElem?_eq_some_iff.1 ha).1
      simpa using this
    rw [List.getElem?_range hk] at ha
    cases ha; cases hb
    exact ⟨hk, rfl⟩
  · intro k x h
    simp only [List.getElem?_map, Option.map_eq_some_iff] at h
    obtain ⟨a, _, hb⟩ := h
    cases hb

theorem isIndexer_nodup [DecidableEq L] {labels J : List L} (hne : labels ≠ J) :
    IsIndexer labels J (J.map fun x => labels.findIdx? (· == x)) := by
  refine ⟨by simp, ?_, ?_, fun h => absurd h hne⟩
  · intro k p h
    simp only [List.getElem?_map, Option.map_eq_some_iff] at h
    obtain ⟨x, hx, hp⟩ := h
    rw [List.findIdx?_eq_some_iff_getElem] at hp
    obtain ⟨h1, h2, _⟩ := hp
    refine ⟨h1, ?_⟩
    rw [hx, List.getElem?_eq_getElem h1]
    simpa using h2
  · intro k x h hx
    simp only [List.getElem?_map, hx, Option.map_some, Option.some.injEq] at h
    rw [List.findIdx?_eq_none_iff] at h
    intro hm
    have := h x hm
    simp at this

theorem findIdx_self [DecidableEq L] {l : List L} (hn : l.Nodup) :
    (l.map fun x => l.findIdx? (· == x)) = (List.range l.length).map some := by
  apply List.ext_getElem?
  intro k
  by_cases hk : k < l.length
  · rw [List.getElem?_map, List.getElem?_map, List.getElem?_eq_getElem hk, List.getElem?_range hk]
    simp only [Option.map_some, Option.some.injEq]
    rw [List.findIdx?_eq_some_iff_getElem]
    refine ⟨hk, by simp, fun j hj => ?_⟩
    have : l[j]'(by omega) ≠ l[k] := by
      have := List.pairwise_iff_getElem.1 hn j k (by omega) hk hj
      exact this
    simpa using this
  · rw [List.getElem?_eq_none (by simpa using hk), List.getElem?_eq_none (by simpa using hk)]

theorem positions_nodup [DecidableEq L] {labels : List L} (hn : labels.Nodup) (x : L) :
    (List.range labels.length).filter (fun p => labels[p]? == some x) = (labels.findIdx? (· == x)).toList := by
  induction labels with
  | nil => rfl
  | cons a l ih =>
    rw [List.nodup_cons] at hn
    have ih := ih hn.2
    rw [List.length_cons, List.range_succ_eq_map, List.filter_cons, List.filter_map, List.findIdx?_cons]
    have hc : ((fun p => (a :: l)[p]? == some x) ∘ Nat.succ) = fun p => l[p]? == some x := by
      funext p; simp [Function.comp]
    rw [hc, ih]
    by_cases h : a = x
    · subst h
      have : l.findIdx? (· == a) = none := by
        rw [List.findIdx?_eq_none_iff]
        intro y hy
        simp only [beq_eq_false_iff_ne, ne_eq]
        rintro rfl
        exact hn.1 hy
      simp [this]
    · have h2 : (a == x) = false := by simpa using h
      have h3 : ((a :: l)[0]? == some x) = false := by simpa using h
      rw [h2, h3]
      cases l.findIdx? (· == x) <;> rfl

theorem getIndexerFor_nodup [DecidableEq L] {labels : List L} (hn : labels.Nodup) (J : List L) :
    getIndexerFor labels J = J.map fun x => labels.findIdx? (· == x) := by
  unfold getIndexerFor
  simp only [positions_nodup hn]
  induction J with
  | nil => rfl
  | cons x J ih =>
    rw [List.flatMap_cons, List.map_cons, ih]
    cases labels.findIdx? (· == x) <;> rfl

/-- the frames' labels along an axis can be joined: they are all the same, or each has no repeats,
    or there are just two frames whose rows pandas joins itself, or the first frame's labels are kept and the labels of
    each other frame are the same or have no repeats -/
def Joinable (P : JoinOps L) (axis0 : Bool) (first : List L) (rest : List (List L)) : Prop :=
  (∀ l ∈ rest, l = first) ∨ (∀ l ∈ first :: rest, l.Nodup) ∨
    (axis0 = true ∧ P.first = false ∧ rest.length = 1) ∨ (P.first = true ∧ ∀ l ∈ rest, l = first ∨ l.Nodup)

theorem reindexer_ok [DecidableEq L] {P : JoinOps L} (hP : P.Good) {axis0 : Bool} {first : List L} {rest : List (List L)}
    (h : Joinable P axis0 first rest) {i : Nat} {labels : List L} (hi : (first :: rest)[i]? = some labels) :
    ∃ I, reindexer P axis0 first rest i labels = some I ∧
      IsIndexer labels (joinedLabels P axis0 first rest) I := by
  have hmem : labels ∈ first :: rest := List.mem_of_getElem? hi
  unfold reindexer madeReindexer
  simp only
  by_cases hsame : labels = joinedLabels P axis0 first rest
  · rw [if_pos hsame]
    exact ⟨_, rfl, by rw [← hsame]; exact isIndexer_same labels⟩
  rw [if_neg hsame]
  by_cases hneed : needIndexers axis0 first rest = true
  · rw [if_pos hneed]
    have hn := hneed
    unfold needIndexers at hn
    simp only [Bool.and_eq_true, Bool.not_eq_true', List.any_eq_true, decide_eq_false_iff_not] at hn
    obtain ⟨⟨_, hns⟩, l, hl, hnd⟩ := hn
    rcases h with h | h | ⟨_, hf, hlen⟩ | ⟨hf, hr⟩
    · have : allSame first rest = true := by
        unfold allSame
        rw [List.all_eq_true]
        intro l hl
        simpa using h l hl
      rw [this] at hns
      cases hns
    · exact absurd (h l hl) hnd
    · obtain ⟨second, rfl⟩ := List.length_eq_one_iff.1 hlen
      have hJ : joinedLabels P axis0 first [second] = (P.join2 first second).1 := by
        unfold joinedLabels
        rw [hf, hns]
        simp [hneed]
      have hI : joinIndexer P axis0 first [second] i labels
          = if i = 0 then (P.join2 first second).2.1 else (P.join2 first second).2.2 := by
        unfold joinIndexer
        rw [hf, hns]
        rfl
      have hgood := hP first second
      rw [hJ, hI]
      by_cases h0 : i = 0
      · subst h0
        cases hi
        rw [if_pos rfl, if_pos hgood.1.length]
        exact ⟨_, rfl, hgood.1⟩
      · have h1 : i = 1 := by
          have := (List.getElem?_eq_some_iff.1 hi).1
          simp at this
          omega
        subst h1
        cases hi
        rw [if_neg h0, if_pos hgood.2.length]
        exact ⟨_, rfl, hgood.2⟩
    · have hJ : joinedLabels P axis0 first rest = first := by
        unfold joinedLabels
        rw [hf]
        rfl
      have hI : joinIndexer P axis0 first rest i labels = getIndexerFor labels first := by
        unfold joinIndexer
        rw [hf, hJ]
        rfl
      have hnl : labels.Nodup := by
        rcases List.mem_cons.1 hmem with rfl | hm
        · exact absurd hJ.symm hsame
        · rcases hr _ hm with rfl | hm
          · exact absurd hJ.symm hsame
          · exact hm
      rw [hI, hJ, getIndexerFor_nodup hnl, if_pos (by simp)]
      exact ⟨_, rfl, isIndexer_nodup (by rw [← hJ]; exact hsame)⟩
  · rw [if_neg hneed]
    unfold reindexPositions
    by_cases heq : labels = joinedLabels P axis0 first rest
    · rw [if_pos heq]
      exact ⟨_, rfl, by rw [← heq]; exact isIndexer_same labels⟩
    · rw [if_neg heq]
      have hnd : labels.Nodup := by
        rcases h with h | h | ⟨h0, _, _⟩ | ⟨hf, hr⟩
        · exfalso
          apply heq
          unfold joinedLabels
          have : allSame first rest = true := by
            unfold allSame
            rw [List.all_eq_true]
            intro l hl
            simpa using h l hl
          rw [this]
          simp only [Bool.or_true, ↓reduceIte]
          rcases List.mem_cons.1 hmem with rfl | hm
          · rfl
          · exact h _ hm
        · exact h _ hmem
        · unfold needIndexers at hneed
          rw [h0] at hneed
          simp only [Bool.true_and, Bool.and_eq_true, Bool.not_eq_true', List.any_eq_true, not_and,
            not_exists, decide_eq_false_iff_not, Decidable.not_not] at hneed
          by_cases hs : allSame first rest = true
          · exfalso
            apply heq
            unfold joinedLabels
            rw [hs]
            simp only [Bool.or_true, ↓reduceIte]
            rcases List.mem_cons.1 hmem with rfl | hm
            · rfl
            · have := List.all_eq_true.1 hs _ hm
              simpa using this
          · exact hneed (by simpa using hs) labels hmem
        · have hJ : joinedLabels P axis0 first rest = first := by
            unfold joinedLabels
            rw [hf]
            rfl
          rcases List.mem_cons.1 hmem with rfl | hm
          · exact absurd hJ.symm hsame
          · rcases hr _ hm with rfl | hm
            · exact absurd hJ.symm hsame
            · exact hm
      rw [if_pos hnd]
      exact ⟨_, rfl, isIndexer_nodup heq⟩

/-- what the code does to a frame with the joined labels that has to be divided anew: nothing, except when the first frame's labels
    are kept, repeat, and some frame has other labels -/
theorem made_same [DecidableEq L] {P : JoinOps L} (hP : P.Good) {axis0 : Bool} {first : List L} {rest : List (List L)}
    (h : Joinable P axis0 first rest) {i : Nat} {labels : List L} (hi : (first :: rest)[i]? = some labels)
    (hl : labels = joinedLabels P axis0 first rest) :
    madeReindexer P axis0 first rest i labels = some ((List.range labels.length).map some) ∨
      (axis0 = true ∧ P.first = true ∧ ¬ first.Nodup ∧ ¬ (∀ l ∈ rest, l = first)) := by
  unfold madeReindexer
  simp only
  by_cases hneed : needIndexers axis0 first rest = true
  · rw [if_pos hneed]
    have hn := hneed
    unfold needIndexers at hn
    simp only [Bool.and_eq_true, Bool.not_eq_true', List.any_eq_true, decide_eq_false_iff_not] at hn
    obtain ⟨⟨hax, hns⟩, l, hlm, hnd⟩ := hn
    have hnall : ¬ ∀ l ∈ rest, l = first := by
      intro h
      have : allSame first rest = true := by
        unfold allSame
        rw [List.all_eq_true]
        intro l hl
        simpa using h l hl
      rw [this] at hns
      cases hns
    rcases h with h | h | ⟨_, hf, hlen⟩ | ⟨hf, hr⟩
    · exact absurd h hnall
    · exact absurd (h l hlm) hnd
    · left
      obtain ⟨second, rfl⟩ := List.length_eq_one_iff.1 hlen
      have hJ : joinedLabels P axis0 first [second] = (P.join2 first second).1 := by
        unfold joinedLabels
        rw [hf, hns]
        simp [hneed]
      have hI : joinIndexer P axis0 first [second] i labels
          = if i = 0 then (P.join2 first second).2.1 else (P.join2 first second).2.2 := by
        unfold joinIndexer
        rw [hf, hns]
        rfl
      have hgood := hP first second
      rw [hJ] at hl
      rw [hJ, hI]
      by_cases h0 : i = 0
      · subst h0
        cases hi
        rw [if_pos rfl, if_pos hgood.1.length, hgood.1.same hl, ← hl]
      · have h1 : i = 1 := by
          have := (List.getElem?_eq_some_iff.1 hi).1
          simp at this
          omega
        subst h1
        cases hi
        rw [if_neg h0, if_pos hgood.2.length, hgood.2.same hl, ← hl]
    · have hJ : joinedLabels P axis0 first rest = first := by
        unfold joinedLabels
        rw [hf]
        rfl
      by_cases hfn : first.Nodup
      · left
        have hI : joinIndexer P axis0 first rest i labels = getIndexerFor labels first := by
          unfold joinIndexer
          rw [hf, hJ]
          rfl
        rw [hJ] at hl
        subst hl
        rw [hI, hJ, getIndexerFor_nodup hfn, findIdx_self hfn, if_pos (by simp)]
      · exact Or.inr ⟨hax, hf, hfn, hnall⟩
  · rw [if_neg hneed]
    left
    unfold reindexPositions
    rw [if_pos hl, ← hl]

theorem alignable_of [DecidableEq L] {P : JoinOps L} (hP : P.Good) {axis0 : Bool} {p0 : Piece L α} {ps : List (Piece L α)}
    (h : Joinable P axis0 (p0.df.axisLabels axis0) (ps.map (·.df.axisLabels axis0)))
    (hre : axis0 = true → P.first = true → (p0.df.axisLabels axis0).Nodup ∨
      (∀ p ∈ ps, p.df.axisLabels axis0 = p0.df.axisLabels axis0) ∨
      (p0.has = true ∧ ∀ p ∈ ps, p.df.axisLabels axis0 = p0.df.axisLabels axis0 → p.has = true ∧ p.along = p0.along)) :
    Alignable P axis0 p0 ps := by
  intro e he
  rw [List.mem_zipIdx_iff_getElem?] at he
  have hi : (p0.df.axisLabels axis0 :: ps.map (·.df.axisLabels axis0))[e.2]? = some (e.1.df.axisLabels axis0) := by
    have : ((p0 :: ps).map (·.df.axisLabels axis0))[e.2]? = some (e.1.df.axisLabels axis0) := by
      rw [List.getElem?_map, he]
      rfl
    exact this
  refine ⟨reindexer_ok hP h hi, ?_⟩
  by_cases hl : e.1.df.axisLabels axis0 = jLabels P axis0 p0 ps
  · have hix : jIndexer P axis0 p0 ps e = some ((List.range (jLabels P axis0 p0 ps).length).map some) := if_pos hl
    rcases made_same hP h hi hl with h1 | ⟨h1, h2, h3, h4⟩
    · left
      rw [hix, ← hl]
      exact h1
    · right
      have hJ : jLabels P axis0 p0 ps = p0.df.axisLabels axis0 := by
        unfold jLabels joinedLabels
        rw [h2]
        rfl
      rcases hre h1 h2 with h5 | h5 | ⟨h5, h6⟩
      · exact absurd h5 h3
      · refine absurd (fun l hl => ?_) h4
        obtain ⟨p, hp, rfl⟩ := List.mem_map.1 hl
        exact h5 p hp
      · refine ⟨h5, hJ.symm, hl, ?_⟩
        rcases List.mem_cons.1 (List.mem_of_getElem? he) with h0 | h0
        · rw [h0]
          exact ⟨h5, rfl⟩
        · exact h6 _ h0 (hl.trans hJ)
  · left
    exact (if_neg hl : jIndexer P axis0 p0 ps e = jMade P axis0 p0 ps e).symm

/-! ### from frames to pieces -/

/-- a way of writing a frame as a piece -/
theorem piece_of_represents {m : MFrame L L α} {df : Frame L L α} (h : m.Represents df) (axis0 : Bool) :
    ∃ p : Piece L α, p.m = m ∧ p.df = df ∧ p.has = true ∧ p.Ok axis0 ∧
      (m.axisCache (!axis0)).2 ∈ [none, some p.across] ∧ (m.axisCache axis0).2 ∈ [none, some p.along] := by
  obtain ⟨rl, cw, hcut, hp, hrl, hcw⟩ := h.blocks
  cases axis0 with
  | true =>
    refine ⟨⟨m, df, true, rl, cw⟩, rfl, rfl, rfl, ⟨h.wf, fun _ => hcut, hp, fun _ => getRowLens_cut hcut hp hrl,
      h.getIndex⟩, ?_, ?_⟩
    · simpa [MFrame.axisCache] using hcw
    · simpa [MFrame.axisCache] using hrl
  | false =>
    refine ⟨⟨m, df, true, cw, rl⟩, rfl, rfl, rfl, ⟨h.wf, fun _ => hcut, hp, fun _ => getColWidths_cut hcut hp hcw,
      h.getColumns⟩, ?_, ?_⟩
    · simpa [MFrame.axisCache] using hrl
    · simpa [MFrame.axisCache] using hcw

theorem list_choose {A B : Type} (l : List A) (R : A → B → Prop) (h : ∀ a ∈ l, ∃ b, R a b) :
    ∃ l' : List B, l'.length = l.length ∧ ∀ (i : Nat) a b, l[i]? = some a → l'[i]? = some b → R a b := by
  induction l with
  | nil => exact ⟨[], rfl, by simp⟩
  | cons x xs ih =>
    obtain ⟨b, hb⟩ := h x (by simp)
    obtain ⟨l', h1, h2⟩ := ih (fun a ha => h a (List.mem_cons_of_mem _ ha))
    refine ⟨b :: l', by simp [h1], ?_⟩
    intro i a c ha hc
    cases i with
    | zero => cases ha; cases hc; exact hb
    | succ i => exact h2 i a c ha hc

/-- choose along a list, keeping what each choice is for -/
theorem list_choose_map {A B : Type} (f : B → A) (l : List A) (R : B → Prop) (h : ∀ a ∈ l, ∃ b, f b = a ∧ R b) :
    ∃ l' : List B, l'.map f = l ∧ ∀ b ∈ l', R b := by
  induction l with
  | nil => exact ⟨[], rfl, by simp⟩
  | cons x xs ih =>
    obtain ⟨b, hb, hR⟩ := h x (by simp)
    obtain ⟨l', h1, h2⟩ := ih (fun a ha => h a (List.mem_cons_of_mem _ ha))
    refine ⟨b :: l', by simp [h1, hb], ?_⟩
    intro c hc
    rcases List.mem_cons.1 hc with rfl | hc
    · exact hR
    · exact h2 c hc

/-! ### stacking rows -/

theorem pySlice_append_left {A : Type} (a b : List A) (i j : Nat) (h : j ≤ a.length) :
    pySlice (a ++ b) i j = pySlice a i j := by
  unfold pySlice
  by_cases hi : i ≤ a.length
  · rw [List.drop_append_of_le_length hi, List.take_append_of_le_length (by simp; omega)]
  · have : j - i = 0 := by omega
    simp [this]

theorem pySlice_append_right {A : Type} (a b : List A) (i j : Nat) :
    pySlice (a ++ b) (a.length + i) (a.length + j) = pySlice b i j := by
  unfold pySlice
  rw [List.drop_append, List.drop_eq_nil_of_le (by omega)]
  simp only [List.nil_append]
  congr 1
  · omega
  · congr 1
    omega

theorem bandsFrom_congr {A B : Frame ι κ α} {cw : List Nat} (ls : List Nat) (s t : Nat)
    (h : ∀ i j, i ≤ j → j ≤ ls.sum → (A.ilocRows (s + i) (s + j)) = B.ilocRows (t + i) (t + j)) :
    bandsFrom A cw s ls = bandsFrom B cw t ls := by
  induction ls generalizing s t with
  | nil => rfl
  | cons l ls ih =>
    rw [bandsFrom, bandsFrom, ih (s + l) (t + l) (by
      intro i j hij hj
      have := h (l + i) (l + j) (by omega) (by rw [List.sum_cons]; omega)
      rw [Nat.add_assoc, Nat.add_assoc, Nat.add_assoc, Nat.add_assoc]
      exact this)]
    congr 1
    unfold bandAt
    have := h 0 l (by omega) (by rw [List.sum_cons]; omega)
    simp only [Nat.add_zero] at this
    rw [this]

theorem stackRows_cut (J : List κ) (cw : List Nat) (fs : List (Frame ι κ α × List Nat))
    (h : ∀ e ∈ fs, e.1.WF ∧ e.1.columns = J ∧ e.2.sum = e.1.nrows) :
    (fs.map fun e => e.1.cut e.2 cw).flatten
      = (Frame.stackRows J (fs.map (·.1))).cut (fs.map (·.2)).flatten cw := by
  induction fs with
  | nil => simp [Frame.cut, sliceBounds, cumsumFrom, consecutive]
  | cons e fs ih =>
    obtain ⟨hwf, hc, hs⟩ := h e (by simp)
    rw [List.map_cons, List.flatten_cons, ih (fun x hx => h x (List.mem_cons_of_mem _ hx))]
    rw [List.map_cons, List.map_cons, List.flatten_cons, cut_eq_bands, cut_eq_bands, cut_eq_bands, bandsFrom_append]
    have hn : e.2.sum = e.1.index.length := hs
    congr 1
    · apply bandsFrom_congr
      intro i j hij hj
      simp only [Frame.ilocRows, Frame.stackRows, List.map_cons, List.flatten_cons, Nat.zero_add, Frame.mk.injEq]
      rw [pySlice_append_left _ _ _ _ (by omega), pySlice_append_left _ _ _ _ (by rw [hwf.rows_len]; omega)]
      exact ⟨rfl, hc, rfl⟩
    · apply bandsFrom_congr
      intro i j hij hj
      simp only [Frame.ilocRows, Frame.stackRows, List.map_cons, List.flatten_cons, Nat.zero_add, Frame.mk.injEq,
        true_and]
      rw [hn, pySlice_append_right]
      rw [← hwf.rows_len, pySlice_append_right]
      exact ⟨rfl, rfl⟩

theorem stackRows_wf (J : List κ) (fs : List (Frame ι κ α)) (h : ∀ f ∈ fs, f.WF ∧ f.columns = J) :
    (Frame.stackRows J fs).WF := by
  constructor
  · simp only [Frame.stackRows]
    induction fs with
    | nil => rfl
    | cons f fs ih =>
      have := (h f (by simp)).1.rows_len
      have ih := ih (fun x hx => h x (List.mem_cons_of_mem _ hx))
      simp only [List.map_cons, List.flatten_cons, List.length_append]
      omega
  · intro r hr
    simp only [Frame.stackRows, List.mem_flatten, List.mem_map] at hr ⊢
    obtain ⟨_, ⟨f, hf, rfl⟩, hr⟩ := hr
    rw [(h f hf).1.row_width r hr, (h f hf).2]

/-! ### concatenating rows -/

theorem standsFor_wf {m : MFrame ι κ α} {df : Frame ι κ α} (h : m.StandsFor df) : df.WF := by
  rcases h with h | h
  · exact h.wf
  · exact h.2.1

theorem standsFor_columns {m : MFrame ι κ α} {df : Frame ι κ α} (h : m.StandsFor df) : m.getColumns = df.columns := by
  rcases h with h | h
  · exact h.getColumns
  · exact h.2.2.2.2.1

theorem standsFor_index {m : MFrame ι κ α} {df : Frame ι κ α} (h : m.StandsFor df) :
    m.index = none ∨ m.index = some df.index := by
  rcases h with h | h
  · exact h.index
  · obtain ⟨_, _, hi, hg, _⟩ := h
    unfold MFrame.getIndex at hg
    cases hm : m.index with
    | none => exact Or.inl rfl
    | some l => rw [hm] at hg; right; simp only at hg; rw [hg, hi]

theorem standsFor_toPandas [DecidableEq ι] [DecidableEq κ] {m : MFrame ι κ α} {df : Frame ι κ α}
    (h : m.StandsFor df) (nan : α) : m.toPandas nan = some df := by
  rcases h with h | ⟨hp, hwf, hi, hgi, hgc, _⟩
  · exact h.toPandas nan
  · unfold MFrame.toPandas assemble
    rw [hp, hgi, hgc]
    have hr : df.rows = [] := by
      have := hwf.rows_len
      rw [hi] at this
      exact List.length_eq_zero_iff.1 this
    cases df with
    | mk index columns rows =>
      simp only at hi hr
      subst hi; subst hr
      simp [Frame.isEmpty, Frame.nrows]

theorem piece_of_standsFor {m : MFrame L L α} {df : Frame L L α} (h : m.StandsFor df) :
    ∃ p : Piece L α, p.m = m ∧ p.df = df ∧ p.Ok false ∧
      (p.has = true → m.Represents df ∧ (m.axisCache false).2 ∈ [none, some p.along]) ∧
      (p.has = false → df.index = [] ∧ p.across = []) := by
  rcases h with h | ⟨hp, hwf, hi, hgi, hgc, _⟩
  · obtain ⟨p, h1, h2, h3, h4, _, h6⟩ := piece_of_represents h false
    exact ⟨p, h1, h2, h4, fun _ => ⟨h, h6⟩, fun hh => by rw [h3] at hh; cases hh⟩
  · exact ⟨⟨m, df, false, [], []⟩, rfl, rfl, ⟨hwf, by simp, hp, by simp, hgc⟩, by simp, fun _ => ⟨hi, rfl⟩⟩

theorem appendLabels_spec {ls : List (Option (List L))} {ts : List (List L)} (hlen : ls.length = ts.length)
    (h : ∀ (i : Nat) a t, ls[i]? = some a → ts[i]? = some t → a = none ∨ a = some t) :
    appendLabels ls = none ∨ appendLabels ls = some ts.flatten := by
  unfold appendLabels
  have : ls.mapM id = none ∨ ls.mapM id = some ts := by
    induction ls generalizing ts with
    | nil =>
      have : ts = [] := List.length_eq_zero_iff.1 hlen.symm
      subst this
      right; rfl
    | cons a ls ih =>
      cases ts with
      | nil => simp at hlen
      | cons t ts =>
        have ih := ih (ts := ts) (by simpa using hlen) (fun i a t ha ht => h (i + 1) a t ha ht)
        rw [List.mapM_cons]
        rcases h 0 a t rfl rfl with ha | ha
        · left; rw [ha]; rfl
        · rw [ha]
          rcases ih with ih | ih
          · left; rw [ih]; rfl
          · right; rw [ih]; rfl
  rcases this with h | h
  · left; rw [h]; rfl
  · right; rw [h]; rfl

theorem filterEmpties_nil (m : MFrame ι κ α) (h : m.parts = []) : (filterEmpties m).parts = [] ∧
    (filterEmpties m).index = m.index ∧ (filterEmpties m).columns = m.columns ∧
    validAxis (filterEmpties m).colWidths (filterEmpties m).columns = validAxis m.colWidths m.columns := by
  unfold filterEmpties
  split
  · rename_i rl cw hrl hcw
    split
    · exact ⟨h, rfl, rfl, rfl⟩
    · refine ⟨by simp [h, keepNonzero], rfl, rfl, ?_⟩
      rw [hcw]
      unfold validAxis
      cases m.columns with
      | none => rfl
      | some c => simp only [filter_nonzero_sum]
  · exact ⟨h, rfl, rfl, rfl⟩

/-- the columns of a frame after alignment -/
def alignedDfs [DecidableEq L] (P : JoinOps L) (axis0 : Bool) (nan : α) (p0 : Piece L α) (ps : List (Piece L α)) :
    List (Frame L L α) :=
  (p0 :: ps).zipIdx.map fun e =>
    reindexFn axis0 nan (jLabels P axis0 p0 ps) ((jIndexer P axis0 p0 ps e).getD []) e.1.df

theorem flatten_filter_targets [DecidableEq L] (P : JoinOps L) (nan : α) (p0 : Piece L α) (ps : List (Piece L α)) (lens : List Nat)
    (hok : ∀ p ∈ p0 :: ps, p.Ok false) (hno : ∀ p ∈ p0 :: ps, p.has = false → p.df.index = [] ∧ p.across = [])
    (hal : Alignable P false p0 ps) :
    ((alignedBlocks P false nan p0 ps lens).filter (!·.isEmpty)).flatten
      = (Frame.stackRows (jLabels P false p0 ps) (alignedDfs P false nan p0 ps)).cut
          (((p0 :: ps).map (·.across)).flatten) lens := by
  have hff : ∀ G : List (Grid L L α), (G.filter (!·.isEmpty)).flatten = G.flatten := by
    intro G
    induction G with
    | nil => rfl
    | cons g G ih =>
      cases g with
      | nil => simp [ih]
      | cons x xs => simp [ih]
  rw [hff]
  have := stackRows_cut (jLabels P false p0 ps) lens ((p0 :: ps).zipIdx.map fun e =>
    (reindexFn false nan (jLabels P false p0 ps) ((jIndexer P false p0 ps e).getD []) e.1.df, e.1.across)) (by
      intro x hx
      obtain ⟨e, he, rfl⟩ := List.mem_map.1 hx
      have hm := fst_mem_of_mem_zipIdx' he
      obtain ⟨⟨I, hI, hI2⟩, _⟩ := hal e he
      rw [hI, Option.getD_some]
      refine ⟨reindexFn_wf (axis0 := false) (nan := nan) hI2.length (hok e.1 hm).wf, rfl, ?_⟩
      show e.1.across.sum = e.1.df.index.length
      cases hh : e.1.has with
      | true => exact ((hok e.1 hm).cut hh : e.1.df.IsCut _ _).rl_sum
      | false => rw [(hno e.1 hm hh).1, (hno e.1 hm hh).2]; rfl)
  rw [List.map_map, List.map_map, List.map_map] at this
  have e1 : (p0 :: ps).map (·.across) = (p0 :: ps).zipIdx.map ((·.2) ∘ fun e : Piece L α × Nat =>
      (reindexFn false nan (jLabels P false p0 ps) ((jIndexer P false p0 ps e).getD []) e.1.df, e.1.across)) := by
    rw [show ((·.2) ∘ fun e : Piece L α × Nat =>
      (reindexFn false nan (jLabels P false p0 ps) ((jIndexer P false p0 ps e).getD []) e.1.df, e.1.across))
      = (fun p : Piece L α => p.across) ∘ Prod.fst from rfl, ← List.map_map, List.zipIdx_map_fst]
  rw [e1]
  refine Eq.trans ?_ this
  congr 1
  unfold alignedBlocks
  apply List.map_congr_left
  intro e he
  have hm := fst_mem_of_mem_zipIdx' he
  unfold Piece.target
  cases hh : e.1.has with
  | true => rfl
  | false =>
    simp [Frame.cut, (hno e.1 hm hh).2, sliceBounds, cumsumFrom, consecutive]

theorem concatRows_spec [DecidableEq L] (P : JoinOps L) (cfg : Cfg) (hp : 1 ≤ cfg.nPartitions) (hr : 1 ≤ cfg.minRow)
    (hc : 1 ≤ cfg.minCol) (nan : α) (known : Grid L L α → Bool) (p0 : Piece L α) (ps : List (Piece L α))
    (hst : ∀ p ∈ p0 :: ps, p.m.StandsFor p.df)
    (hok : ∀ p ∈ p0 :: ps, p.Ok false) (hno : ∀ p ∈ p0 :: ps, p.has = false → p.df.index = [] ∧ p.across = [])
    (hyes : ∀ p ∈ p0 :: ps, p.has = true → p.m.Represents p.df ∧ (p.m.axisCache false).2 ∈ [none, some p.along])
    (hal : Alignable P false p0 ps) :
    ∃ m, concatRows P cfg nan known p0.m (ps.map (·.m)) = some m ∧
      m.StandsFor (Frame.stackRows (jLabels P false p0 ps) (alignedDfs P false nan p0 ps)) := by
  obtain ⟨lens, oJ, oL, hco, hoJ, hrest, hnone⟩ := copartition_spec P cfg hp hr hc false nan p0 ps hok hal
  unfold concatRows
  rw [hco, Option.bind_some]
  simp only
  unfold pmConcatRows
  rw [flatten_filter_targets P nan p0 ps lens hok hno hal]
  generalize hS : Frame.stackRows (jLabels P false p0 ps) (alignedDfs P false nan p0 ps) = S
  generalize hg : S.cut (((p0 :: ps).map (·.across)).flatten) lens = g
  have hSwf : S.WF := by
    rw [← hS]
    apply stackRows_wf
    intro f hf
    unfold alignedDfs at hf
    obtain ⟨e, he, rfl⟩ := List.mem_map.1 hf
    obtain ⟨⟨I, hI, hI2⟩, _⟩ := hal e he
    rw [hI, Option.getD_some]
    exact ⟨reindexFn_wf hI2.length (hok e.1 (fst_mem_of_mem_zipIdx' he)).wf, rfl⟩
  have hSidx : S.index = ((p0 :: ps).map (·.df.index)).flatten := by
    rw [← hS]
    unfold alignedDfs
    simp only [Frame.stackRows, List.map_map]
    rw [show ((·.index) ∘ fun e : Piece L α × Nat => reindexFn false nan (jLabels P false p0 ps)
        ((jIndexer P false p0 ps e).getD []) e.1.df) = (fun p : Piece L α => p.df.index) ∘ Prod.fst from rfl,
      ← List.map_map, List.zipIdx_map_fst]
  have hSrl : (((p0 :: ps).map (·.across)).flatten).sum = S.nrows := by
    show _ = S.index.length
    rw [hSidx, sum_flatten', List.length_flatten, List.map_map, List.map_map]
    congr 1
    apply List.map_congr_left
    intro p hpm
    simp only [Function.comp]
    cases hh : p.has with
    | true => exact ((hok p hpm).cut hh : p.df.IsCut _ _).rl_sum
    | false => rw [(hno p hpm hh).1, (hno p hpm hh).2]; rfl
  have hidx : appendLabels ((p0.m :: ps.map (·.m)).map (·.index)) = none ∨
      appendLabels ((p0.m :: ps.map (·.m)).map (·.index)) = some S.index := by
    rw [hSidx]
    apply appendLabels_spec (by simp)
    intro i a t ha ht
    rw [show p0.m :: ps.map (·.m) = (p0 :: ps).map (·.m) from rfl, List.map_map, List.getElem?_map] at ha
    rw [List.getElem?_map] at ht
    cases hi : (p0 :: ps)[i]? with
    | none => rw [hi] at ha; cases ha
    | some p =>
      rw [hi] at ha ht
      cases ha; cases ht
      exact standsFor_index (hst p (List.mem_of_getElem? hi))
  have hScols : S.columns = jLabels P false p0 ps := by rw [← hS]; rfl
  by_cases hex : ∃ p ∈ p0 :: ps, p.has = true
  · obtain ⟨hlne, hls, hoL, _⟩ := hrest hex
    have hcut : S.IsCut (((p0 :: ps).map (·.across)).flatten) lens := by
      refine ⟨?_, hlne, hSrl, by rw [hls, ← hScols]; rfl⟩
      intro h0
      obtain ⟨p, hpm, hh⟩ := hex
      have := ((hok p hpm).cut hh : p.df.IsCut _ _).rl_ne
      exact this (List.flatten_eq_nil_iff.1 h0 p.across (List.mem_map_of_mem hpm))
    obtain ⟨rl', lens2, hcut', hreb, hl2, _⟩ := rebalance_cut hcut cfg.nPartitions hp (known g)
    rw [hg] at hreb
    rw [hreb, Option.bind_some]
    simp only
    have hrep : (⟨S.cut rl' lens, appendLabels ((p0.m :: ps.map (·.m)).map (·.index)), oJ,
        lengthsOrFirstColumn (known (S.cut rl' lens)) (S.cut rl' lens) lens2, oL⟩ : MFrame L L α).Represents S := by
      refine ⟨hSwf, ⟨rl', lens, hcut', rfl, ?_, ?_⟩, hidx, ?_⟩
      · have hgl : gridAxisLens true (S.cut rl' lens) = rl' :=
          gridAxisLens_cut true (df := S) (along := rl') (across := lens) hcut'
        have hfall : ∀ x, (if (S.cut rl' lens).isEmpty then some [] else if x = true then
            some (gridAxisLens true (S.cut rl' lens)) else none) = none ∨
            (if (S.cut rl' lens).isEmpty then some [] else if x = true then
            some (gridAxisLens true (S.cut rl' lens)) else none) = some rl' := by
          intro x
          have : (S.cut rl' lens).isEmpty = false := by
            have := sliceBounds_ne_nil hcut'.rl_ne
            simp [Frame.cut, this]
          rw [this]
          cases x with
          | true => right; simp [hgl]
          | false => left; simp
        rcases hl2 with rfl | rfl
        · exact hfall (known (S.cut rl' lens))
        · cases rl' with
          | nil => exact hfall (known (S.cut [] lens))
          | cons x xs => right; rfl
      · rcases hoL with h | ⟨hps, hla, h⟩
        · right; exact h
        · subst hps
          obtain ⟨p, hpm, hh⟩ := hex
          simp only [List.mem_cons, List.not_mem_nil, or_false] at hpm
          subst hpm
          have := (hyes p (by simp) hh).2
          rw [← h, ← hla] at this
          simpa using this
      · rcases hoJ with h | ⟨hps, h⟩
        · right; rw [h, hScols]
        · subst hps
          obtain ⟨p, hpm, hh⟩ := hex
          simp only [List.mem_cons, List.not_mem_nil, or_false] at hpm
          subst hpm
          have h1 := (hyes p (by simp) hh).1.columns
          rw [hScols]
          have h2 : jLabels P false p [] = p.df.columns := by
            simp [jLabels, joinedLabels, allSame, Frame.axisLabels]
          rw [h2, h]
          exact h1
    obtain ⟨m', hm1, hm2⟩ := represents_mk' hrep
    exact ⟨m', hm1, Or.inl hm2⟩
  · have hacr : ((p0 :: ps).map (·.across)).flatten = [] := by
      rw [List.flatten_eq_nil_iff]
      intro l hl
      obtain ⟨p, hpm, rfl⟩ := List.mem_map.1 hl
      cases hh : p.has with
      | true => exact absurd ⟨p, hpm, hh⟩ hex
      | false => exact (hno p hpm hh).2
    have hg0 : g = [] := by
      rw [← hg, hacr]
      simp [Frame.cut, sliceBounds, cumsumFrom, consecutive]
    have hSi : S.index = [] := by
      have h1 := hSrl
      rw [hacr] at h1
      exact List.length_eq_zero_iff.1 h1.symm
    rw [hg0]
    have hreb : rebalance cfg.nPartitions (known []) ([] : Grid L L α) = some ([], none) := by
      unfold rebalance
      simp
    rw [hreb, Option.bind_some]
    simp only
    have hpless : p0.m.parts = [] ∧ p0.m.getColumns = p0.df.columns ∧
        validAxis p0.m.colWidths p0.m.columns = true := by
      have h0 : p0.has = false := by
        cases hh : p0.has with
        | true => exact absurd ⟨p0, by simp, hh⟩ hex
        | false => rfl
      have h1 : p0.m.parts = [] := by rw [(hok p0 (by simp)).parts, h0]; rfl
      rcases hst p0 (by simp) with h | h
      · obtain ⟨rl, cw, hcut, hparts, _⟩ := h.blocks
        rw [h1] at hparts
        have := sliceBounds_ne_nil hcut.rl_ne
        have h2 := congrArg List.length hparts
        simp [Frame.cut, sliceBounds_length] at h2
        exact absurd (List.length_eq_zero_iff.1 h2.symm) hcut.rl_ne
      · exact ⟨h.1, h.2.2.2.2.1, h.2.2.2.2.2⟩
    have hval : validAxis oL oJ = true := by
      rcases hnone with h | h | h
      · exact absurd h hex
      · rw [h]
        unfold validAxis
        cases oJ <;> simp
      · have hJ : oJ = (cacheAfterCheck false p0.m (ps.map (·.m))).1 := congrArg Prod.fst h
        have hL : oL = (cacheAfterCheck false p0.m (ps.map (·.m))).2 := congrArg Prod.snd h
        rw [hJ, hL]
        unfold cacheAfterCheck
        split
        · exact hpless.2.2
        · have hv := hpless.2.2
          simp only [MFrame.axisLabels, MFrame.axisLens, Bool.false_eq_true, ↓reduceIte, MFrame.getColumns,
            MFrame.getColWidths, hpless.1]
          cases hcw : p0.m.colWidths with
          | none =>
            cases p0.m.columns <;> simp [validAxis]
          | some w =>
            rw [hcw] at hv
            cases hcol : p0.m.columns with
            | none => simp [validAxis, gridColumns]
            | some c =>
              rw [hcol] at hv
              exact hv
    have hcols : ∀ m' : MFrame L L α, m'.parts = [] → m'.columns = oJ → m'.getColumns = S.columns := by
      intro m' hm1 hm2
      unfold MFrame.getColumns
      rw [hm2, hScols]
      rcases hoJ with h | ⟨hps, h⟩
      · rw [h]
      · subst hps
        have h2 : jLabels P false p0 [] = p0.df.columns := by
          simp [jLabels, joinedLabels, allSame, Frame.axisLabels]
        rw [h2, ← hpless.2.1, h]
        unfold MFrame.getColumns
        simp only [MFrame.axisCache, Bool.false_eq_true, ↓reduceIte, hm1, hpless.1]
    generalize hidx' : appendLabels ((p0.m :: ps.map (·.m)).map (·.index)) = oI at hidx ⊢
    have hmk : (⟨[], oI, oJ, lengthsOrFirstColumn (known []) ([] : Grid L L α) none, oL⟩ : MFrame L L α).mk'
        = some (filterEmpties ⟨[], oI, oJ, lengthsOrFirstColumn (known []) ([] : Grid L L α) none, oL⟩) := by
      unfold MFrame.mk'
      rw [if_pos]
      simp only [hval, Bool.and_true]
      rcases hidx with h | h <;> rw [h] <;> simp [validAxis, lengthsOrFirstColumn, hSi]
    refine ⟨_, hmk, Or.inr ?_⟩
    obtain ⟨f1, f2, f3, f4⟩ := filterEmpties_nil (⟨[], oI, oJ, lengthsOrFirstColumn (known []) ([] : Grid L L α) none, oL⟩ :
      MFrame L L α) rfl
    refine ⟨f1, hSwf, hSi, ?_, hcols _ f1 f3, by rw [f4]; exact hval⟩
    unfold MFrame.getIndex
    rw [f2, f1]
    rcases hidx with h | h <;> rw [h] <;> simp [gridIndex, hSi]
