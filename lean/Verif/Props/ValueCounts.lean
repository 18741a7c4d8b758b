import Verif.Lemmas.ValueCounts
/-
C89: `value_counts` and `groupby(...).size()`.
-/

variable {ι κ α K : Type}

/-- **C89 (what the counts mean).**  Each key that occurs and is not dropped is listed once, with the number of rows that have it; with
    `sort` larger (with `ascending` smaller) counts come first, without it the keys stand in the order of the groups. -/
theorem C89_meaning [DecidableEq K] (G : Grouping K) (sort ascending : Bool) (keys : List K) :
    ((frameValueCounts G sort ascending keys).map (·.1)).Nodup ∧
    (∀ k n, (k, n) ∈ frameValueCounts G sort ascending keys ↔ k ∈ keys ∧ G.dropped k = false ∧ n = keys.count k) ∧
    (sort = true → ascending = true → ((frameValueCounts G sort ascending keys).map (·.2)).Pairwise (· ≤ ·)) ∧
    (sort = true → ascending = false → ((frameValueCounts G sort ascending keys).map (·.2)).Pairwise (· ≥ ·)) ∧
    (frameValueCounts G false ascending keys).map (·.1) = G.groups keys := by
  have hperm : (frameValueCounts G sort ascending keys).Perm (countKeys G keys) := by
    unfold frameValueCounts
    cases sort
    · exact List.Perm.refl _
    · exact sortBy_perm _ _
  have hk : (countKeys G keys).map (·.1) = G.groups keys := by
    unfold countKeys
    rw [List.map_map]
    exact List.map_id' _
  have htr : ∀ a b c : K × Nat, countsBefore ascending a b → countsBefore ascending b c → countsBefore ascending a c := by
    intro a b c
    cases ascending <;> simp [countsBefore] <;> omega
  have hto : ∀ a b : K × Nat, countsBefore ascending a b ∨ countsBefore ascending b a := by
    intro a b
    cases ascending <;> simp [countsBefore] <;> omega
  refine ⟨(hperm.map _).nodup_iff.2 (by rw [hk]; exact Grouping.nodup_groups _ _), ?_, ?_, ?_, hk⟩
  · intro k n
    rw [hperm.mem_iff]
    unfold countKeys
    simp only [List.mem_map, Grouping.mem_groups, Prod.mk.injEq]
    constructor
    · rintro ⟨x, ⟨hx, hd⟩, rfl, rfl⟩
      refine ⟨hx, by simpa using hd, ?_⟩
      rw [List.count_eq_countP, List.countP_eq_length_filter]
      rfl
    · rintro ⟨hx, hd, rfl⟩
      refine ⟨k, ⟨hx, by simpa using hd⟩, rfl, ?_⟩
      rw [List.count_eq_countP, List.countP_eq_length_filter]
      rfl
  · rintro rfl rfl
    rw [List.pairwise_map]
    exact (sortBy_pairwise htr hto _).imp (by simp [countsBefore])
  · rintro rfl rfl
    rw [List.pairwise_map]
    exact (sortBy_pairwise htr hto _).imp (by simp [countsBefore])

/-- **C89 (`groupby(by).size()`).**  For every frame with rows, however cut, and every by-data with the same rows: the sizes of the
    groups, whether the by-data are columns of the frame (`drop`) or not. -/
theorem C89_size [DecidableEq ι] [DecidableEq κ] [DecidableEq α] (cfg : Cfg) (hp : 1 ≤ cfg.nPartitions) (hr : 1 ≤ cfg.minRow)
    (G : Grouping (List α)) (hG : G.Ordered) (m by' : MFrame ι κ α) (df bdf : Frame ι κ α) (hm : m.Represents df) (hb : by'.Represents bdf)
    (hidx : bdf.index = df.index) (hlens : by'.getRowLens = m.getRowLens) (na : α) (drop : Bool) (hn : df.columns.Nodup)
    (hne : df.index ≠ []) (c : κ) (rest : List κ) (hc : df.columns = c :: rest) :
    ∃ m', groupbySize cfg G na drop m by' = some m' ∧ m'.Represents (Frame.ofCounts c (countKeys G bdf.rows)) :=
  groupbySize_spec cfg hp hr G hG hm hb hidx hlens na drop hn hne hc

/-- **C89 (frames).**  `df.value_counts(subset, sort=..., ascending=..., dropna=...)` for every frame with rows and distinct column labels,
    however cut, and every different labels as `subset`: pandas' counts (`C89_meaning`).  Missing (hence `_partial`): sorting with one
    partition (`C18`), labels given twice, empty frames. -/
theorem C89_frame_partial [DecidableEq ι] [DecidableEq κ] [DecidableEq α] (cfg : Cfg) (hp : 2 ≤ cfg.nPartitions) (hmr : 1 ≤ cfg.minRow)
    (hmc : 1 ≤ cfg.minCol) (known : Nat → Nat → Bool × Bool) (G : Bool → Grouping (List α)) (hG : ∀ s, (G s).Ordered) (na : α) (over : Bool)
    (draw : Nat → List (Option Nat)) (hdraw : ∀ n, 2 ≤ n → draw n ≠ [] ∧ Increasing (fun a b : Nat => decide (a ≤ b)) (draw n))
    (m : MFrame ι κ α) (df : Frame ι κ α) (hm : m.Represents df) (hn : df.columns.Nodup) (hrows : ∀ rl, m.rowLens = some rl → 0 ∉ rl)
    (hne : df.index ≠ []) (subset : Option (List κ)) (hs : ∀ k ∈ subset.getD df.columns, k ∈ df.columns) (hsn : (subset.getD df.columns).Nodup)
    (hs0 : subset.getD df.columns ≠ []) (sort ascending : Bool) :
    ∃ m' c, valueCounts cfg known G na over draw subset sort ascending m = some m' ∧
      m'.Represents (Frame.ofCounts c (frameValueCounts (G true) sort ascending
        (df.takeCols ((subset.getD df.columns).flatMap (positionsOf df.columns))).rows)) := by
  obtain ⟨c, rest, hc⟩ : ∃ c rest, df.columns = c :: rest := by
    obtain ⟨k, hk⟩ := List.exists_mem_of_ne_nil _ hs0
    exact List.exists_cons_of_ne_nil (List.ne_nil_of_mem (hs k hk))
  obtain ⟨keys, k1, k2, k3⟩ := takeLabels_spec cfg (by omega) hmr hmc known hm hrows hs hsn
  obtain ⟨counts, c1, c2⟩ := groupbySize_spec cfg (by omega) hmr (G (groupSort false)) (hG _) hm k2 rfl k3 na true hn hne hc
  unfold valueCounts
  rw [hm.getColumns, k1, Option.bind_some, c1, Option.bind_some]
  cases sort with
  | false => exact ⟨counts, c, rfl, c2⟩
  | true =>
    obtain ⟨m', e1, e2⟩ := sortCounts_spec cfg hp hmr hmc over hdraw ascending c2
    exact ⟨m', c, e1, e2⟩

/-- **C89 (series).**  `s.value_counts(sort=..., ascending=..., dropna=...)` of a series with rows, however cut: the values that occur, each
    once with its number; with `sort` in the order of the counts.  Missing (hence `_partial`): with `sort=False` (and among equal counts) the
    values stand sorted, pandas keeps their order of appearance (`C89_order`). -/
theorem C89_series_partial [DecidableEq ι] [DecidableEq κ] [DecidableEq α] (cfg : Cfg) (hp : 2 ≤ cfg.nPartitions) (hmr : 1 ≤ cfg.minRow)
    (hmc : 1 ≤ cfg.minCol) (G : Bool → Grouping (List α)) (hG : ∀ s, (G s).Ordered) (hd : (G true).dropped = (G false).dropped) (na : α)
    (over : Bool) (draw : Nat → List (Option Nat))
    (hdraw : ∀ n, 2 ≤ n → draw n ≠ [] ∧ Increasing (fun a b : Nat => decide (a ≤ b)) (draw n))
    (m : MFrame ι κ α) (s : Frame ι κ α) (hm : m.Represents s) (hne : s.index ≠ []) (c : κ) (hc : s.columns = [c]) (sort ascending : Bool) :
    ∃ m' l, seriesValueCounts cfg G na over draw sort ascending m = some m' ∧ m'.Represents (Frame.ofCounts c l) ∧
      l.Perm (frameValueCounts (G false) sort ascending s.rows) ∧
      (sort = true → ascending = true → (l.map (·.2)).Pairwise (· ≤ ·)) ∧
      (sort = true → ascending = false → (l.map (·.2)).Pairwise (· ≥ ·)) := by
  obtain ⟨counts, c1, c2⟩ := groupbySize_spec cfg (by omega) hmr (G (groupSort false)) (hG _) hm hm rfl rfl na false (by simp [hc]) hne hc
  have hperm : (countKeys (G true) s.rows).Perm (countKeys (G false) s.rows) := by
    refine List.Perm.map _ ?_
    rw [List.perm_ext_iff_of_nodup (Grouping.nodup_groups _ _) (Grouping.nodup_groups _ _)]
    intro k
    rw [Grouping.mem_groups, Grouping.mem_groups, hd]
  have hmean := C89_meaning (G true) sort ascending s.rows
  have hp2 : (frameValueCounts (G true) sort ascending s.rows).Perm (frameValueCounts (G false) sort ascending s.rows) := by
    unfold frameValueCounts
    cases sort
    · exact hperm
    · exact (sortBy_perm _ _).trans (hperm.trans (sortBy_perm _ _).symm)
  unfold seriesValueCounts
  rw [c1, Option.bind_some]
  refine (?_ : ∃ m', _ = some m' ∧ m'.Represents (Frame.ofCounts c (frameValueCounts (G true) sort ascending s.rows))).elim
    fun m' e => ⟨m', _, e.1, e.2, hp2, hmean.2.2.1, hmean.2.2.2.1⟩
  cases sort with
  | false => exact ⟨counts, rfl, c2⟩
  | true => exact sortCounts_spec cfg hp hmr hmc over hdraw ascending c2

/-- **C89 (`normalize=True`).**  Each count, however the table of the counts is cut, divided by the sum of all of them. -/
theorem C89_normalize [DecidableEq κ] [DecidableEq K] (cfg : Cfg) (hp : 1 ≤ cfg.nPartitions) (hmr : 1 ≤ cfg.minRow)
    (counts : MFrame K κ Nat) (c : κ) (l : List (K × Nat)) (h : counts.Represents (Frame.ofCounts c l)) :
    ∃ m', normalizeCounts cfg counts = some m' ∧ m'.Represents (Frame.ofCounts c (normalizedCounts l)) :=
  normalizeCounts_spec cfg hp hmr h

namespace ValueCountsDemo

def cfg : Cfg := ⟨2, 1, 1⟩
def known (_ _ : Nat) : Bool × Bool := (true, true)

/-- the frame of the examples: the pair (7, 1) in two blocks of rows, a row with a missing value -/
def df : Frame Int Int (Option Int) :=
  ⟨[10, 11, 12, 13, 14], [0, 1, 2],
    [[some 8, some 2, some 5], [some 7, some 1, some 6], [none, some 1, some 8], [some 7, some 1, some 9], [some 8, some 1, some 4]]⟩
def m : MFrame Int Int (Option Int) := ⟨df.cut [2, 3] [1, 2], none, none, none, none⟩

def draw (_ : Nat) : List (Option Nat) := [some 1]

/-- the hypotheses of `C89_frame_partial` hold, and the result is the one expected -/
example : ∃ m' c, valueCounts cfg known (fun s => pandasGrouping s true) none false draw (some [1, 0]) true false m = some m' ∧
    m'.Represents (Frame.ofCounts c (frameValueCounts (pandasGrouping true true) true false (df.takeCols [1, 0]).rows)) := by
  refine C89_frame_partial cfg (by decide) (by decide) (by decide) known (fun s => pandasGrouping s true) (fun s => pandasGrouping_ordered s true)
    none false draw (fun n _ => ⟨by simp [draw], by simp [draw, Increasing]⟩) m df ?_ (by decide) (by simp [m]) (by decide) (some [1, 0])
    (by decide) (by decide) (by decide) true false
  exact ⟨⟨by decide, by decide⟩, ⟨[2, 3], [1, 2], ⟨by decide, by decide, by decide, by decide⟩, rfl, by simp [m], by simp [m]⟩,
    by simp [m], by simp [m]⟩

example : frameValueCounts (pandasGrouping true true) true false (df.takeCols [1, 0]).rows =
    [([some 1, some 7], 2), ([some 1, some 8], 1), ([some 2, some 8], 1)] := by decide +kernel

/-- what `to_pandas` puts together -/
def shown {δ : Type} (r : Option (MFrame (List (Option Int)) Int δ)) : Option (Frame (List (Option Int)) Int δ) :=
  r.bind fun m => (m.parts.mapM fun row => Frame.hcat row).bind Frame.vcat

example : shown (valueCounts cfg known (fun s => pandasGrouping s false) none false draw (some [0]) true true m) =
    some (Frame.ofCounts 0 [([none], 1), ([some 7], 2), ([some 8], 2)]) := by decide +kernel

/-- the sizes of the groups of a column of another frame, and their shares -/
example : shown (groupbySize cfg (pandasGrouping true true) none false m m) =
    some (Frame.ofCounts 0 (countKeys (pandasGrouping true true) df.rows)) := by decide +kernel

example : shown ((groupbySize cfg (pandasGrouping true false) none true m ⟨(df.takeCols [0]).cut [2, 3] [1], none, none, none, none⟩).bind
    (normalizeCounts cfg)) = some (Frame.ofCounts 0 [([some 7], 2 / 5), ([some 8], 2 / 5), ([none], 1 / 5)]) := by decide +kernel

/-- a series with a larger value first -/
def s : Frame Int Int (Option Int) := ⟨[10, 11, 12], [0], [[some 8], [some 7], [some 8]]⟩

/-- **C89 is violated.**  `Series.value_counts(sort=False)` sorts the values, pandas keeps their order of appearance. -/
theorem C89_order :
    (shown (seriesValueCounts cfg (fun s => pandasGrouping s true) none false draw false false
      ⟨s.cut [2, 1] [1], none, none, none, none⟩)).map (·.index) = some [[some 7], [some 8]] ∧
    (frameValueCounts (pandasGrouping false true) false false s.rows).map (·.1) = [[some 8], [some 7]] := by decide +kernel

end ValueCountsDemo
