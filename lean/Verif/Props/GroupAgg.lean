import Verif.Lemmas.GroupAggSpec
/-
Property C67 (group-by on whole columns).
`m` shows the pandas frame `df` and `by'` names columns of it.  `Frame.groupCalc` and `Frame.groupAggFlat` (Verif/Pandas/GroupAgg.lean)
are pandas' grouping of the whole frame; `G` holds `sort` and `dropna`.
-/

variable {ι κ α : Type}

section C67
variable [DecidableEq ι] [DecidableEq κ] [DecidableEq α] (cfg : Cfg) (hp : 1 ≤ cfg.nPartitions) (hmr : 1 ≤ cfg.minRow) (hmc : 1 ≤ cfg.minCol)
  (known : Nat → Nat → Bool × Bool) (nan : α) (G : Grouping (List α)) {by' : List κ} (hb : by' ≠ []) (hn : by'.Nodup)
  {m : LFrame ι κ α} {df : Frame ι κ α} (hm : m.Shows df) (hr : 0 < df.nrows)
include hp hmr hmc hb hn hm hr

/-- **C67 (one function).** `df.groupby(by).agg(f)`: for any function of a group's cells, any division of the frame and any state of
    its labels, what pandas computes of the whole frame. -/
theorem C67_function (f : List α → α) {r : Frame (List α) κ α}
    (h : df.groupCalc (fun keys _ => G.groups keys) by' (.each fun c => [(c, perGroup G f)]) = some r) :
    ∃ m', m.groupAgg cfg known nan G id by' false (.each fun c => [(c, f)]) = some m' ∧ m'.Shows r ∧ m'.toPandas nan = some r := by
  obtain ⟨keys, hk, rfl⟩ := groupCalc_some h
  obtain ⟨cw, m', _, h2, h3⟩ := groupAgg_shows cfg hp hmr hmc known nan
    (Frame.groupCalc (fun keys _ => G.groups keys) by' (.each fun c => [(c, perGroup G f)])) (fun keys _ => G.groups keys) id hb hn false
    (.each fun c => [(c, perGroup G f)]) hm hr hk (fun l hl => nomatch hl)
    (fits_perGroup G (.each fun c => [(c, f)]) keys _)
    (fun c _ hcb g hg k hk' e => hcb (by
      simp only [List.mem_singleton] at hg
      subst hg
      have : c = k := e
      rw [this]; exact hk'))
    (fun h0 => absurd rfl h0)
  exact ⟨m', h2, h3, (h3.observed nan).1⟩

/-- **C67 (one function, `as_index=False`).** The key columns are columns of the result, once and in front. -/
theorem C67_function_flat (f : List α → α) {r : Frame Nat κ α}
    (h : df.groupAggFlat G id by' (.each fun c => [(c, perGroup G f)]) = some r) :
    ∃ m', m.groupAggFlat cfg known nan G id by' false (.each fun c => [(c, f)]) = some m' ∧ m'.Shows r ∧ m'.toPandas nan = some r := by
  obtain ⟨r0, h0, rfl⟩ := Option.map_eq_some_iff.1 h
  obtain ⟨keys, hk, rfl⟩ := groupCalc_some h0
  obtain ⟨cw, m', _, h2, h3⟩ := groupAggFlat_shows cfg hp hmr hmc known nan
    (Frame.groupAggFlat G id by' (.each fun c => [(c, perGroup G f)])) G id hb hn false
    (.each fun c => [(c, perGroup G f)]) hm hr hk (fun l hl => nomatch hl)
    (fits_perGroup G (.each fun c => [(c, f)]) keys _)
    (fun c _ hcb g hg k hk' e => hcb (by
      simp only [List.mem_singleton] at hg
      subst hg
      have : c = k := e
      rw [this]; exact hk'))
    (fun h0 => absurd rfl h0)
  exact ⟨m', h2, h3, (h3.observed nan).1⟩

/-- **C67 (a list of functions).** `df.groupby(by).agg([f, g])`: columns `(c, "f")`, `(c, "g")` for every column `c` not grouped on;
    there is one. -/
theorem C67_list {ν : Type} [DecidableEq ν] (none' : ν) (fs : List (ν × (List α → α))) (hc : ∃ c ∈ df.columns, c ∉ by')
    {r : Frame (List α) (κ × ν) α}
    (h : df.groupCalc (fun keys _ => G.groups keys) by' (.each fun c => fs.map fun f => ((c, f.1), perGroup G f.2)) = some r) :
    ∃ m', m.groupAgg cfg known nan G (fun c => (c, none')) by' true (.each fun c => fs.map fun f => ((c, f.1), f.2)) = some m' ∧
      m'.Shows r ∧ m'.toPandas nan = some r := by
  have hsp : (GroupSpec.each fun c => fs.map fun f => ((c, f.1), f.2)).map (perGroup G) =
      GroupSpec.each fun c : κ => fs.map fun f => ((c, f.1), perGroup G f.2) := by
    simp only [GroupSpec.map, List.map_map]
    rfl
  obtain ⟨keys, hk, rfl⟩ := groupCalc_some h
  obtain ⟨cw, m', _, h2, h3⟩ := groupAgg_shows cfg hp hmr hmc known nan
    (Frame.groupCalc (fun keys _ => G.groups keys) by' (.each fun c => fs.map fun f => ((c, f.1), perGroup G f.2)))
    (fun keys _ => G.groups keys) (fun c => (c, none')) hb hn true
    (.each fun c => fs.map fun f => ((c, f.1), perGroup G f.2)) hm hr hk (fun l hl => by
      obtain ⟨c, h1, h2⟩ := hc
      cases hl
      exact ⟨List.ne_nil_of_mem ((indexDifference_mem _ _ c).2 ⟨h1, h2⟩), fun x hx => ((indexDifference_mem _ _ x).1 hx).1⟩)
    (by rw [← hsp]; exact fits_perGroup G _ keys _)
    (fun c _ hcb g hg k hk' e => hcb (by
      obtain ⟨x, _, rfl⟩ := List.mem_map.1 hg
      have : c = k := congrArg Prod.fst e
      rw [this]; exact hk'))
    (fun h0 => absurd rfl h0)
  refine ⟨m', ?_, h3, (h3.observed nan).1⟩
  unfold LFrame.groupAgg
  rw [hsp]
  exact h2

/-- **C67 (a list of functions, `as_index=False`).** The key columns are labelled `(c, "")`. -/
theorem C67_list_flat {ν : Type} [DecidableEq ν] (none' : ν) (fs : List (ν × (List α → α))) (hc : ∃ c ∈ df.columns, c ∉ by')
    {r : Frame Nat (κ × ν) α}
    (h : df.groupAggFlat G (fun c => (c, none')) by' (.each fun c => fs.map fun f => ((c, f.1), perGroup G f.2)) = some r) :
    ∃ m', m.groupAggFlat cfg known nan G (fun c => (c, none')) by' true (.each fun c => fs.map fun f => ((c, f.1), f.2)) = some m' ∧
      m'.Shows r ∧ m'.toPandas nan = some r := by
  have hsp : (GroupSpec.each fun c => fs.map fun f => ((c, f.1), f.2)).map (perGroup G) =
      GroupSpec.each fun c : κ => fs.map fun f => ((c, f.1), perGroup G f.2) := by
    simp only [GroupSpec.map, List.map_map]
    rfl
  obtain ⟨r0, h0, rfl⟩ := Option.map_eq_some_iff.1 h
  obtain ⟨keys, hk, rfl⟩ := groupCalc_some h0
  obtain ⟨cw, m', _, h2, h3⟩ := groupAggFlat_shows cfg hp hmr hmc known nan
    (Frame.groupAggFlat G (fun c => (c, none')) by' (.each fun c => fs.map fun f => ((c, f.1), perGroup G f.2)))
    G (fun c => (c, none')) hb hn true
    (.each fun c => fs.map fun f => ((c, f.1), perGroup G f.2)) hm hr hk (fun l hl => by
      obtain ⟨c, h1, h2⟩ := hc
      cases hl
      exact ⟨List.ne_nil_of_mem ((indexDifference_mem _ _ c).2 ⟨h1, h2⟩), fun x hx => ((indexDifference_mem _ _ x).1 hx).1⟩)
    (by rw [← hsp]; exact fits_perGroup G _ keys _)
    (fun c _ hcb g hg k hk' e => hcb (by
      obtain ⟨x, _, rfl⟩ := List.mem_map.1 hg
      have : c = k := congrArg Prod.fst e
      rw [this]; exact hk'))
    (fun h0 => absurd rfl h0)
  refine ⟨m', ?_, h3, (h3.observed nan).1⟩
  unfold LFrame.groupAggFlat
  rw [hsp]
  exact h2

omit [DecidableEq ι] hp hmr hmc hb hn hm hr in
theorem groupDict_labels {ℓ : Type} (isList : Bool) {d : List (κ × List (ℓ × (List α → α)))} (hd : d ≠ []) {columns : List κ}
    (hc : ∀ e ∈ d, e.1 ∈ columns) :
    ∀ l, ((GroupSpec.dict d).map (perGroup G)).applyLabels isList by' columns = some l → l ≠ [] ∧ ∀ c ∈ l, c ∈ columns := by
  intro l hl
  simp only [GroupSpec.map, GroupSpec.applyLabels, List.map_map, Option.some.injEq] at hl
  subst hl
  refine ⟨by simpa using hd, ?_⟩
  intro c hcm
  obtain ⟨e, he, rfl⟩ := List.mem_map.1 hcm
  exact hc e he

/-- **C67 (a dictionary).** `df.groupby(by).agg({'a': ..., 'b': ...})` for entries listed in the order of the frame's columns, which
    are distinct.  Missing: other orders (`C67_dict_order`). -/
theorem C67_dict_partial {ℓ : Type} [DecidableEq ℓ] (key : κ → ℓ) {d : List (κ × List (ℓ × (List α → α)))} (hd : d ≠ []) (hu : df.columns.Nodup)
    (ho : (d.map (·.1)).Sublist df.columns) {r : Frame (List α) ℓ α}
    (h : df.groupCalc (fun keys _ => G.groups keys) by' ((GroupSpec.dict d).map (perGroup G)) = some r) :
    ∃ m', m.groupAgg cfg known nan G key by' false (.dict d) = some m' ∧ m'.Shows r ∧ m'.toPandas nan = some r := by
  obtain ⟨keys, hk, rfl⟩ := groupCalc_some h
  have hin : ∀ e ∈ d, e.1 ∈ df.columns := fun e he => ho.subset (List.mem_map.2 ⟨e, he, rfl⟩)
  obtain ⟨cw, m', h1, h2, h3⟩ := groupAgg_shows cfg hp hmr hmc known nan
    (Frame.groupCalc (fun keys _ => G.groups keys) by' ((GroupSpec.dict d).map (perGroup G)))
    (fun keys _ => G.groups keys) key hb hn false ((GroupSpec.dict d).map (perGroup G)) hm hr hk
    (groupDict_labels G false hd hin) (fits_perGroup G (.dict d) keys _) (apart_map _ (spec := .dict d) trivial) (fun _ => hu)
  have hdiv : ((GroupSpec.dict d).map (perGroup G)).divided cw df.columns = (GroupSpec.dict d).map (perGroup G) :=
    divided_ordered h1 hu (by simpa [Function.comp_def] using ho)
  rw [hdiv] at h3
  exact ⟨m', h2, h3, (h3.observed nan).1⟩

/-- **C67 (a dictionary, `as_index=False`).** -/
theorem C67_dict_flat_partial {ℓ : Type} [DecidableEq ℓ] (key : κ → ℓ) {d : List (κ × List (ℓ × (List α → α)))} (hd : d ≠ [])
    (hu : df.columns.Nodup) (ho : (d.map (·.1)).Sublist df.columns) {r : Frame Nat ℓ α}
    (h : df.groupAggFlat G key by' ((GroupSpec.dict d).map (perGroup G)) = some r) :
    ∃ m', m.groupAggFlat cfg known nan G key by' false (.dict d) = some m' ∧ m'.Shows r ∧ m'.toPandas nan = some r := by
  obtain ⟨r0, h0, rfl⟩ := Option.map_eq_some_iff.1 h
  obtain ⟨keys, hk, rfl⟩ := groupCalc_some h0
  have hin : ∀ e ∈ d, e.1 ∈ df.columns := fun e he => ho.subset (List.mem_map.2 ⟨e, he, rfl⟩)
  obtain ⟨cw, m', h1, h2, h3⟩ := groupAggFlat_shows cfg hp hmr hmc known nan
    (Frame.groupAggFlat G key by' ((GroupSpec.dict d).map (perGroup G))) G key hb hn false ((GroupSpec.dict d).map (perGroup G)) hm hr hk
    (groupDict_labels G false hd hin) (fits_perGroup G (.dict d) keys _) (apart_map _ (spec := .dict d) trivial) (fun _ => hu)
  have hdiv : ((GroupSpec.dict d).map (perGroup G)).divided cw df.columns = (GroupSpec.dict d).map (perGroup G) :=
    divided_ordered h1 hu (by simpa [Function.comp_def] using ho)
  rw [hdiv] at h3
  exact ⟨m', h2, h3, (h3.observed nan).1⟩

/-- **C67 (a dictionary in any order).** The groups are pandas', and the columns, with their labels and cells, are pandas' in some
    order. -/
theorem C67_dict_columns {ℓ : Type} [DecidableEq ℓ] (key : κ → ℓ) {d : List (κ × List (ℓ × (List α → α)))} (hd : d ≠ []) (hu : df.columns.Nodup)
    (hin : ∀ e ∈ d, e.1 ∈ df.columns) {r : Frame (List α) ℓ α}
    (h : df.groupCalc (fun keys _ => G.groups keys) by' ((GroupSpec.dict d).map (perGroup G)) = some r) :
    ∃ m' r', m.groupAgg cfg known nan G key by' false (.dict d) = some m' ∧ m'.Shows r' ∧ m'.toPandas nan = some r' ∧
      r'.index = r.index ∧ r'.named.Perm r.named := by
  obtain ⟨keys, hk, rfl⟩ := groupCalc_some h
  have hfit := fits_perGroup G (.dict d) keys df.index.length
  obtain ⟨cw, m', h1, h2, h3⟩ := groupAgg_shows cfg hp hmr hmc known nan
    (Frame.groupCalc (fun keys _ => G.groups keys) by' ((GroupSpec.dict d).map (perGroup G)))
    (fun keys _ => G.groups keys) key hb hn false ((GroupSpec.dict d).map (perGroup G)) hm hr hk
    (groupDict_labels G false hd hin) hfit (apart_map _ (spec := .dict d) trivial) (fun _ => hu)
  refine ⟨m', _, h2, h3, (h3.observed nan).1, rfl, ?_⟩
  have hp := divided_perm (d := d.map fun e => (e.1, e.2.map fun f => (f.1, perGroup G f.2))) h1 hu
    (by intro e he; obtain ⟨x, hx, rfl⟩ := List.mem_map.1 he; exact hin x hx) by' keys df.named
  have hs := cols_sized hfit by' (Frame.named_sized hm.wf)
  rw [named_ofCols hs, named_ofCols]
  · exact hp
  · intro c hc
    exact hs c (hp.mem_iff.1 hc)

/-- **C67 (transformations).** `df.groupby(by).transform(t)`, `cumsum`, `shift`, ...: every row keeps its label and gets its cell of
    what `t` makes of its group. -/
theorem C67_transform (t : List α → List α) {r : Frame ι κ α}
    (h : df.groupCalc (fun _ index => index) by' (.each fun c => [(c, perRow G nan t)]) = some r) :
    ∃ m', m.groupTransform cfg known nan G by' t = some m' ∧ m'.Shows r ∧ m'.toPandas nan = some r := by
  obtain ⟨keys, hk, rfl⟩ := groupCalc_some h
  obtain ⟨cw, m', _, h2, h3⟩ := groupAgg_shows cfg hp hmr hmc known nan
    (Frame.groupCalc (fun _ index => index) by' (.each fun c => [(c, perRow G nan t)])) (fun _ index => index) id hb hn false
    (.each fun c => [(c, perRow G nan t)]) hm hr hk (fun l hl => nomatch hl)
    (by rw [← groupKeys_length hk]; exact fits_perRow G nan (.each fun c => [(c, t)]) keys _)
    (fun c _ hcb g hg k hk' e => hcb (by
      simp only [List.mem_singleton] at hg
      subst hg
      have : c = k := e
      rw [this]; exact hk'))
    (fun h0 => absurd rfl h0)
  exact ⟨m', h2, h3, (h3.observed nan).1⟩

end C67

namespace GroupAggDemo

/-- three column partitions, the key column `"k"` in the second -/
def demo : Frame Nat String (Option Int) :=
  { index := [7, 8, 9, 9], columns := ["a", "k", "b", "c"],
    rows := [[some 1, some 5, some 10, some 0], [some 2, some 4, some 20, some 1], [some 3, some 5, some 30, some 2], [some 4, none, some 40, some 3]] }

def held : LFrame Nat String (Option Int) := ⟨⟨demo.cut [1, 3] [1, 1, 2], none, some demo.columns, none, some [1, 1, 2]⟩, false, false⟩

theorem held_shows : held.Shows demo :=
  ⟨⟨by decide, by decide⟩, ⟨demo, [1, 3], [1, 1, 2], ⟨by decide, by decide⟩, rfl, rfl, ⟨by decide, by decide, by decide, by decide⟩, rfl,
    Or.inl rfl, Or.inr rfl, fun _ => rfl, fun _ => rfl⟩, Or.inl ⟨rfl, rfl⟩, Or.inr rfl⟩

/-- the first cell, and how many there are -/
def first (l : List (Option Int)) : Option Int := l.head?.getD none
def many (l : List (Option Int)) : Option Int := some l.length

def G : Grouping (List (Option Int)) := pandasGrouping true true

def byK : Frame (List (Option Int)) String (Option Int) :=
  { index := [[some 4], [some 5]], columns := ["a", "b", "c"], rows := [[some 2, some 20, some 1], [some 1, some 10, some 0]] }

example : demo.groupCalc (fun keys _ => G.groups keys) ["k"] (.each fun c => [(c, perGroup G first)]) = some byK := by decide +kernel

example : ∃ m', held.groupAgg ⟨4, 1, 1⟩ (fun _ _ => (false, false)) none G id ["k"] false (.each fun c => [(c, first)]) = some m' ∧
    m'.toPandas none = some byK := by
  obtain ⟨m', a, _, b⟩ := C67_function ⟨4, 1, 1⟩ (by decide) (by decide) (by decide) (fun _ _ => (false, false)) none G (by' := ["k"]) (by decide)
    (by decide) held_shows (by decide) first (r := byK) (by decide +kernel)
  exact ⟨m', a, b⟩

def byKFlat : Frame Nat (String × String) (Option Int) :=
  { index := [0, 1], columns := [("k", ""), ("a", "first"), ("a", "many"), ("b", "first"), ("b", "many"), ("c", "first"), ("c", "many")],
    rows := [[some 4, some 2, some 1, some 20, some 1, some 1, some 1], [some 5, some 1, some 2, some 10, some 2, some 0, some 2]] }

example : ∃ m', held.groupAggFlat ⟨4, 1, 1⟩ (fun _ _ => (false, false)) none G (fun c => (c, "")) ["k"] true
      (.each fun c => [("first", first), ("many", many)].map fun f => ((c, f.1), f.2)) = some m' ∧
    m'.toPandas none = some byKFlat := by
  obtain ⟨m', a, _, b⟩ := C67_list_flat ⟨4, 1, 1⟩ (by decide) (by decide) (by decide) (fun _ _ => (false, false)) none G (by' := ["k"]) (by decide)
    (by decide) held_shows (by decide) "" [("first", first), ("many", many)] ⟨"a", by decide, by decide⟩ (r := byKFlat) (by decide +kernel)
  exact ⟨m', a, b⟩

/-- the sums of the cells from the top -/
def running (l : List (Option Int)) : List (Option Int) := (List.range l.length).map fun i => some ((l.take (i + 1)).filterMap id).sum

def summed : Frame Nat String (Option Int) :=
  { index := [7, 8, 9, 9], columns := ["a", "b", "c"],
    rows := [[some 1, some 10, some 0], [some 2, some 20, some 1], [some 4, some 40, some 2], [none, none, none]] }

example : ∃ m', held.groupTransform ⟨4, 1, 1⟩ (fun _ _ => (false, false)) none G ["k"] running = some m' ∧ m'.toPandas none = some summed := by
  obtain ⟨m', a, _, b⟩ := C67_transform ⟨4, 1, 1⟩ (by decide) (by decide) (by decide) (fun _ _ => (false, false)) none G (by' := ["k"]) (by decide)
    (by decide) held_shows (by decide) running (r := summed) (by decide +kernel)
  exact ⟨m', a, b⟩

def inOrder : List (String × List (String × (List (Option Int) → Option Int))) := [("a", [("a", first)]), ("k", [("k", many)]), ("c", [("c", many)])]

def byDict : Frame Nat String (Option Int) :=
  { index := [0, 1], columns := ["a", "k", "c"], rows := [[some 2, some 1, some 1], [some 1, some 2, some 2]] }

/-- the key column is aggregated itself and not put in front -/
example : ∃ m', held.groupAggFlat ⟨4, 1, 1⟩ (fun _ _ => (false, false)) none G id ["k"] false (.dict inOrder) = some m' ∧
    m'.toPandas none = some byDict := by
  obtain ⟨m', a, _, b⟩ := C67_dict_flat_partial ⟨4, 1, 1⟩ (by decide) (by decide) (by decide) (fun _ _ => (false, false)) none G (by' := ["k"])
    (by decide) (by decide) held_shows (by decide) id (d := inOrder) (by decide) (by decide) (by decide) (r := byDict) (by decide +kernel)
  exact ⟨m', a, b⟩

example : demo.groupCalc (fun keys _ => G.groups keys) ["k", "z"] (.each fun c => [(c, perGroup G first)]) = none := by decide +kernel

end GroupAggDemo

open GroupAggDemo in
/-- **C67, violated.** `df.groupby('k').agg({'b': f, 'a': f})` with `a` and `b` in different column partitions: pandas lists `b`
    first as the dictionary does, Modin lists `a` first. -/
theorem C67_dict_order :
    held.Shows demo ∧
    demo.groupCalc (fun keys _ => G.groups keys) ["k"] ((GroupSpec.dict [("b", [("b", first)]), ("a", [("a", first)])]).map (perGroup G)) =
      some { index := [[some 4], [some 5]], columns := ["b", "a"], rows := [[some 20, some 2], [some 10, some 1]] } ∧
    (held.groupAgg ⟨4, 1, 1⟩ (fun _ _ => (false, false)) none G id ["k"] false (.dict [("b", [("b", first)]), ("a", [("a", first)])])).bind
      (·.toPandas none) =
      some { index := [[some 4], [some 5]], columns := ["a", "b"], rows := [[some 2, some 20], [some 1, some 10]] } :=
  ⟨held_shows, by decide +kernel, by decide +kernel⟩
