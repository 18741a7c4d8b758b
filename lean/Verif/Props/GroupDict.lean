import Verif.Lemmas.GroupDict
/-
C92: `df.groupby(labels).agg({...})` and `df.groupby(labels).agg(x=(column, function), ...)` by map and reduce.
-/

variable {ι κ α K β γ ℓ φ : Type}

/-- **C92 (what a dictionary means).**  The rows are the groups.  Of a frame with distinct column labels the result has, in the
    dictionary's order, one column per function of every entry, with the label given for it, and in the row of a group stands the
    function of the cells that the entry's column has in the group's rows. -/
theorem C92_meaning [DecidableEq κ] [DecidableEq K] (G : Grouping K) (keys : List K) (h : φ → List α → γ) (d : List (κ × List (ℓ × φ)))
    (df : Frame ι κ α) (hu : df.columns.Nodup) (hd : ∀ e ∈ d, e.1 ∈ df.columns) :
    (df.aggDict G keys h d).index = G.groups keys ∧
    (df.aggDict G keys h d).columns = (d.flatMap (·.2)).map (·.1) ∧
    (∀ e ∈ d, ∀ f ∈ e.2, ∀ j, df.columns[j]? = some e.1 →
      (f.1, (G.groups keys).map fun k => h f.2 (cellsAt k keys (df.column j))) ∈ (df.aggDict G keys h d).named) := by
  have hN : (df.named.map (·.1)).Nodup := by rw [named_labels]; exact hu
  have hd' : ∀ e ∈ d, e.1 ∈ df.named.map (·.1) := by rw [named_labels]; exact hd
  refine ⟨rfl, ?_, ?_⟩
  · unfold Frame.aggDict Frame.ofCols
    rw [dictPicks_cellsOf hN hd']
    simp only [List.map_flatMap, List.map_map, Function.comp_def]
  · intro e he f hf j hj
    unfold Frame.aggDict
    rw [named_ofCols (by
      intro c hc
      obtain ⟨x, _, rfl⟩ := List.mem_map.1 hc
      simp)]
    refine List.mem_map.2 ⟨(f, df.column j), ?_, rfl⟩
    have hjl : j < df.columns.length := (List.getElem?_eq_some_iff.1 hj).1
    have hcol : (e.1, df.column j) ∈ df.named := by
      refine List.mem_of_getElem? (i := j) ?_
      unfold Frame.named Frame.cols
      rw [List.getElem?_zip_eq_some]
      refine ⟨hj, ?_⟩
      rw [List.getElem?_map, List.getElem?_range (by exact hjl)]
      rfl
    unfold dictPicks
    refine List.mem_flatMap.2 ⟨e, he, List.mem_flatMap.2 ⟨(e.1, df.column j), ?_, List.mem_map.2 ⟨f, hf, rfl⟩⟩⟩
    exact List.mem_filter.2 ⟨hcol, by simp⟩

section C92
variable [DecidableEq ι] [DecidableEq κ] [DecidableEq α] [DecidableEq ℓ] (cfg : Cfg) (hp : 1 ≤ cfg.nPartitions) (hmr : 1 ≤ cfg.minRow)
  (hmc : 1 ≤ cfg.minCol) (known : Nat → Nat → Bool × Bool) (G : Bool → Grouping (List α)) (hG : (G true).Ordered) (m : MFrame ι κ α)
  (df : Frame ι κ α) (hm : m.Represents df) (hrows : ∀ rl, m.rowLens = some rl → 0 ∉ rl) (na : α) (sort : Bool) (hu : df.columns.Nodup)
  (hne : df.index ≠ []) (labels : List κ) (hl : ∀ k ∈ labels, k ∈ df.columns) (hln : labels.Nodup)
  (impl : φ → TreeOp α β γ) (h : φ → List α → γ)
  (hlaw : ∀ f, ∀ bs : List (List α), bs ≠ [] → (∀ b ∈ bs, b ≠ []) → (impl f).reduce (bs.map (impl f).map) = h f bs.flatten)
include hp hmr hmc hG hm hrows hu hne hl hln hlaw

/-- **C92 (a dictionary).**  For every non-empty frame with distinct column labels, however cut, and functions that can be computed from their
    values on parts: `df.groupby(labels).agg({...})` is pandas', if the dictionary lists columns in the frame's order or the frame has one
    block column.  Missing: other orders (`C92_order`), and `sort=False`, where the groups still stand sorted. -/
theorem C92_dict_partial (d : List (κ × List (ℓ × φ))) (hd : d ≠ []) (hin : ∀ e ∈ d, e.1 ∈ df.columns)
    (hn : ((d.flatMap (·.2)).map (·.1)).Nodup) (ho : (d.map (·.1)).Sublist df.columns ∨ ∀ row ∈ m.parts, row.length = 1) :
    ∃ m', groupbyAggDict cfg known G impl na sort labels d m = some m' ∧
      m'.Represents (df.aggDict (G true) (df.takeCols (labels.flatMap (positionsOf df.columns))).rows h d) := by
  obtain ⟨cw, m', c1, c2, c3, c4⟩ := groupbyAggDict_spec cfg hp hmr hmc known G hG hm hrows na sort hu hne hl hln impl h hd hin hn
    (fun f _ => hlaw f.2)
  refine ⟨m', c2, ?_⟩
  rcases ho with ho | ho
  · rwa [bands_ordered c1.symm hu ho] at c3
  · rwa [bands_one c1.symm ?_ hin] at c3
    rw [← c4]
    obtain ⟨rl, cw', hcut, hparts, -⟩ := hm.blocks
    cases hrow : m.parts with
    | nil =>
      exfalso
      rw [hparts] at hrow
      have := congrArg List.length hrow
      rw [Frame.cut, List.length_map] at this
      exact absurd (List.length_eq_zero_iff.1 this) (sliceBounds_ne_nil hcut.rl_ne)
    | cons r rs => simpa using ho r (by rw [hrow]; simp)

/-- **C92 (a dictionary in any order).**  The groups are pandas' and so are the columns, with their labels and cells, up to their order. -/
theorem C92_columns (d : List (κ × List (ℓ × φ))) (hd : d ≠ []) (hin : ∀ e ∈ d, e.1 ∈ df.columns)
    (hn : ((d.flatMap (·.2)).map (·.1)).Nodup) :
    ∃ m' R, groupbyAggDict cfg known G impl na sort labels d m = some m' ∧ m'.Represents R ∧
      R.index = (df.aggDict (G true) (df.takeCols (labels.flatMap (positionsOf df.columns))).rows h d).index ∧
      R.named.Perm (df.aggDict (G true) (df.takeCols (labels.flatMap (positionsOf df.columns))).rows h d).named := by
  obtain ⟨cw, m', c1, c2, c3, -⟩ := groupbyAggDict_spec cfg hp hmr hmc known G hG hm hrows na sort hu hne hl hln impl h hd hin hn
    (fun f _ => hlaw f.2)
  refine ⟨m', _, c2, c3, rfl, ?_⟩
  unfold Frame.aggDict
  rw [named_ofCols, named_ofCols]
  · exact ((bands_perm c1.symm hu hin).flatMap_right _).map _
  all_goals
    intro c hc
    obtain ⟨x, _, rfl⟩ := List.mem_map.1 hc
    simp

/-- **C92 (named arguments).**  `df.groupby(labels).agg(x=("c", f), y=("d", g), ...)` with different pairs of column and function: pandas'
    result, columns in the order of the arguments, whatever the division of the frame.  `pair`: the label of a column of the dictionary's
    result.  Missing (hence `_partial`): `sort=False`, and the same function of the same column asked for twice. -/
theorem C92_named_partial (nan : γ) (pair : κ → φ → ℓ) (spec : List (ℓ × κ × φ)) (hs : spec ≠ []) (hin : ∀ s ∈ spec, s.2.1 ∈ df.columns)
    (hn : (spec.map fun s => pair s.2.1 s.2.2).Nodup) :
    ∃ r, groupbyAggNamed cfg known G impl na sort labels pair spec m = some r ∧ r.toPandas nan =
      some (df.aggNamed (G true) (df.takeCols (labels.flatMap (positionsOf df.columns))).rows h spec) := by
  obtain ⟨r, r1, r2⟩ := groupbyAggNamed_spec cfg hp hmr hmc known G hG hm hrows na sort hu hne hl hln impl h nan pair hs hin hn hlaw
  exact ⟨r, r1, (r2.observed nan).1⟩

end C92

/-- **C92 (the names).**  The functions known by name (`sum`, `prod`, `min`, `max`, `count`, `size`, `mean`) can be computed so, also mixed. -/
theorem C92_names [DecidableEq ι] [DecidableEq κ] [DecidableEq ℓ] (cfg : Cfg) (hp : 1 ≤ cfg.nPartitions) (hmr : 1 ≤ cfg.minRow)
    (hmc : 1 ≤ cfg.minCol) (known : Nat → Nat → Bool × Bool) (dropna : Bool) (m : MFrame ι κ (Option Int)) (df : Frame ι κ (Option Int))
    (hm : m.Represents df) (hrows : ∀ rl, m.rowLens = some rl → 0 ∉ rl) (hu : df.columns.Nodup) (hne : df.index ≠ []) (labels : List κ)
    (hl : ∀ k ∈ labels, k ∈ df.columns) (hln : labels.Nodup) (pair : κ → AggName → ℓ) (spec : List (ℓ × κ × AggName)) (hs : spec ≠ [])
    (hin : ∀ s ∈ spec, s.2.1 ∈ df.columns) (hn : (spec.map fun s => pair s.2.1 s.2.2).Nodup) :
    ∃ r, groupbyAggNamed cfg known (fun s => pandasGrouping s dropna) aggImpl none true labels pair spec m = some r ∧ r.toPandas none =
      some (df.aggNamed (pandasGrouping true dropna) (df.takeCols (labels.flatMap (positionsOf df.columns))).rows AggName.value spec) :=
  C92_named_partial cfg hp hmr hmc known (fun s => pandasGrouping s dropna) (pandasGrouping_ordered true dropna) m df hm hrows none true hu hne
    labels hl hln aggImpl AggName.value (fun f bs _ _ => aggImpl_law f bs) none pair spec hs hin hn

namespace GroupDictDemo

/-- a frame of five rows and three columns, cut into blocks of two and three rows, `a` and `b` in different block columns -/
def demo : Frame Nat String (Option Int) :=
  { index := [0, 1, 2, 3, 4], columns := ["k", "a", "b"],
    rows := [[some 2, some 1, some 10], [some 1, none, some 20], [some 2, some 4, some 30], [none, some 5, some 40], [some 1, none, none]] }

def held : MFrame Nat String (Option Int) :=
  { parts := demo.cut [2, 3] [2, 1], index := some demo.index, columns := some demo.columns, rowLens := some [2, 3], colWidths := none }

theorem held_represents : held.Represents demo :=
  ⟨⟨by decide, by decide⟩, ⟨[2, 3], [2, 1], ⟨by decide, by decide, by decide, by decide⟩, rfl, Or.inr rfl, Or.inl rfl⟩, Or.inr rfl, Or.inr rfl⟩

/-- `agg({"a": ["sum", "count"], "b": ["mean"]})`, labels as text -/
def dict : List (String × List (String × AggName)) := [("a", [("a sum", .sum), ("a count", .count)]), ("b", [("b mean", .mean)])]

example := C92_dict_partial ⟨2, 1, 1⟩ (by decide) (by decide) (by decide) (fun _ _ => (false, false)) (fun s => pandasGrouping s true)
  (pandasGrouping_ordered true true) held demo held_represents (by decide) none true (by decide) (by decide) ["k"] (by decide) (by decide)
  aggImpl AggName.value (fun f bs _ _ => aggImpl_law f bs) dict (by decide) (by decide) (by decide) (Or.inl (by decide))

example := C92_columns ⟨2, 1, 1⟩ (by decide) (by decide) (by decide) (fun _ _ => (false, false)) (fun s => pandasGrouping s true)
  (pandasGrouping_ordered true true) held demo held_represents (by decide) none true (by decide) (by decide) ["k"] (by decide) (by decide)
  aggImpl AggName.value (fun f bs _ _ => aggImpl_law f bs) dict.reverse (by decide) (by decide) (by decide)

example : demo.aggDict (pandasGrouping true true) (demo.takeCols (["k"].flatMap (positionsOf demo.columns))).rows AggName.value dict =
    { index := [[some 1], [some 2]], columns := ["a sum", "a count", "b mean"],
      rows := [[some 0, some 0, some 20], [some 5, some 2, some 20]] } := by decide +kernel

/-- `agg(y=("b", "max"), x=("a", "min"), z=("b", "size"))` -/
def args : List (String × String × AggName) := [("y", "b", .max), ("x", "a", .min), ("z", "b", .size)]

def pairOf (c : String) (f : AggName) : String :=
  c ++ (match f with | .sum => "+" | .prod => "*" | .min => "<" | .max => ">" | .count => "#" | .size => "##" | .mean => "~")

example := C92_names ⟨2, 1, 1⟩ (by decide) (by decide) (by decide) (fun _ _ => (false, false)) true held demo held_represents (by decide)
  (by decide) (by decide) ["k"] (by decide) (by decide) pairOf args (by decide) (by decide) (by decide)

example : demo.aggNamed (pandasGrouping true true) (demo.takeCols (["k"].flatMap (positionsOf demo.columns))).rows AggName.value args =
    { index := [[some 1], [some 2]], columns := ["y", "x", "z"], rows := [[some 20, none, some 2], [some 30, some 1, some 2]] } := by
  decide +kernel

/-- **C92, violated.**  `df.groupby("k").agg({"b": "mean", "a": ["sum", "count"]})` with `a` and `b` in different column partitions: pandas
    lists the columns as the dictionary does, Modin as the frame does. -/
theorem C92_order :
    (demo.aggDict (pandasGrouping true true) (demo.takeCols (["k"].flatMap (positionsOf demo.columns))).rows AggName.value dict.reverse).columns =
      ["b mean", "a sum", "a count"] ∧
    ((groupbyAggDict ⟨2, 1, 1⟩ (fun _ _ => (false, false)) (fun s => pandasGrouping s true) aggImpl none true ["k"] dict.reverse held).bind
      (·.toPandas none)).map (·.columns) = some ["a sum", "a count", "b mean"] := by decide +kernel

/-- **C92, violated.**  `df.groupby("k", sort=False).agg(...)`: the groups are sorted, pandas keeps their order of appearance. -/
theorem C92_unsorted :
    (demo.aggDict (pandasGrouping false true) (demo.takeCols (["k"].flatMap (positionsOf demo.columns))).rows AggName.value dict).index =
      [[some 2], [some 1]] ∧
    ((groupbyAggDict ⟨2, 1, 1⟩ (fun _ _ => (false, false)) (fun s => pandasGrouping s true) aggImpl none false ["k"] dict held).bind
      (·.toPandas none)).map (·.index) = some [[some 1], [some 2]] := by decide +kernel

end GroupDictDemo
