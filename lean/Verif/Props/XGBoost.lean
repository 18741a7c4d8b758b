import Verif.Lemmas.XGBoost
import Verif.Props.Partitions
/-
C66: distributed training and prediction with XGBoost.
-/

variable {ι κ α β A P : Type}

/-- **C66, sharing out.** Given at least as many row partitions as actors, whatever nodes they are on, every partition is given to
    exactly one actor, with its position; every actor gets one, and as many as any other up to one.  With fewer partitions than
    actors it raises. -/
theorem C66_assign [DecidableEq A] (actors : List A) (parts : List (A × P)) (hn : 0 < actors.length) :
    (actors.length ≤ parts.length → ∃ R, assignRowPartitions actors parts = some R ∧ R.length = actors.length ∧
      R.flatten.Perm ((parts.map (·.2)).zipIdx) ∧ (∀ l ∈ R, l ≠ []) ∧
      ∀ l ∈ R, ∀ l' ∈ R, l.length ≤ l'.length + 1) ∧
    (parts.length < actors.length → assignRowPartitions actors parts = none) := by
  obtain ⟨h1, h2⟩ := assign_spec actors parts hn
  refine ⟨?_, h2⟩
  intro hle
  obtain ⟨R, e, a, b, c, d⟩ := h1 hle
  refine ⟨R, e, a, b, c, ?_⟩
  intro l hl l' hl'
  obtain ⟨g1, g2, g3, g4⟩ := share_sizes parts.length actors.length hn
  have : (parts.length + actors.length - 1) / actors.length ≤ parts.length / actors.length + 1 := by
    by_cases hz : 0 < parts.length % actors.length
    · rw [g2 hz]; omega
    · have h0 : parts.length % actors.length = 0 := by omega
      rw [h0, Nat.add_zero] at g3
      generalize parts.length / actors.length = q at g3 ⊢
      rw [g3, Nat.add_sub_assoc (by omega), Nat.mul_add_div hn, Nat.div_eq_of_lt (by omega)]
      omega
  rcases d l hl with h | h <;> rcases d l' hl' with h' | h' <;> omega

example : assignRowPartitions ["a", "a", "b"] [("b", 'p'), ("b", 'q'), ("c", 'r'), ("b", 's'), ("a", 't')] =
    some [[('t', 4), ('s', 3)], [('r', 2)], [('p', 0), ('q', 1)]] := by decide +kernel

/-- A `DMatrix` of frames that are divided at the same places. -/
theorem C66_dmatrix [DecidableEq ι] [DecidableEq κ] (node : Nat → A) {x y : LFrame ι κ α} {dfx dfy : Frame ι κ α} (hx : x.Shows dfx)
    (hy : y.Shows dfy) :
    ∃ d, mkDMat node x (some y) = some d ∧
      ((∀ l, d.label = some l → l.map (·.nrows) = d.xs.map (·.nrows)) → d.Of dfx dfy) := by
  obtain ⟨d, e, a, b, _, _, _, f, g⟩ := mkDMat_spec node hx (y := some y) (dfy := dfy) (by intro m hm; cases hm; exact hy)
  refine ⟨d, e, ?_⟩
  intro hh
  obtain ⟨l, hl⟩ := Option.isSome_iff_exists.1 f
  exact ⟨⟨a, b⟩, l, hl, (g l hl).1, (g l hl).2, hh l hl⟩

/-- **C66, training.** On a cluster with no more nodes than there are row partitions, for any placement of the partitions and any
    (valid) number of actors: the actors together hold every row of the data with its label exactly once, and the same holds for
    every evaluation set.  Data and labels must be divided at the same places (see `C66_unaligned`), and the order of the evaluation
    sets is not kept (see `C66_evals_order`). -/
theorem C66_train_partial [DecidableEq A] [DecidableEq κ] (nodes : List A) (hne : nodes ≠ []) (minCpus : Nat) (numActors : Option Nat)
    (hk : ∀ k ∈ numActors, k % nodes.length = 0) {d : DMat ι κ α A} {x y : Frame ι κ α} (h : d.Of x y)
    (hd : nodes.length ≤ d.data.length) (evals : List (Option (DMat ι κ α A) × String))
    (he : ∀ e ∈ evals, ∀ de, e.1 = some de → nodes.length ≤ de.data.length ∧ ∃ xe ye, de.Of xe ye) :
    ∃ t, xgbTrain nodes minCpus numActors d evals = some t ∧ t.train.flatten.Perm (trainingSet x y) ∧
      (∀ de name xe ye, (some de, name) ∈ evals → de.Of xe ye →
        ∃ D, (name, D) ∈ t.evals ∧ D.length = t.train.length ∧ D.flatten.Perm (trainingSet xe ye)) ∧
      (∀ name, (none, name) ∈ evals → (∀ name', (none, name') ∈ evals → name' = name) → (name, t.train) ∈ t.evals) := by
  obtain ⟨lab, hlab, hywf, hyv, hh⟩ := h.label
  have hlen : d.data.length = lab.length := by
    have := congrArg List.length hh
    simpa [DMat.xs] using this.symm
  obtain ⟨k, hkk⟩ : ∃ k, getNumActors nodes.length minCpus numActors = some k := by
    cases numActors with
    | none => exact ⟨_, rfl⟩
    | some k => exact ⟨k, if_pos (hk k rfl)⟩
  unfold xgbTrain
  rw [hlab, Option.bind_some, if_pos hlen, hkk, Option.bind_some]
  simp only
  obtain ⟨f1, f2⟩ := foldl_min_le (fun e : Option (DMat ι κ α A) × String => (e.1.getD d).data.length) evals (min k d.data.length)
  generalize evals.foldl (fun k e => min k ((e.1.getD d).data.length)) (min k d.data.length) = K at f1 f2
  obtain ⟨t, ht, htl, htp⟩ := splitData_spec h (createActors nodes K) (createActors_pos hne K) (createActors_le nodes (by omega) hd)
  have hoth : ∀ e ∈ (evals.filterMap fun e => e.1.map fun x => (x, e.2)), ∃ D, splitData (createActors nodes K) e.1 = some D ∧
      D.length = t.length ∧ ∀ xe ye, e.1.Of xe ye → D.flatten.Perm (trainingSet xe ye) := by
    intro e hm
    obtain ⟨o, ho, hoe⟩ := List.mem_filterMap.1 hm
    obtain ⟨de, hde, rfl⟩ := Option.map_eq_some_iff.1 hoe
    obtain ⟨hn, xe, ye, hof⟩ := he o ho de hde
    have hkle := f2 o ho
    rw [hde] at hkle
    obtain ⟨D, e1, e2, e3⟩ := splitData_spec hof (createActors nodes K) (createActors_pos hne K) (createActors_le nodes hkle hn)
    refine ⟨D, e1, e2.trans htl.symm, ?_⟩
    intro xe' ye' hof'
    obtain ⟨D', e1', _, e3'⟩ := splitData_spec hof' (createActors nodes K) (createActors_pos hne K) (createActors_le nodes hkle hn)
    rw [show splitData (createActors nodes K) (de, o.2).1 = splitData (createActors nodes K) de from rfl] at *
    rw [e1] at e1'
    cases e1'
    exact e3'
  obtain ⟨es, hes, hmem⟩ : ∃ es, ((evals.filterMap fun e => e.1.map fun x => (x, e.2)).mapM fun e =>
      (splitData (createActors nodes K) e.1).map fun r => (e.2, r)) = some es ∧
      ∀ e ∈ (evals.filterMap fun e => e.1.map fun x => (x, e.2)), ∀ D, splitData (createActors nodes K) e.1 = some D → (e.2, D) ∈ es := by
    clear f1 f2 he
    generalize (evals.filterMap fun e => e.1.map fun x => (x, e.2)) = L at hoth
    induction L with
    | nil => exact ⟨[], rfl, by simp⟩
    | cons a as ih =>
      obtain ⟨es, hes, hm⟩ := ih (fun e he => hoth e (by simp [he]))
      obtain ⟨D, hD, _, _⟩ := hoth a (by simp)
      refine ⟨(a.2, D) :: es, ?_, ?_⟩
      · rw [List.mapM_cons, hD]
        simp only [Option.map_some]
        rw [hes]
        rfl
      · intro e he D' hD'
        rcases List.mem_cons.1 he with rfl | he
        · rw [hD] at hD'
          cases hD'
          simp
        · exact List.mem_cons_of_mem _ (hm e he D' hD')
  rw [hes, Option.bind_some, ht]
  refine ⟨_, rfl, htp, ?_, ?_⟩
  · intro de name xe ye hm hof
    have hmm : (de, name) ∈ (evals.filterMap fun e => e.1.map fun x => (x, e.2)) := List.mem_filterMap.2 ⟨_, hm, rfl⟩
    obtain ⟨D, e1, e2, e3⟩ := hoth (de, name) hmm
    exact ⟨D, List.mem_append.2 (Or.inl (hmem _ hmm D e1)), e2, e3 xe ye hof⟩
  · intro name hm hu
    refine List.mem_append.2 (Or.inr ?_)
    have hin : (none, name) ∈ evals.filter fun e => e.1.isNone := by simp [hm]
    obtain ⟨last, hlast⟩ : ∃ last, (evals.filter fun e => e.1.isNone).getLast? = some last := by
      cases hg : (evals.filter fun e => e.1.isNone).getLast? with
      | none => rw [List.getLast?_eq_none_iff.1 hg] at hin; cases hin
      | some v => exact ⟨v, rfl⟩
    have hlm := List.mem_of_getLast? hlast
    rw [List.mem_filter] at hlm
    have hn2 : last.2 = name := by
      apply hu
      have : last = (none, last.2) := by
        have := hlm.2
        simp only [Option.isNone_iff_eq_none] at this
        exact Prod.ext this rfl
      rw [← this]
      exact hlm.1
    simp [hlast, hn2]

/-- **C66, prediction.** If the booster predicts every row on its own (`f`, `width` values per row), the frame of predictions has the
    row labels of the data and in every row the prediction for that row, however the data is divided and labelled. -/
theorem C66_predict [DecidableEq ι] [DecidableEq κ] (nan : β) (node : Nat → A) {x : LFrame ι κ α} {df : Frame ι κ α} (hx : x.Shows df)
    (f : List α → List β) (width : Nat) (hf : ∀ r ∈ df.rows, (f r).length = width) (predict : List (List α) → List (List β))
    (hp : ∀ rows, predict rows = rows.map f) :
    ∃ d m, mkDMat node x none = some d ∧ xgbPredict predict width d = some m ∧ m.Shows ⟨df.index, List.range width, df.rows.map f⟩ ∧
      m.toPandas nan = some ⟨df.index, List.range width, df.rows.map f⟩ := by
  obtain ⟨d, e, a, b, hi, _, hr, _, _⟩ := mkDMat_spec node hx (y := none) (dfy := df) (by simp)
  obtain ⟨hne, hcol, hst⟩ := vcat_parts b
  have hrows : df.rows = (d.xs.map (·.rows)).flatten := congrArg Frame.rows hst
  have hidx : df.index = (d.xs.map (·.index)).flatten := congrArg Frame.index hst
  have hmk : (Parts.rows (d.data.map fun e => mapPredict predict (List.range width) e.2)).MakeUp
      (⟨df.index, List.range width, df.rows.map f⟩ : Frame ι Nat β) := by
    have hd : (d.data.map fun e => mapPredict predict (List.range width) e.2) = d.xs.map (mapPredict predict (List.range width)) := by
      simp [DMat.xs, Function.comp_def]
    rw [hd]
    constructor
    · intro g hg
      obtain ⟨b', hb', rfl⟩ := List.mem_map.1 hg
      constructor
      · simp only [mapPredict, hp, List.length_map]
        exact (a b' hb').rows_len
      · intro r hr'
        simp only [mapPredict, hp, List.mem_map] at hr'
        obtain ⟨r0, hr0, rfl⟩ := hr'
        simp only [mapPredict, List.length_range]
        apply hf
        rw [hrows]
        exact List.mem_flatten.2 ⟨_, List.mem_map.2 ⟨b', hb', rfl⟩, hr0⟩
    · rw [Frame.vcat_eq (c := List.range width) (by simpa using hne)]
      · simp only [List.map_map, Function.comp_def, mapPredict, hp, hidx, hrows, List.map_flatten]
      · intro g hg
        obtain ⟨b', _, rfl⟩ := List.mem_map.1 hg
        rfl
  obtain ⟨m, e', hm⟩ := from_spec hmk (some d.index) (some (List.range width)) (some d.rowLens) (some [width])
    (by intro i h; cases h; rw [hi]; rfl) (by intro i h; cases h; rfl)
    (by
      intro i h; cases h
      rw [hr]
      simp [Parts.heights, DMat.xs, mapPredict, Frame.nrows, Function.comp_def])
    (by
      intro i h; cases h
      have : d.data ≠ [] := by simpa [DMat.xs] using hne
      cases hdd : d.data with
      | nil => exact absurd hdd this
      | cons z zs => simp [Parts.widths, mapPredict, Frame.ncols])
  have he : (⟨(some d.index).getD df.index, (some (List.range width)).getD (List.range width), df.rows.map f⟩ : Frame ι Nat β) =
      ⟨df.index, List.range width, df.rows.map f⟩ := by simp [hi]
  rw [he] at hm
  exact ⟨d, m, e, e', hm, (hm.observed nan).1⟩

/-! ### concrete cases and witnesses -/

/-- data of four row partitions with one row each on the nodes a, b, a, b; the labels are ten times the data -/
def xgbDemo : DMat Nat String Int String :=
  ⟨[("a", ⟨[0], ["x"], [[1]]⟩), ("b", ⟨[1], ["x"], [[2]]⟩), ("a", ⟨[2], ["x"], [[3]]⟩), ("b", ⟨[3], ["x"], [[4]]⟩)],
   some [⟨[0], ["y"], [[10]]⟩, ⟨[1], ["y"], [[20]]⟩, ⟨[2], ["y"], [[30]]⟩, ⟨[3], ["y"], [[40]]⟩], [0, 1, 2, 3], ["x"], [1, 1, 1, 1]⟩

theorem xgbDemo_of : xgbDemo.Of ⟨[0, 1, 2, 3], ["x"], [[1], [2], [3], [4]]⟩ ⟨[0, 1, 2, 3], ["y"], [[10], [20], [30], [40]]⟩ :=
  ⟨⟨by intro f hf; simp [DMat.xs, xgbDemo] at hf; rcases hf with rfl | rfl | rfl | rfl <;> exact ⟨rfl, by decide⟩, rfl⟩,
   _, rfl, by intro f hf; simp at hf; rcases hf with rfl | rfl | rfl | rfl <;> exact ⟨rfl, by decide⟩, rfl, rfl⟩

example : ∃ t, xgbTrain ["a", "b"] 2 none xgbDemo [(none, "train"), (some xgbDemo, "again")] = some t ∧
    t.train.flatten.Perm [([1], [10]), ([2], [20]), ([3], [30]), ([4], [40])] := by
  obtain ⟨t, h1, h2, _⟩ := C66_train_partial ["a", "b"] (by decide) 2 none (by simp) xgbDemo_of (by decide)
    [(none, "train"), (some xgbDemo, "again")] (by
      intro e he de hde
      simp at he
      rcases he with rfl | rfl
      · cases hde
      · cases hde
        exact ⟨by decide, _, _, xgbDemo_of⟩)
  exact ⟨t, h1, h2⟩

example : (xgbTrain ["a", "b"] 2 none xgbDemo []).map (·.train) = some [[([1], [10]), ([3], [30])], [([2], [20]), ([4], [40])]] := by
  decide +kernel

/-- six rows; data in partitions of 1, 1, 2, 2 rows, labels (the row number times ten) in partitions of 2, 2, 1, 1 rows -/
def xgbUnaligned : DMat Nat String Int String :=
  ⟨[("a", ⟨[0], ["x"], [[0]]⟩), ("b", ⟨[1], ["x"], [[1]]⟩), ("a", ⟨[2, 3], ["x"], [[2], [3]]⟩), ("b", ⟨[4, 5], ["x"], [[4], [5]]⟩)],
   some [⟨[0, 1], ["y"], [[0], [10]]⟩, ⟨[2, 3], ["y"], [[20], [30]]⟩, ⟨[4], ["y"], [[40]]⟩, ⟨[5], ["y"], [[50]]⟩],
   [0, 1, 2, 3, 4, 5], ["x"], [1, 1, 2, 2]⟩

/-- **Witness.** If data and labels have equally many row partitions but are divided at different places, training goes ahead with rows
    paired with the labels of other rows. -/
theorem C66_unaligned : (xgbTrain ["a", "b"] 2 none xgbUnaligned []).map (·.train) =
    some [[([0], [0]), ([2], [10]), ([3], [40])], [([1], [20]), ([4], [30]), ([5], [50])]] := by decide +kernel

/-- **Witness.** Training raises if the cluster has more nodes than the data has row partitions. -/
theorem C66_more_nodes : xgbTrain ["a", "b", "c", "d", "e"] 2 none xgbDemo [] = none := by decide +kernel

/-- **Witness.** The training data given as the first evaluation set is evaluated last (early stopping looks at the last one), and it is
    removed from the caller's list. -/
theorem C66_evals_order : (xgbTrain ["a", "b"] 2 none xgbDemo [(none, "train"), (some xgbDemo, "valid")]).map
    (fun t => (t.evals.map (·.1), t.evalsLeft)) = some (["valid", "train"], ["valid"]) := by decide +kernel
