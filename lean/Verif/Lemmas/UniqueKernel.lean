import Verif.Model.DropDuplicates
import Verif.Lemmas.SortIndex
import Verif.Lemmas.Portion
import Verif.Pandas.KeyParts

variable {ι κ α K ι' : Type}

theorem columnLocal_renumbered [DecidableEq ι] (num : Nat → ι) (ps : List Nat) :
    ColumnLocal (fun f : Frame ι κ α => (f.takeRows ps).ignoreIndex num true) := by
  have hT := columnLocal_takeRows (ι := ι) (κ := κ) (α := α) ps
  refine ⟨fun f h => ⟨?_, (hT.1 f h).row_width⟩, ?_⟩
  · have := (hT.1 f h).rows_len
    simp only [Frame.ignoreIndex, if_true, List.length_map, List.length_range]
    exact this
  · intro fs f hwf hcat
    obtain ⟨hne, hidx⟩ := Frame.hcat_index hcat
    have h1 := hT.2 fs f hwf hcat
    rw [Frame.hcat_eq (r := (f.takeRows ps).index) (by simpa using hne) (by
      intro x hx
      obtain ⟨y, hy, rfl⟩ := List.mem_map.1 hx
      simp [Frame.takeRows, hidx y hy])] at h1
    rw [Frame.hcat_eq (r := ((f.takeRows ps).ignoreIndex num true).index) (by simpa using hne) (by
      intro x hx
      obtain ⟨y, hy, rfl⟩ := List.mem_map.1 hx
      simp [Frame.takeRows, Frame.ignoreIndex, hidx y hy])]
    have h2 := Option.some.inj h1
    have h3 := congrArg Frame.columns h2
    have h4 := congrArg Frame.rows h2
    simp only [List.map_map] at h3 h4
    have hl : ((f.takeRows ps).ignoreIndex num true).index.length = (f.takeRows ps).index.length := by simp [Frame.ignoreIndex]
    rw [hl]
    congr 1
    simp only [Frame.ignoreIndex, if_true, Frame.mk.injEq, true_and, List.map_map]
    exact ⟨h3, h4⟩

/-- a function of the whole column, on a frame held in one block column; the row labels are read from the blocks -/
theorem applyFullColumns_one [DecidableEq ι] [DecidableEq κ] (cfg : Cfg) (hp : 1 ≤ cfg.nPartitions) (hr : 1 ≤ cfg.minRow)
    {m : LFrame ι κ α} {df : Frame ι κ α} (h : m.Shows df) (hw : gridWidth m.parts ≤ 1) {func : Frame ι κ α → Option (Frame ι κ α)}
    {F : Frame ι κ α → Frame ι κ α} (hF : ColumnLocal F) (hfunc : func df = some (F df)) (hn : (F df).ncols = df.ncols)
    (cols : List κ) (hcols : cols.length = df.ncols) :
    ∃ m', m.applyFullColumns cfg func none (some cols) = some m' ∧ m'.Shows ⟨(F df).index, cols, (F df).rows⟩ := by
  obtain ⟨m1, rl, w, e1, hc, hpp, hrl⟩ := synced_single h hw
  obtain rfl : w = df.ncols := by simpa using hc.cw_sum
  obtain ⟨lens, ⟨h2, h3, _, _, _⟩, h5⟩ := mapAxis_rows_cut' cfg hp hr hF h.wf hc true none (by simp) none (by simp) (by simp)
  have hb : sliceBounds [df.ncols] = [(0, df.ncols)] := sliceBounds_single _
  rw [← mapAxis_rows_congr' cfg h.wf hc true none none (func := func) (by
    intro q hq
    rw [hb] at hq
    obtain rfl : q = (0, df.ncols) := by simpa using hq
    simp only
    rw [Frame.ilocCols_all h.wf]
    exact hfunc)] at h5
  have hwf' := hF.1 df h.wf
  have h6 : ((sliceBounds lens).map fun p => (sliceBounds [df.ncols]).map fun q => (F (df.ilocCols q.1 q.2)).ilocRows p.1 p.2)
      = (F df).cut lens [df.ncols] := by
    rw [hb]
    unfold Frame.cut
    rw [hb]
    refine List.map_congr_left fun p _ => ?_
    simp only [List.map_cons, List.map_nil]
    rw [Frame.ilocCols_all h.wf]
    congr 1
    have := Frame.ilocCols_all (hwf'.ilocRows p.1 p.2)
    rw [show ((F df).ilocRows p.1 p.2).ncols = df.ncols from hn] at this
    exact this.symm
  rw [h6] at h5
  have hc' : (F df).IsCut lens [df.ncols] := ⟨h2, by simp, h3, by simp [hn]⟩
  unfold LFrame.applyFullColumns
  rw [e1, Option.bind_some, hpp, h5, Option.bind_some]
  have hs : LFrame.Shows ⟨⟨(F df).cut lens [df.ncols], none, some cols, none, some [cols.length]⟩, false, true⟩
      ⟨(F df).index, cols, (F df).rows⟩ := by
    refine ⟨⟨hwf'.rows_len, ?_⟩, ⟨F df, lens, [df.ncols], hwf', rfl, by rw [show (F df).columns.length = df.ncols from hn]; exact hcols.symm, hc', rfl, Or.inl rfl,
      Or.inr (by rw [hcols]), fun _ => rfl, fun e => by cases e⟩, Or.inl ⟨rfl, rfl⟩, Or.inr rfl⟩
    intro r hr
    show r.length = cols.length
    rw [hcols, ← hn]
    exact hwf'.row_width r hr
  obtain ⟨r, e3, e4⟩ := mk'_shows hs
  refine ⟨_, ?_, e4⟩
  have hg : gridWidth ((F df).cut lens [df.ncols]) = 1 := by rw [gridWidth_cut h2]; rfl
  simp only [Option.bind_some, Option.bind_none, hg, ↓reduceIte, Option.isSome_some, Option.isSome_none]
  rw [e3]
  rfl

/-- the distinct cells of the only column, in order of appearance and numbered -/
theorem uniqueKernel_shows [DecidableEq ι] [DecidableEq κ] [DecidableEq K] (cfg : Cfg) (hp : 1 ≤ cfg.nPartitions) (hr : 1 ≤ cfg.minRow)
    (num : Nat → ι) (key : α → K) {m : LFrame ι κ α} {df : Frame ι κ α} (h : m.Shows df) (hw : gridWidth m.parts ≤ 1) (hc : df.ncols = 1) :
    ∃ m', m.uniqueColumn cfg num key = some m' ∧
      m'.Shows ((df.pickRows ((duplicatedMarks .first (df.rows.map (·.map key))).map not)).ignoreIndex num true) := by
  have hm : ((duplicatedMarks .first (df.rows.map (·.map key))).map not).length = df.index.length := by
    simp [duplicatedMarks, h.wf.rows_len]
  rw [← takeRows_keepWhere h.wf hm]
  unfold LFrame.uniqueColumn
  rw [h.getColumns]
  refine applyFullColumns_one cfg hp hr h hw (columnLocal_renumbered num _) ?_ rfl df.columns rfl
  unfold Frame.uniqueKernel
  rw [if_pos hc, takeRows_keepWhere h.wf hm]

/-- keeping what is not marked, by recursion -/
theorem keepWhere_marks_first {τ : Type} [DecidableEq K] (key : τ → K) (l : List τ) :
    keepWhere ((duplicatedMarks .first (l.map key)).map not) l = dropDuplicates .first key l := by
  have e1 : ∀ l : List τ, keepWhere ((duplicatedMarks .first (l.map key)).map not) l =
      (l.zipIdx.filter fun e => !(l.zipIdx.any fun o => decide (o.2 < e.2) && decide (key o.1 = key e.1))).map (·.1) := by
    intro l
    have e2 : (duplicatedMarks .first (l.map key)).map not =
        l.zipIdx.map fun e => !(l.zipIdx.any fun o => decide (o.2 < e.2) && decide (key o.1 = key e.1)) := by
      unfold duplicatedMarks
      rw [List.zipIdx_map, List.map_map, List.map_map]
      refine List.map_congr_left fun e _ => ?_
      simp only [Function.comp, List.any_map]
      rfl
    rw [e2]
    generalize hg : (fun e : τ × Nat => !(l.zipIdx.any fun o => decide (o.2 < e.2) && decide (key o.1 = key e.1))) = g
    have : ∀ (l : List τ) (s : Nat), keepWhere ((l.zipIdx s).map g) l = ((l.zipIdx s).filter g).map (·.1) := by
      intro l
      induction l with
      | nil => intro s; rfl
      | cons x l ih =>
        intro s
        have := ih (s + 1)
        unfold keepWhere at this ⊢
        simp only [List.zipIdx_cons, List.map_cons, List.zip_cons_cons, List.filter_cons]
        cases g (x, s) <;> simp [this]
    exact this l 0
  rw [e1]
  induction l with
  | nil => rfl
  | cons x l ih =>
    unfold dropDuplicates
    simp only
    rw [← ih]
    have hz : (x :: l).zipIdx = (x, 0) :: l.zipIdx.map (fun e => (e.1, e.2 + 1)) := by
      rw [List.zipIdx_cons]
      congr 1
      apply List.ext_getElem
      · simp
      · intro i h1 h2
        simp
        omega
    rw [hz, List.filter_cons, if_pos (by simp), List.map_cons, List.filter_map, List.map_map, List.filter_map, List.filter_filter]
    congr 1
    have e3 : ∀ (l : List (τ × Nat)) (p q : τ × Nat → Bool), (∀ e ∈ l, p e = q e) →
        (l.filter p).map ((fun x => x.1) ∘ fun e => (e.1, e.2 + 1)) = (l.filter q).map (·.1) := by
      intro l p q h
      rw [List.filter_congr h]
      rfl
    refine e3 _ _ _ fun e _ => ?_
    simp only [Function.comp, List.any_cons, List.any_map, Nat.add_lt_add_iff_right, Nat.zero_lt_succ, decide_true, Bool.true_and]
    rw [Bool.not_or]
    congr 1
    · simp [eq_comm (a := key x)]
    · congr 2
      funext o
      simp
