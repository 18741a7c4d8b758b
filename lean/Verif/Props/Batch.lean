import Verif.Lemmas.Batch
/-
C71: the experimental batch pipeline.
-/

variable {ι κ α : Type} [DecidableEq ι] [DecidableEq κ]

/-- **C71 (partial).** Whatever queries a pipeline has, and however the frame is divided: its row partitions are consecutive pieces of the
    frame, and the outputs are, in order and with their ids, what the queries make of these pieces one after the other, each output put
    together from its postprocessed pieces.  If a function raises, so does the computation.
    Missing: a query that is fanned out and is not the last before an output (`C71_fan_out_then`), and labels of the frame that are still to
    be written to its blocks (`C71_pending_labels`). -/
theorem C71_batch_partial (cfg : Cfg) (hmc : 1 ≤ cfg.minCol) {n : Nat} (hn : 1 ≤ n) {m : LFrame ι κ α} {df : Frame ι κ α} (hm : m.Shows df)
    (hi : m.defIndex = false) (hc : m.defColumns = false) (nan : α) {post : Option (Post ι κ α)} (hpost : Post.Sound post)
    (outputs : List (Option Nat × List (Query ι κ α)))
    (ho : ∀ o ∈ outputs, (∀ q ∈ o.2, q.Sound) ∧ ∀ q ∈ o.2.dropLast, q.fanOut = false) :
    ∃ ps, m.parts.mapM Frame.hcat = some ps ∧ Frame.vcat ps = some df ∧
      (batchMeaning n post outputs ps = none → m.computeBatch cfg n post outputs = none) ∧
      ∀ outs, batchMeaning n post outputs ps = some outs → (∀ o ∈ outs, (Frame.vcat o.2).isSome) →
        ∃ rs, m.computeBatch cfg n post outputs = some rs ∧
          rs.map (fun r => (r.1, r.2.toPandas nan)) = outs.map fun o => (o.1, Frame.vcat o.2) := by
  obtain ⟨rl, cw, hcut, hp⟩ := shows_bands hm hi hc
  have hwf := hm.wf
  have hbw : ∀ f ∈ bandsOf rl df, f.WF := by
    intro f hf
    simp only [bandsOf, List.mem_map] at hf
    obtain ⟨p, _, rfl⟩ := hf
    exact hwf.ilocRows _ _
  have hrun := runOutputs_spec cfg hmc hn hpost outputs (m.parts.map fun row => BatchPart.mk row []) (bandsOf rl df) ho (by simp) hbw
    (by rw [hp]; exact whole_bands hwf hcut)
  refine ⟨bandsOf rl df, by rw [hp]; exact mapM_hcat_cut hwf hcut, vcat_rows_cut hwf hcut, ?_, ?_⟩
  · intro e
    unfold LFrame.computeBatch
    rw [hrun, e]
    rfl
  · intro outs e hv
    have hw := batchMeaning_wf hpost (fun o h => (ho o h).1) hbw e
    unfold LFrame.computeBatch
    rw [hrun, e, Option.map_some, Option.bind_some]
    clear hrun e
    induction outs with
    | nil => exact ⟨[], rfl, rfl⟩
    | cons o os ih =>
      obtain ⟨rs, h1, h2⟩ := ih (fun x hx => hv x (by simp [hx])) (fun x hx => hw x (by simp [hx]))
      obtain ⟨f, hf⟩ := Option.isSome_iff_exists.1 (hv o (by simp))
      obtain ⟨r, g1, g2⟩ := frameOfGrid_spec cfg hmc hn (hw o (by simp)) hf
      refine ⟨(o.1, r) :: rs, ?_, ?_⟩
      · rw [List.map_cons, List.mapM_cons, h1, g1]
        rfl
      · rw [List.map_cons, List.map_cons, h2, g2.toPandas, hf]

/-- **C71, functions of one row at a time.** If the functions look at one row at a time, the outputs are the functions applied one after the
    other to the whole frame, however it is divided into blocks, and also when some results are divided anew; the computation fails only if a
    result is to be divided anew. -/
theorem C71_rowwise (cfg : Cfg) (hmc : 1 ≤ cfg.minCol) {n : Nat} (hn : 1 ≤ n) {m : LFrame ι κ α} {df : Frame ι κ α} (hm : m.Shows df)
    (hi : m.defIndex = false) (hc : m.defColumns = false) (nan : α)
    (os : List (Option Nat × List (Bool × (Frame ι κ α → Frame ι κ α))))
    (hg : ∀ o ∈ os, ∀ g ∈ o.2, RowWise g.2 ∧ ∀ f : Frame ι κ α, f.WF → (g.2 f).WF) :
    (∀ rs, m.computeBatch cfg n none (os.map fun o => (o.1, o.2.map fun g => Query.ofFunction g.1 g.2)) = some rs →
      rs.map (fun r => (r.1, r.2.toPandas nan)) = (applyAll os df).map fun o => (o.1, some o.2)) ∧
    ((∀ o ∈ os, ∀ g ∈ o.2, g.1 = false) →
      (m.computeBatch cfg n none (os.map fun o => (o.1, o.2.map fun g => Query.ofFunction g.1 g.2))).isSome) := by
  obtain ⟨ps, h1, h2, h3, h4⟩ := C71_batch_partial cfg hmc hn hm hi hc nan (post := none) (by intro p h; cases h)
    (os.map fun o => (o.1, o.2.map fun g => Query.ofFunction g.1 g.2)) (by
      intro o ho
      simp only [List.mem_map] at ho
      obtain ⟨o, ho, rfl⟩ := ho
      refine ⟨fun q hq => ?_, fun q hq => ?_⟩
      · simp only [List.mem_map] at hq
        obtain ⟨g, hgm, rfl⟩ := hq
        refine ⟨fun i f r hf e => ?_, fun red e => by cases e⟩
        cases e
        exact (hg o ho g hgm).2 f hf
      · have := List.dropLast_subset _ hq
        simp only [List.mem_map] at this
        obtain ⟨g, _, rfl⟩ := this
        rfl)
  have hb := batchMeaning_rowWise hn os hg ps df hm.wf h2
  have key : ∀ outs, batchMeaning n none (os.map fun o => (o.1, o.2.map fun g => Query.ofFunction g.1 g.2)) ps = some outs →
      ∃ rs, m.computeBatch cfg n none (os.map fun o => (o.1, o.2.map fun g => Query.ofFunction g.1 g.2)) = some rs ∧
        rs.map (fun r => (r.1, r.2.toPandas nan)) = (applyAll os df).map fun o => (o.1, some o.2) := by
    intro outs e
    have e1 := hb.1 outs e
    obtain ⟨rs, r1, r2⟩ := h4 outs e (by
      intro o ho
      have : (o.1, Frame.vcat o.2) ∈ (applyAll os df).map fun o => (o.1, some o.2) := by
        rw [← e1]; exact List.mem_map.2 ⟨o, ho, rfl⟩
      obtain ⟨x, _, hx⟩ := List.mem_map.1 this
      have := congrArg Prod.snd hx
      simp only [] at this
      rw [← this]
      rfl)
    exact ⟨rs, r1, r2.trans e1⟩
  refine ⟨fun rs e => ?_, fun hp => ?_⟩
  · cases hbm : batchMeaning n none (os.map fun o => (o.1, o.2.map fun g => Query.ofFunction g.1 g.2)) ps with
    | none => rw [h3 hbm] at e; cases e
    | some outs =>
      obtain ⟨rs', r1, r2⟩ := key outs hbm
      rw [r1, Option.some.injEq] at e
      subst e
      exact r2
  · obtain ⟨outs, e⟩ := Option.isSome_iff_exists.1 (hb.2 hp)
    obtain ⟨rs, r1, _⟩ := key outs e
    rw [r1]
    rfl

/-! ### Building a pipeline -/

/-- A call of `add_query`: the query, whether it is an output, its id. -/
abbrev AddCall (ι κ α : Type) := Query ι κ α × Bool × Option Nat

/-- A new pipeline after some calls of `add_query`; a call that raises leaves it as it was. -/
def Pipeline.after (calls : List (AddCall ι κ α)) : Pipeline ι κ α :=
  calls.foldl (fun p c => (p.add c.1 c.2.1 c.2.2).getD p) { outputs := [], queries := [], ids := false }

omit [DecidableEq ι] [DecidableEq κ] in
theorem add_step (p : Pipeline ι κ α) (h1 : ∀ o ∈ p.outputs, o.1.isSome = p.ids) (h2 : p.ids = true → p.outputs ≠ []) (q : Query ι κ α)
    (out : Bool) (id : Option Nat) :
    p.add q out id =
      if out then
        if p.outputs = [] ∨ id.isSome = p.ids then some (Pipeline.mk (p.outputs ++ [(id, p.queries ++ [q])]) [] id.isSome) else none
      else if id = none then some (Pipeline.mk p.outputs (p.queries ++ [q]) p.ids) else none := by
  obtain ⟨os, qs, ids⟩ := p
  have h3 : os = [] → ids = false := by
    intro e
    cases hi : ids with
    | false => rfl
    | true => exact absurd e (h2 hi)
  cases os with
  | nil => rw [h3 rfl]; cases out <;> cases id <;> simp [Pipeline.add]
  | cons o os => cases out <;> cases id <;> cases ids <;> simp [Pipeline.add]

omit [DecidableEq ι] [DecidableEq κ] in
theorem after_ids (calls : List (AddCall ι κ α)) :
    (∀ o ∈ (Pipeline.after calls).outputs, o.1.isSome = (Pipeline.after calls).ids) ∧
    ((Pipeline.after calls).ids = true → (Pipeline.after calls).outputs ≠ []) := by
  have : ∀ (calls : List (AddCall ι κ α)) (p : Pipeline ι κ α),
      (∀ o ∈ p.outputs, o.1.isSome = p.ids) → (p.ids = true → p.outputs ≠ []) →
      (∀ o ∈ (calls.foldl (fun p c => (p.add c.1 c.2.1 c.2.2).getD p) p).outputs,
        o.1.isSome = (calls.foldl (fun p c => (p.add c.1 c.2.1 c.2.2).getD p) p).ids) ∧
      ((calls.foldl (fun p c => (p.add c.1 c.2.1 c.2.2).getD p) p).ids = true →
        (calls.foldl (fun p c => (p.add c.1 c.2.1 c.2.2).getD p) p).outputs ≠ []) := by
    intro calls
    induction calls with
    | nil => intro p h1 h2; exact ⟨h1, h2⟩
    | cons c calls ih =>
      intro p h1 h2
      rw [List.foldl_cons]
      rw [add_step p h1 h2]
      by_cases ho : c.2.1 = true
      · rw [if_pos ho]
        by_cases hi : p.outputs = [] ∨ c.2.2.isSome = p.ids
        · rw [if_pos hi, Option.getD_some]
          refine ih _ ?_ (by simp)
          intro o hm
          rcases List.mem_append.1 hm with hm | hm
          · rcases hi with hi | hi
            · rw [hi] at hm; cases hm
            · exact (h1 o hm).trans hi.symm
          · rw [List.mem_singleton.1 hm]
        · rw [if_neg hi]; exact ih p h1 h2
      · rw [if_neg ho]
        by_cases hi : c.2.2 = none
        · rw [if_pos hi, Option.getD_some]
          exact ih _ h1 h2
        · rw [if_neg hi]; exact ih p h1 h2
  exact this calls _ (by simp) (by simp)

omit [DecidableEq ι] [DecidableEq κ] in
/-- **C71, `add_query`.** After any calls, the next one is accepted if and only if it gives an id exactly when all outputs so far have one
    (an output), or no id (no output); an output takes the queries since the last output, and nothing is lost or reordered. -/
theorem C71_add_query (calls : List (AddCall ι κ α)) (q : Query ι κ α) (out : Bool) (id : Option Nat) :
    (((Pipeline.after calls).add q out id).isSome ↔
      if out then ∀ o ∈ (Pipeline.after calls).outputs, o.1.isSome = id.isSome else id = none) ∧
    ∀ p', (Pipeline.after calls).add q out id = some p' →
      (p'.outputs.map (·.2)).flatten ++ p'.queries =
        ((Pipeline.after calls).outputs.map (·.2)).flatten ++ (Pipeline.after calls).queries ++ [q] ∧
      p'.outputs.map (·.1) = (Pipeline.after calls).outputs.map (·.1) ++ (if out then [id] else []) ∧
      (out = true → p'.queries = []) := by
  obtain ⟨h1, h2⟩ := after_ids calls
  rw [add_step _ h1 h2]
  generalize Pipeline.after calls = p at h1 h2
  refine ⟨?_, ?_⟩
  · cases out with
    | true =>
      simp only [↓reduceIte]
      by_cases hi : p.outputs = [] ∨ id.isSome = p.ids
      · rw [if_pos hi]
        simp only [Option.isSome_some, true_iff]
        intro o ho
        rcases hi with hi | hi
        · rw [hi] at ho; cases ho
        · exact (h1 o ho).trans hi.symm
      · rw [if_neg hi]
        simp only [Option.isSome_none, Bool.false_eq_true, false_iff]
        intro hc
        cases ho : p.outputs with
        | nil => exact hi (Or.inl ho)
        | cons o os =>
          have hm : o ∈ p.outputs := by rw [ho]; simp
          exact hi (Or.inr ((hc o hm).symm.trans (h1 o hm)))
    | false => simp only [Bool.false_eq_true, ↓reduceIte]; split <;> simp_all
  · intro p' e
    cases out with
    | true =>
      simp only [↓reduceIte] at e
      split at e
      · cases e; simp
      · cases e
    | false =>
      simp only [Bool.false_eq_true, ↓reduceIte] at e
      split at e
      · cases e; simp
      · cases e

/-- **C71, the results.** A pipeline without ids gives the list of its outputs, one with ids that are all different the same as a dictionary;
    in general what is found under an id is the last output with it (`C71_same_id`). -/
theorem C71_results (cfg : Cfg) {n : Nat} (post : Option (Post ι κ α)) (p : Pipeline ι κ α) (m : LFrame ι κ α) (rs : List (Option Nat × MFrame ι κ α))
    (h : m.computeBatch cfg n post p.outputs = some rs) (hpo : p.ids = false → ∀ q, post = some q → q.passOutput = false)
    (hne : p.outputs ≠ []) :
    (p.ids = false → p.compute cfg n post m = some rs) ∧
    (p.ids = true → (rs.map (·.1)).Nodup → p.compute cfg n post m = some rs) ∧
    (p.ids = true → ∀ k, (p.compute cfg n post m).bind (fun d => d.find? (·.1 == k)) = rs.reverse.find? (·.1 == k)) := by
  have hemp : p.outputs.isEmpty = false := by
    cases ho : p.outputs with
    | nil => exact absurd ho hne
    | cons _ _ => rfl
  unfold Pipeline.compute
  refine ⟨fun e => ?_, fun e hd => ?_, fun e k => ?_⟩
  · have : (post.map (·.passOutput)).getD false = false := by
      cases hq : post with
      | none => rfl
      | some q => exact hpo e q hq
    simp [hemp, this, e, h]
  · simp [hemp, e, h, dictOf_nodup rs hd]
  · simp [hemp, e, h, dictOf_find]

/-! ### Where the full statement fails -/

/-- **A query after a fanned-out one.** If a query that is fanned out is followed by an ordinary query before the output, the computation
    always fails: when the results are to be reduced, `reducer` looks for the reduce function in the query that came later. -/
theorem C71_fan_out_then (cfg : Cfg) (n : Nat) (post : Option (Post ι κ α)) (id : Option Nat) (q q' : Query ι κ α)
    (os : List (Option Nat × List (Query ι κ α))) (m : LFrame ι κ α)
    (hq : q.fanOut = true) (h1 : q'.fanOut = false) (h2 : q'.repartition = false) (h3 : q'.reduce = none) :
    m.computeBatch cfg n post ((id, [q, q']) :: os) = none := by
  unfold LFrame.computeBatch
  rw [runOutputs]
  have : ((completeNodes n [q, q'] (m.parts.map fun row => BatchPart.mk row [], { reduce := none, newDfs := [] })).bind fun s =>
      s.1.mapM fun (p : BatchPart ι κ α) => p.drain s.2) = none := by
    simp only [completeNodes, completeNode, hq, h1, h2, h3, ↓reduceIte, Bool.false_eq_true, Option.bind_some]
    match m.parts.map fun row => BatchPart.mk row ([] : List (BatchCall ι κ α)) with
    | [] => rfl
    | _ :: _ :: _ => rfl
    | [p] =>
      simp only []
      cases p.drain { reduce := q.reduce, newDfs := [] } with
      | none => rfl
      | some b =>
        simp only [Option.bind_some]
        cases q.func (some 0) b with
        | none => rfl
        | some d =>
          simp only [Option.bind_some]
          cases (List.range (n - 1)).mapM fun i => q.func (some (i + 1)) b with
          | none => rfl
          | some rs => rfl
  rw [← Option.bind_assoc, this]
  rfl

/-! A frame with two rows and two columns, in one block or in four. -/

def btFrame : Frame Nat Nat Nat := Frame.mk [0, 1] [10, 11] [[1, 2], [3, 4]]
def btOne : LFrame Nat Nat Nat := LFrame.mk (MFrame.mk (btFrame.cut [2] [2]) none none none none) false false
def btFour : LFrame Nat Nat Nat := LFrame.mk (MFrame.mk (btFrame.cut [1, 1] [1, 1]) none none none none) false false
def btCfg : Cfg := { nPartitions := 2, minRow := 1, minCol := 1 }
/-- all cells one more -/
def btAdd (f : Frame Nat Nat Nat) : Frame Nat Nat Nat := f.mapCells (· + 1)
/-- called on copies of a partition: adds the number of the copy; the second copy is the result -/
def btFan : Query Nat Nat Nat := Query.mk (fun i f => some (f.mapCells (· + i.getD 0))) true true false (some fun fs => fs[1]?)
def btPlain : Query Nat Nat Nat := Query.ofFunction false btAdd
/-- the frames of a result -/
def btShow (r : Option (List (Option Nat × MFrame Nat Nat Nat))) : Option (List (Option Nat × Option (Frame Nat Nat Nat))) :=
  r.map fun rs => rs.map fun r => (r.1, r.2.toPandas 0)

/-- The queries of `C71_fan_out_then` mean something, and as outputs of their own they give it. -/
theorem C71_fan_out_then_meaning :
    batchMeaning 2 none [(none, [btFan, btPlain])] [btFrame] = some [(none, [Frame.mk [0, 1] [10, 11] [[3, 4], [5, 6]]])] ∧
    btShow (btOne.computeBatch btCfg 2 none [(none, [btFan, btPlain])]) = none ∧
    btShow (btOne.computeBatch btCfg 2 none [(none, [btFan]), (none, [btPlain])]) =
      some [(none, some (Frame.mk [0, 1] [10, 11] [[2, 3], [4, 5]])), (none, some (Frame.mk [0, 1] [10, 11] [[3, 4], [5, 6]]))] := by
  refine ⟨by rfl, ?_, by decide +kernel⟩
  rw [C71_fan_out_then btCfg 2 none none btFan btPlain [] btOne rfl rfl rfl rfl]
  rfl

/-- **Labels that are still to be written to the blocks.** The columns of the frame were renamed, the blocks do not know yet: the queries
    and the result have the old names. -/
theorem C71_pending_labels :
    let m : LFrame Nat Nat Nat := LFrame.mk (MFrame.mk (btFrame.cut [1, 1] [1, 1]) none (some [20, 21]) none none) false true
    m.Shows (Frame.mk [0, 1] [20, 21] [[1, 2], [3, 4]]) ∧
    btShow (m.computeBatch btCfg 2 none [(none, [Query.ofFunction false id])]) = some [(none, some btFrame)] := by
  refine ⟨⟨⟨by decide, by decide⟩, ⟨btFrame, [1, 1], [1, 1], ⟨by decide, by decide⟩, rfl, rfl, ⟨by decide, by decide, by decide, by decide⟩,
    rfl, Or.inl rfl, Or.inl rfl, fun _ => rfl, fun h => by cases h⟩, Or.inl ⟨rfl, rfl⟩, Or.inr rfl⟩, by decide +kernel⟩

/-- **Two outputs with one id.** Both are accepted; the first is lost. -/
theorem C71_same_id :
    let p : Pipeline Nat Nat Nat := Pipeline.after [(Query.ofFunction false id, true, some 7), (btPlain, true, some 7)]
    p.outputs.length = 2 ∧ btShow (p.compute btCfg 2 none btFour) = some [(some 7, some (Frame.mk [0, 1] [10, 11] [[2, 3], [4, 5]]))] := by
  refine ⟨by rfl, by decide +kernel⟩

/-- **Queries after the last output** are never run, not even if they raise. -/
theorem C71_after_last_output (cfg : Cfg) (n : Nat) (post : Option (Post ι κ α)) (p : Pipeline ι κ α) (q : Query ι κ α) (m : LFrame ι κ α) :
    ∃ p', p.add q false none = some p' ∧ p'.compute cfg n post m = p.compute cfg n post m := by
  refine ⟨{ p with queries := p.queries ++ [q] }, by simp [Pipeline.add], rfl⟩

/-! ### The hypotheses can be met -/

theorem btFour_shows : btFour.Shows btFrame :=
  ⟨⟨by decide, by decide⟩, ⟨btFrame, [1, 1], [1, 1], ⟨by decide, by decide⟩, rfl, rfl, ⟨by decide, by decide, by decide, by decide⟩,
    rfl, Or.inl rfl, Or.inl rfl, fun _ => rfl, fun _ => rfl⟩, Or.inl ⟨rfl, rfl⟩, Or.inl ⟨rfl, rfl⟩⟩

omit [DecidableEq ι] in
theorem rowWise_mapCells (h : α → α) : RowWise (fun f : Frame ι κ α => f.mapCells h) := by
  intro fs f e
  obtain ⟨h1, h2, h3⟩ := vcat_parts e
  rw [Frame.vcat_eq (c := f.columns) (by simpa using h1) (by
    intro x hx
    obtain ⟨y, hy, rfl⟩ := List.mem_map.1 hx
    exact h2 y hy)]
  have e1 := congrArg Frame.index h3
  have e2 := congrArg Frame.rows h3
  simp only [Frame.stackRows] at e1 e2
  simp only [Frame.mapCells, Option.some.injEq, Frame.mk.injEq, List.map_map, Function.comp_def, true_and]
  rw [e1, e2]
  refine ⟨rfl, ?_⟩
  rw [List.map_flatten, List.map_map]
  rfl

theorem btAdd_ok : RowWise btAdd ∧ ∀ f : Frame Nat Nat Nat, f.WF → (btAdd f).WF := by
  refine ⟨rowWise_mapCells _, fun f hf => ⟨by simpa [btAdd, Frame.mapCells] using hf.rows_len, ?_⟩⟩
  intro r hr
  simp only [btAdd, Frame.mapCells, List.mem_map] at hr
  obtain ⟨x, hx, rfl⟩ := hr
  simpa [btAdd, Frame.mapCells, Frame.ncols] using hf.row_width x hx

/-- two outputs of a frame in four blocks, the second from the first -/
example : btShow (btFour.computeBatch btCfg 2 none ([(some 1, [(false, btAdd)]), (some 2, [(false, btAdd), (false, btAdd)])].map
      fun o => (o.1, o.2.map fun g => Query.ofFunction g.1 g.2))) =
    some [(some 1, some (Frame.mk [0, 1] [10, 11] [[2, 3], [4, 5]])), (some 2, some (Frame.mk [0, 1] [10, 11] [[4, 5], [6, 7]]))] ∧
    ∃ rs, btFour.computeBatch btCfg 2 none ([(some 1, [(false, btAdd)]), (some 2, [(false, btAdd), (false, btAdd)])].map
      fun o => (o.1, o.2.map fun g => Query.ofFunction g.1 g.2)) = some rs ∧ rs.map (fun r => (r.1, r.2.toPandas 0)) =
      (applyAll [(some 1, [(false, btAdd)]), (some 2, [(false, btAdd), (false, btAdd)])] btFrame).map fun o => (o.1, some o.2) := by
  refine ⟨by decide +kernel, ?_⟩
  have h := C71_rowwise btCfg (by decide) (n := 2) (by decide) btFour_shows rfl rfl 0
    [(some 1, [(false, btAdd)]), (some 2, [(false, btAdd), (false, btAdd)])] (by
      intro o ho g hg
      have : g.2 = btAdd := by
        simp only [List.mem_cons, List.not_mem_nil, or_false] at ho
        rcases ho with rfl | rfl <;> simp at hg <;> rw [hg]
      rw [this]
      exact btAdd_ok)
  obtain ⟨rs, e⟩ := Option.isSome_iff_exists.1 (h.2 (by
    intro o ho g hg
    simp only [List.mem_cons, List.not_mem_nil, or_false] at ho
    rcases ho with rfl | rfl <;> simp at hg <;> rw [hg]))
  exact ⟨rs, e, h.1 rs e⟩

/-- a fanned-out output, and a postprocessing function that gets the id of the output and the number of the partition -/
example : btShow (btOne.computeBatch btCfg 2 (some { func := fun a f => some (f.mapCells (· + a.sum)), passOutput := true, passPartition := true })
      [(some 5, [btPlain, btFan]), (some 6, [{ btPlain with repartition := true }])]) =
    some [(some 5, some (Frame.mk [0, 1] [10, 11] [[8, 9], [10, 11]])), (some 6, some (Frame.mk [0, 1] [10, 11] [[10, 11], [13, 14]]))] := by
  decide +kernel

example : (Pipeline.after [(btPlain, true, some 1), (btPlain, true, none), (btPlain, false, some 2), (btFan, false, none), (btPlain, true, some 2)] :
    Pipeline Nat Nat Nat).outputs.map (fun o => (o.1, o.2.length)) = [(some 1, 1), (some 2, 2)] := by rfl
