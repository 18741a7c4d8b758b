import Verif.Lemmas.CallQueue
/-
Properties C06, C07: deferred calls.
-/

variable {D : Type}

/-- **C06**, in-process engine.  Whatever blocks we start from and whatever sequence of queuing,
    draining, reading, applying, copying and measuring follows, every call shows exactly what it
    would show if each operation had been executed at the moment it was requested. -/
theorem C06_deferred_transparent_python (len : D → Nat) (ds : List D) (ops : List (POp D))
    (htot : ∀ op ∈ ops, op.Total len) :
    runOps (pyStep len) (pyInit len ds) ops = runOps (eagerStep true len) (ds.map some) ops := by
  have main : ∀ ops s t, StoreRel (PyRel len) s t → (∀ v ∈ t, v.isSome) →
      (∀ op ∈ ops, op.Total len) →
      runOps (pyStep len) s ops = runOps (eagerStep true len) t ops := by
    intro ops
    induction ops with
    | nil => intros; rfl
    | cons op ops ih =>
      intro s t hR ht hop
      obtain ⟨e1, e2, e3⟩ := eagerStep_some (b := true) ht (hop op (by simp))
      obtain ⟨s1, s2⟩ := pyStep_sim hR op e3
      simp only [runOps]
      rw [s1, ih _ _ (s2 (by rw [s1]; exact e2)) e1 (fun o ho => hop o (by simp [ho]))]
  exact main ops _ _ (init_rel_py len ds)
    (by intro v hv; simp only [List.mem_map] at hv; obtain ⟨d, _, rfl⟩ := hv; rfl) htot

/-- **C06**, engines with futures (Dask, unidist). -/
theorem C06_deferred_transparent_futures (len : D → Nat) (ds : List D) (ops : List (POp D))
    (htot : ∀ op ∈ ops, op.Total len) :
    runOps (futStep len) (futInit len ds) ops = runOps (eagerStep false len) (ds.map some) ops := by
  have main : ∀ ops s t, StoreRel (FutRel len) s t → (∀ v ∈ t, v.isSome) →
      (∀ op ∈ ops, op.Total len) →
      runOps (futStep len) s ops = runOps (eagerStep false len) t ops := by
    intro ops
    induction ops with
    | nil => intros; rfl
    | cons op ops ih =>
      intro s t hR ht hop
      obtain ⟨e1, e2, e3⟩ := eagerStep_some (b := false) ht (hop op (by simp))
      obtain ⟨s1, s2⟩ := futStep_sim hR op e3
      simp only [runOps]
      rw [s1, ih _ _ s2 e1 (fun o ho => hop o (by simp [ho]))]
  exact main ops _ _ (init_rel_fut len ds)
    (by intro v hv; simp only [List.mem_map] at hv; obtain ⟨d, _, rfl⟩ := hv; rfl) htot

/-- Non-vacuity for C06: queue two operations, copy, read, queue another one, measure. -/
example :
    let ops : List (POp (List Nat)) :=
      [.add 0 (fun l => some (l.map (· + 1))) none, .add 1 (fun l => some (l.filter (· > 2))) none,
       .copy 2, .read 2, .length 3, .drain 1, .apply 2 (fun l => some (l ++ l)), .read 4, .read 0]
    (∀ op ∈ ops, op.Total List.length) ∧
    runOps (pyStep List.length) (pyInit List.length [[1, 2, 3]]) ops
      = [.done, .done, .done, .value [3, 4], .num 2, .done, .done, .value [3, 4, 3, 4],
         .value [1, 2, 3]] := by
  refine ⟨?_, by decide⟩
  intro op hop
  simp only [List.mem_cons, List.not_mem_nil, or_false] at hop
  rcases hop with rfl | rfl | rfl | rfl | rfl | rfl | rfl | rfl | rfl <;>
    simp [POp.Total]

/-- **C07** for engines with futures: with operations that may raise, every call of every
    history shows what eager execution shows; in particular an object whose computation raised
    raises at every later read, and so does everything derived from it. -/
theorem C07_failure_is_permanent_futures (len : D → Nat) (ds : List D) (ops : List (POp D))
    (hnh : ∀ op ∈ ops, op.NoHint) :
    runOps (futStep len) (futInit len ds) ops = runOps (eagerStep false len) (ds.map some) ops := by
  have main : ∀ ops s t, StoreRel (FutRel len) s t → (∀ op ∈ ops, op.NoHint) →
      runOps (futStep len) s ops = runOps (eagerStep false len) t ops := by
    intro ops
    induction ops with
    | nil => intros; rfl
    | cons op ops ih =>
      intro s t hR hop
      obtain ⟨s1, s2⟩ := futStep_sim hR op (HintOK.of_noHint (hop op (by simp)))
      simp only [runOps]
      rw [s1, ih _ _ s2 (fun o ho => hop o (by simp [ho]))]
  exact main ops _ _ (init_rel_fut len ds) hnh

/-- **C07 is false for the in-process engine**: reading a block whose queued call raises reports
    the exception the first time; the second read returns the data as it was *before* the
    failing operation, where eager execution raises again. -/
theorem C07_python_forgets_failure :
    let ops : List (POp Nat) := [.add 0 (fun _ => none) none, .read 1, .read 1]
    runOps (pyStep id) (pyInit id [7]) ops = [.done, .raised, .value 7] ∧
    runOps (eagerStep true id) [some 7] ops = [.done, .raised, .raised] := by
  decide

/-- **C07**, in-process engine, the part that holds: in every history, everything shown up to
    and including the first exception is what eager execution shows.  Missing (and false): the
    calls after the first exception. -/
theorem C07_first_failure_reported_python_partial (len : D → Nat) (ds : List D)
    (ops : List (POp D)) (hnh : ∀ op ∈ ops, op.NoHint) (n : Nat)
    (hn : ∀ o ∈ (runOps (pyStep len) (pyInit len ds) ops).take n, o ≠ Obs.raised) :
    (runOps (pyStep len) (pyInit len ds) ops).take (n + 1)
      = (runOps (eagerStep true len) (ds.map some) ops).take (n + 1) := by
  have main : ∀ ops s t n, StoreRel (PyRel len) s t → (∀ op ∈ ops, op.NoHint) →
      (∀ o ∈ (runOps (pyStep len) s ops).take n, o ≠ Obs.raised) →
      (runOps (pyStep len) s ops).take (n + 1) = (runOps (eagerStep true len) t ops).take (n + 1) := by
    intro ops
    induction ops with
    | nil => intros; rfl
    | cons op ops ih =>
      intro s t n hR hop hn
      obtain ⟨s1, s2⟩ := pyStep_sim hR op (HintOK.of_noHint (hop op (by simp)))
      simp only [runOps, List.take_succ_cons]
      rw [s1]
      congr 1
      cases n with
      | zero => simp
      | succ n =>
        simp only [runOps, List.take_succ_cons, List.mem_cons, forall_eq_or_imp] at hn
        exact ih _ _ n (s2 hn.1) (fun o ho => hop o (by simp [ho])) hn.2
  exact main ops _ _ n (init_rel_py len ds) hnh hn

/-- Non-vacuity for C07: a history with a failing operation, a derived object and later reads. -/
example :
    let ops : List (POp (List Nat)) :=
      [.add 0 (fun l => l.head?.map fun x => [x]) none, .add 1 (fun l => some (0 :: l)) none,
       .read 2, .read 2, .read 1, .length 1, .read 0]
    (∀ op ∈ ops, op.NoHint) ∧
    runOps (futStep List.length) (futInit List.length [[]]) ops
      = [.done, .done, .raised, .raised, .raised, .raised, .value []] := by
  refine ⟨?_, by decide⟩
  intro op hop
  simp only [List.mem_cons, List.not_mem_nil, or_false] at hop
  rcases hop with rfl | rfl | rfl | rfl | rfl | rfl | rfl <;> simp [POp.NoHint]
