import Verif.Lemmas.DeferredHist
/-
C28: deferred calls on Ray compute what evaluating every call at once would compute, and each call is made at most once.
-/

variable {V F : Type}

/-! ### Specification: every call is made when it is written -/

/-- the arguments, given the results of the earlier calls -/
def Args.now (done : List V) : Args V → Option (VArgs V)
  | .nil => some .nil
  | .val v rest => (rest.now done).map (.val v)
  | .node i rest => done[i]?.bind fun v => (rest.now done).map (.val v)
  | .list inner rest => (inner.now done).bind fun l => (rest.now done).map (.list l)

/-- the call of a node, given the results of the earlier calls -/
def Def.now (done : List V) (d : Def V F) : Option (Call V F) :=
  (match d.data with
  | .inl v => some v
  | .inr i => done[i]?).bind fun obj => (d.args.now done).bind fun args => (d.kwargs.now done).map fun kw => ⟨d.fn, obj, args, d.names, kw⟩

/-- all calls in the order in which they were written; `done` are the results so far -/
def eager (app : F → V → VArgs V → List String → VArgs V → V) : List (Def V F) → List V → Option (List (Call V F))
  | [], _ => some []
  | d :: ds, done => (d.now done).bind fun c => (eager app ds (done ++ [app c.fn c.obj c.args c.names c.kwargs])).map (c :: ·)

/-- the states a program can reach -/
inductive Reach (app : F → V → VArgs V → List String → VArgs V → V) (size : V → Nat × Nat) : Tasks V F → Prop where
  | init : Reach app size {}
  | step {t t' : Tasks V F} (op : TaskOp V F) : Reach app size t → op.possible t → t.step app size op = some t' → Reach app size t'

/-! ### Theorems -/

theorem Args.now_eq {a : Args V} {k : Nat} {val : Nat → V} (h : ∀ n ∈ a.nodes, n < k) : a.now ((List.range k).map val) = some (a.values val) := by
  induction a with
  | nil => rfl
  | val v rest ih => simp only [Args.now, Args.values]; rw [ih h]; rfl
  | node i rest ih =>
    have hi := h i (by simp [Args.nodes])
    simp only [Args.now, Args.values]
    rw [ih (fun n hn => h n (by simp [Args.nodes, hn]))]
    simp [hi]
  | list l rest ih1 ih2 =>
    simp only [Args.now, Args.values]
    rw [ih1 (fun n hn => h n (by simp [Args.nodes, hn])), ih2 (fun n hn => h n (by simp [Args.nodes, hn]))]
    rfl

theorem Def.now_eq {d : Def V F} {k : Nat} {val : Nat → V} (h : ∀ n ∈ d.nodes, n < k) : d.now ((List.range k).map val) = some (d.call val) := by
  unfold Def.now
  rw [Args.now_eq (a := d.args) (fun n hn => h n (by simp [Def.nodes, hn])), Args.now_eq (a := d.kwargs) (fun n hn => h n (by simp [Def.nodes, hn]))]
  unfold Def.call Def.input
  cases hd : d.data with
  | inl v => rfl
  | inr i =>
    have hi := h i (by simp [Def.nodes, hd])
    simp [hi]

theorem eager_eq (app : F → V → VArgs V → List String → VArgs V → V) (val : Nat → V) : ∀ (ds pre : List (Def V F)),
    (∀ (m : Nat) (d : Def V F), (pre ++ ds)[m]? = some d → ∀ n ∈ d.nodes, n < m) → (∀ (m : Nat) (d : Def V F), (pre ++ ds)[m]? = some d → val m = (d.call val).result app) →
    eager app ds ((List.range pre.length).map val) = some (ds.map (Def.call val)) := by
  intro ds
  induction ds with
  | nil => intro pre _ _; rfl
  | cons d ds ih =>
    intro pre h1 h2
    have hd : (pre ++ d :: ds)[pre.length]? = some d := by simp
    have h3 := ih (pre ++ [d]) (by simpa using h1) (by simpa using h2)
    rw [List.length_append, List.length_singleton, List.range_succ, List.map_append] at h3
    have h4 : app (d.call val).fn (d.call val).obj (d.call val).args (d.call val).names (d.call val).kwargs = val pre.length := (h2 _ d hd).symm
    simp only [eager, Def.now_eq (h1 _ d hd), Option.bind_some, h4]
    rw [show (List.range pre.length).map val ++ [val pre.length] = (List.range pre.length).map val ++ [pre.length].map val from rfl, h3]
    rfl

theorem reach_inv [Inhabited V] {app : F → V → VArgs V → List String → VArgs V → V} {size : V → Nat × Nat} {t : Tasks V F} (h : Reach app size t) :
    ∃ val old ids, HInv app size t val old ids := by
  induction h with
  | init => exact ⟨fun _ => default, _, _, HInv.init app size _⟩
  | step op _ hop hs ih =>
    obtain ⟨val, old, ids, hi⟩ := ih
    obtain ⟨t', val', old', ids', h1, h2⟩ := hi.step op hop
    rw [hs] at h1
    simp only [Option.some.injEq] at h1
    subst h1
    exact ⟨val', old', ids', h2⟩

/-- C28.  Whatever was deferred, copied, deleted and drained before, no call on a partition raises: the counters of subscribers
    never run out and the worker can always read the list it is sent. -/
theorem C28_no_call_fails [Inhabited V] (app : F → V → VArgs V → List String → VArgs V → V) (size : V → Nat × Nat) (t : Tasks V F) (h : Reach app size t)
    (op : TaskOp V F) (hop : op.possible t) : ∃ t', t.step app size op = some t' := by
  obtain ⟨val, old, ids, hi⟩ := reach_inv h
  obtain ⟨t', _, _, _, h1, _⟩ := hi.step op hop
  exact ⟨t', h1⟩

/-- C28.  Every result that is set is the result of the call in the program that makes every call at once; the stored length and
    width are those of that result; and the calls made on workers are some of the calls of that program, each at most once. -/
theorem C28_results_are_eager [Inhabited V] (app : F → V → VArgs V → List String → VArgs V → V) (size : V → Nat × Nat) (t : Tasks V F) (h : Reach app size t) :
    ∃ calls, eager app t.defs [] = some calls ∧ calls.length = t.defs.length ∧
      (∀ n v, t.res n = some v → ∃ c, calls[n]? = some c ∧ v = app c.fn c.obj c.args c.names c.kwargs ∧ t.shape n = some (size v)) ∧
      ∃ ids : List Nat, ids.Nodup ∧ (∀ n ∈ ids, n < calls.length) ∧ t.log = ids.filterMap (calls[·]?) ∧ ∀ n v, t.res n = some v → n ∈ ids := by
  obtain ⟨val, old, ids, hi⟩ := reach_inv h
  refine ⟨t.defs.map (Def.call val), ?_, by simp, ?_, ids, hi.nodup, ?_, ?_, ?_⟩
  · exact eager_eq app val t.defs [] (by simpa using hi.nodes) (by simpa using hi.eqs)
  · intro n v hv
    obtain ⟨h1, h2, h3⟩ := hi.res n v hv
    refine ⟨(t.defs[n]).call val, by simp [h3], ?_, h2⟩
    rw [← h1]
    exact hi.eqs n _ (List.getElem?_eq_getElem h3)
  · intro n hn; simpa using ((hi.mem n).1 hn).1
  · rw [hi.log]
    unfold callsOf
    congr 1
    funext n
    simp
  · intro n v hv
    exact (hi.mem n).2 ⟨(hi.res n v hv).2.2, Or.inr (by rw [hv]; simp)⟩

/-- C28.  After a partition is drained, and after `apply`, the node has its result. -/
theorem C28_drained_has_result [Inhabited V] (app : F → V → VArgs V → List String → VArgs V → V) (size : V → Nat × Nat) (t t' : Tasks V F) (h : Reach app size t) (n : Nat)
    (hn : 0 < t.held n) (hs : t.step app size (.drain n) = some t') : (t'.res n).isSome := by
  obtain ⟨val, old, ids, hi⟩ := reach_inv h
  obtain ⟨t1, _, _, h1, _, h2, _⟩ := hi.exec (hi.heldLt n hn) (hi.notOld hn)
  simp only [Tasks.step, h1, Option.map_some, Option.some.injEq] at hs
  subst hs
  simp [h2]

theorem C28_applied_has_result [Inhabited V] (app : F → V → VArgs V → List String → VArgs V → V) (size : V → Nat × Nat) (t t' : Tasks V F) (h : Reach app size t) (d : Def V F)
    (hd : ∀ n ∈ d.nodes, 0 < t.held n) (hk : d.names.length = d.kwargs.length) (hs : t.step app size (.apply d) = some t') : (t'.res t.defs.length).isSome := by
  obtain ⟨val, old, ids, hi⟩ := reach_inv h
  obtain ⟨t1, _, _, h1, _, h2, _⟩ := (hi.construct d false hd hk).exec (i := t.defs.length) (by simp [Tasks.construct]) (by
    cases ho : old t.defs.length with
    | false => rfl
    | true => have := (hi.oldHeld _ ho).2; omega)
  simp only [Tasks.step] at hs
  rw [h1] at hs
  simp only [Option.some.injEq] at hs
  subst hs
  simp [h2]

/-- C28.  Deferring, copying and deleting call nothing. -/
theorem C28_deferring_calls_nothing (app : F → V → VArgs V → List String → VArgs V → V) (size : V → Nat × Nat) (t t' : Tasks V F) (op : TaskOp V F)
    (hop : ∀ n, op ≠ .drain n) (hop' : ∀ d, op ≠ .apply d) (hs : t.step app size op = some t') : t'.log = t.log ∧ t'.res = t.res := by
  cases op with
  | drain n => exact absurd rfl (hop n)
  | apply d => exact absurd rfl (hop' d)
  | defer d => simp only [Tasks.step, Option.some.injEq] at hs; subst hs; exact ⟨rfl, rfl⟩
  | copy n => simp only [Tasks.step, Option.some.injEq] at hs; subst hs; exact ⟨rfl, rfl⟩
  | delete n =>
    simp only [Tasks.step] at hs
    split at hs
    · simp at hs
    · simp only [Option.some.injEq] at hs; subst hs; exact ⟨rfl, rfl⟩

/-! ### A concrete case -/

/-- sums everything and adds the function's number -/
def exSum : VArgs Nat → Nat
  | .nil => 0
  | .val v rest => v + exSum rest
  | .list l rest => exSum l + exSum rest
def exApp (f obj : Nat) (args : VArgs Nat) (_ : List String) (kw : VArgs Nat) : Nat := f + obj + exSum args + 10 * exSum kw

instance (t : Tasks Nat Nat) (op : TaskOp Nat Nat) : Decidable (op.possible t) := by
  cases op <;> simp only [TaskOp.possible] <;> infer_instance

/-- a history, as long as its calls are possible -/
def exRun : List (TaskOp Nat Nat) → Tasks Nat Nat → Option (Tasks Nat Nat)
  | [], t => some t
  | op :: ops, t => if op.possible t then (t.step exApp (fun v => (v, 1)) op).bind (exRun ops) else none

/-- node 1 takes node 0 three times (input, argument, within a list); node 2 takes both and a keyword; node 1 is deleted -/
def exOps : List (TaskOp Nat Nat) :=
  [.defer ⟨.inl 5, 1, .nil, [], .nil⟩,
   .defer ⟨.inr 0, 2, .node 0 (.list (.node 0 (.val 4 .nil)) .nil), [], .nil⟩,
   .defer ⟨.inr 1, 3, .node 0 .nil, ["k"], .node 1 .nil⟩,
   .delete 1, .drain 2, .drain 0]

example : (exRun exOps {}).map (fun t => (t.res 0, t.res 2, t.log.length)) = some (some 6, some 273, 3) := by decide +kernel
example : (eager exApp ((exRun exOps {}).getD {}).defs []).map (List.map fun c => exApp c.fn c.obj c.args c.names c.kwargs) = some [6, 24, 273] := by decide +kernel

theorem exReach : ∀ (ops : List (TaskOp Nat Nat)) (t t' : Tasks Nat Nat), Reach exApp (fun v => (v, 1)) t → exRun ops t = some t' → Reach exApp (fun v => (v, 1)) t' := by
  intro ops
  induction ops with
  | nil => intro t t' h hr; simp only [exRun, Option.some.injEq] at hr; subst hr; exact h
  | cons op ops ih =>
    intro t t' h hr
    simp only [exRun] at hr
    by_cases hp : op.possible t
    · rw [if_pos hp] at hr
      cases hs : t.step exApp (fun v => (v, 1)) op with
      | none => rw [hs] at hr; simp at hr
      | some s =>
        rw [hs] at hr
        exact ih s t' (Reach.step op h hp hs) hr
    · rw [if_neg hp] at hr; simp at hr

/-- the state after those calls is reached, and in it node 2 can no longer be named while node 0 has its result -/
example : ∃ t, exRun exOps {} = some t ∧ Reach exApp (fun v => (v, 1)) t := by
  have h : (exRun exOps {}).isSome = true := by decide +kernel
  obtain ⟨t, ht⟩ := Option.isSome_iff_exists.1 h
  exact ⟨t, ht, exReach _ _ _ Reach.init ht⟩
