import Verif.Lemmas.Config
import Verif.Lemmas.Siblings
import Verif.Lemmas.Backend
/-
C26 configuration values behave like variables; C27 `context` restores; C37 the registry of backends; C38 spellings of one
switch; C47 backend, engine and storage format describe one execution.

Specification used in the statements: `valueAfter` (assignments to a variable), `changes` (the assignments that changed it)
and `Kind.initial` (the first value) in Verif/Lemmas/Config.lean; `siblingAfter`, `firstValue`, `Spellings` in
Verif/Lemmas/Siblings.lean.
-/

variable {V : Type} [DecidableEq V]

/-! ### C26 -/

theorem initial_holds (k : Kind V) (hk : k.Sound) (v0 : V) (h : k.initial = some v0) : ({} : Param V).Holds k v0 := by
  obtain ⟨v, hv, hg⟩ := hk.init
  rw [h] at hv
  simp only [Option.some.injEq] at hv
  subst hv
  exact ⟨Or.inr ⟨rfl, h⟩, hg⟩

/-- After every history, a parameter reads back the last accepted value, normalised. -/
theorem C26_reads_last_value_partial (k : Kind V) (hk : k.Sound) (v0 : V) (h0 : k.initial = some v0) (ops : List (ParamOp V)) :
    ((({} : Param V).run k ops).get k).1 = some (valueAfter k v0 ops) :=
  (get_holds k _ _ (run_holds k hk ops {} v0 (initial_holds k hk v0 h0))).1

/-- A value that is not accepted raises and changes nothing; an accepted one does not raise. -/
theorem C26_rejected_partial (k : Kind V) (hk : k.Sound) (v0 : V) (h0 : k.initial = some v0) (ops : List (ParamOp V)) (raw : V) :
    ((({} : Param V).run k ops).put k raw).1 = k.accepts raw ∧
    (k.accepts raw = false → (({} : Param V).run k ops).put k raw = (false, ({} : Param V).run k ops)) := by
  have h := run_holds k hk ops {} v0 (initial_holds k hk v0 h0)
  exact ⟨(put_holds k hk _ _ h raw).2, (put_spec k hk _ _ h raw).1⟩

theorem fresh_mentions (k : Kind V) (hk : k.Sound) (v0 : V) (h0 : k.initial = some v0) (id : Nat) (pre : List (ParamOp V))
    (hpre : ∀ o ∈ pre, o.names id = false) :
    (({} : Param V).run k pre).Mentions id [] [] ∧ (({} : Param V).run k pre).seen id = [] := by
  obtain ⟨h1, h2⟩ := run_subscriber k hk id [] pre hpre {} v0 (initial_holds k hk v0 h0) ⟨rfl, rfl⟩
  refine ⟨h2, ?_⟩
  rw [h1]
  simp [Param.seen]

theorem run_append (k : Kind V) (p : Param V) (a b : List (ParamOp V)) : p.run k (a ++ b) = (p.run k a).run k b := List.foldl_append

/-- A subscriber is told the value at the time it subscribes and then every new value, once each and in order. -/
theorem C26_subscriber_partial (k : Kind V) (hk : k.Sound) (v0 : V) (h0 : k.initial = some v0) (id : Nat) (pre post : List (ParamOp V))
    (hpre : ∀ o ∈ pre, o.names id = false) (hpost : ∀ o ∈ post, o.names id = false) :
    (({} : Param V).run k (pre ++ .subscribe id :: post)).seen id = valueAfter k v0 pre :: changes k (valueAfter k v0 pre) post := by
  obtain ⟨m1, m2⟩ := fresh_mentions k hk v0 h0 id pre hpre
  have h := run_holds k hk pre {} v0 (initial_holds k hk v0 h0)
  rw [run_append]
  generalize ({} : Param V).run k pre = p at m1 m2 h
  generalize valueAfter k v0 pre = v at h
  show ((p.subscribe k id).run k post).seen id = _
  have hs : ({ p with subs := p.subs ++ [id] } : Param V).Holds k v := h
  obtain ⟨c1, c2, c3, c4⟩ := call_holds k _ v id hs
  have hm : (p.subscribe k id).Mentions id [id] [] := by
    refine ⟨?_, ?_⟩
    · unfold Param.subscribe
      rw [c2]
      simp [m1.1]
    · unfold Param.subscribe
      rw [c3]
      exact m1.2
  obtain ⟨r1, _⟩ := run_subscriber k hk id [id] post hpost (p.subscribe k id) v ⟨Or.inl c1, h.2⟩ hm
  rw [r1]
  have hseen : (p.subscribe k id).seen id = [v] := by
    rw [seen_append p (p.subscribe k id) id [(id, v)] c4, m2]
    simp
  rw [hseen]
  simp

/-- A one-shot subscriber to a value is told once: at once if the parameter has the value, otherwise when it first gets it. -/
theorem C26_once_partial (k : Kind V) (hk : k.Sound) (v0 : V) (h0 : k.initial = some v0) (id : Nat) (raw : V) (pre post : List (ParamOp V))
    (hpre : ∀ o ∈ pre, o.names id = false) (hpost : ∀ o ∈ post, o.names id = false) :
    (({} : Param V).run k (pre ++ .once raw id :: post)).seen id =
      if k.normalize raw = valueAfter k v0 pre ∨ k.normalize raw ∈ changes k (valueAfter k v0 pre) post then [k.normalize raw] else [] := by
  obtain ⟨m1, m2⟩ := fresh_mentions k hk v0 h0 id pre hpre
  have h := run_holds k hk pre {} v0 (initial_holds k hk v0 h0)
  rw [run_append]
  generalize ({} : Param V).run k pre = p at m1 m2 h
  generalize valueAfter k v0 pre = v at h
  show (((p.addOnce k raw id).2).run k post).seen id = _
  obtain ⟨g1, g2, g3, g4, g5⟩ := get_holds k p v h
  unfold Param.addOnce
  generalize hg : p.get k = r at g1 g2 g3 g4 g5
  obtain ⟨a, q⟩ := r
  simp only at g1 g2 g3 g4 g5
  subst g1
  simp only
  have hq : q.Holds k v := ⟨Or.inl g2, h.2⟩
  have hqseen : q.seen id = [] := by unfold Param.seen at *; rw [g5]; exact m2
  by_cases hv : k.normalize raw = v
  · rw [if_pos hv, if_pos (Or.inl hv)]
    obtain ⟨c1, c2, c3, c4⟩ := call_holds k q v id hq
    obtain ⟨r1, _⟩ := run_subscriber k hk id [] post hpost (q.call k id) v ⟨Or.inl c1, h.2⟩
      ⟨by rw [c2, g3]; exact m1.1, by rw [c3, g4]; exact m1.2⟩
    simp only
    rw [r1, seen_append q (q.call k id) id [(id, v)] c4, hqseen, hv]
    simp
  · rw [if_neg hv]
    have hm : ({ q with once := q.once ++ [(k.normalize raw, id)] } : Param V).Mentions id [] [k.normalize raw] := by
      refine ⟨by simp only; rw [g3]; exact m1.1, ?_⟩
      simp only
      rw [g4]
      rw [List.filter_append, List.map_append, m1.2]
      simp
    have := run_once k hk id (k.normalize raw) post hpost { q with once := q.once ++ [(k.normalize raw, id)] } v ⟨Or.inl g2, h.2⟩ hm
    simp only
    rw [this]
    have hs : ({ q with once := q.once ++ [(k.normalize raw, id)] } : Param V).seen id = [] := hqseen
    rw [hs]
    simp [hv]

/-- `MinRowPartitionSize` meets the hypotheses. -/
theorem minSize_sound (config : Option PyV) (default : Int) (hd : 0 < default) (hc : ∀ v, config = some v → positive v = true) :
    (minSize config default).Sound := by
  refine ⟨?_, ?_⟩
  · intro raw ha
    unfold Kind.accepts minSize at ha
    simp only [Bool.and_eq_true] at ha
    cases raw with
    | none => simp [positive] at ha
    | bool b => cases b <;> simp_all [positive, minSize, normalizeInt]
    | int i => simp_all [positive, minSize, normalizeInt]
    | str s => simp [positive] at ha
  · cases config with
    | none => exact ⟨.int default, rfl, by simpa [minSize, positive] using hd⟩
    | some v => exact ⟨v, rfl, hc v rfl⟩

/-- parameters of the types `int` and `bool` without further checks meet them as well -/
theorem unchecked_sound (k : Kind V) (h : ∀ v, k.getOk v = true) (hc : k.config ≠ none) : k.Sound := by
  refine ⟨fun _ _ => h _, ?_⟩
  unfold Kind.initial
  cases hk : k.config with
  | none => exact absurd hk hc
  | some c =>
    cases c with
    | none => exact ⟨_, rfl, h _⟩
    | some v => exact ⟨v, rfl, h _⟩

example : (({} : Param PyV).run (minSize none 32) [.put (.int 5), .subscribe 1, .put (.int 0), .put (.int 7), .put (.int 7), .once (.int 9) 2, .put (.int 9), .put (.int 7), .put (.int 9)]).seen 1
    = [.int 5, .int 7, .int 9, .int 7, .int 9] := by decide
example : (({} : Param PyV).run (minSize none 32) [.put (.int 5), .subscribe 1, .put (.int 0), .put (.int 7), .put (.int 7), .once (.int 9) 2, .put (.int 9), .put (.int 7), .put (.int 9)]).seen 2
    = [.int 9] := by decide

/-- `NPartitions.put(0)` raises, but it has stored the value, and from then on every `get` and every `put` raises. -/
theorem C26_npartitions_wrong (config : Option PyV) (cpus : Int) (p : Param PyV) (v : PyV) (hp : p.Holds (npartitions config cpus) v)
    (ops : List (ParamOp PyV)) :
    (p.put (npartitions config cpus) (.int 0)).1 = false ∧
    ((((p.put (npartitions config cpus) (.int 0)).2).run (npartitions config cpus) ops).get (npartitions config cpus)).1 = none ∧
    ∀ raw, ((((p.put (npartitions config cpus) (.int 0)).2).run (npartitions config cpus) ops).put (npartitions config cpus) raw).1 = false := by
  let k := npartitions config cpus
  have stuck_get : ∀ q : Param PyV, q.value = some (.int 0) → q.get k = (none, q) := by
    intro q hq
    unfold Param.get
    simp [hq, k, npartitions, positive]
  have stuck_put : ∀ q : Param PyV, q.value = some (.int 0) → ∀ raw, q.put k raw = (false, q) := by
    intro q hq raw
    unfold Param.put
    rw [stuck_get q hq]
    split
    · rfl
    · split <;> rfl
  have stuck_step : ∀ q : Param PyV, q.value = some (.int 0) → ∀ o, (q.step k o).value = some (.int 0) := by
    intro q hq o
    cases o with
    | put raw => show (q.put k raw).2.value = _; rw [stuck_put q hq]; exact hq
    | get => show (q.get k).2.value = _; rw [stuck_get q hq]; exact hq
    | subscribe id =>
      show (Param.call k { q with subs := q.subs ++ [id] } id).value = _
      unfold Param.call
      rw [stuck_get { q with subs := q.subs ++ [id] } hq]
      exact hq
    | once raw id =>
      show (q.addOnce k raw id).2.value = _
      unfold Param.addOnce
      rw [stuck_get q hq]
      exact hq
  have stuck_run : ∀ (ops : List (ParamOp PyV)) (q : Param PyV), q.value = some (.int 0) → (q.run k ops).value = some (.int 0) := by
    intro ops
    induction ops with
    | nil => intro q hq; exact hq
    | cons o ops ih => intro q hq; exact ih _ (stuck_step q hq o)
  have hput : (p.put k (.int 0)).1 = false ∧ (p.put k (.int 0)).2.value = some (.int 0) := by
    obtain ⟨g1, g2, g3, g4, g5⟩ := get_holds k p v hp
    unfold Param.put
    generalize hg : p.get k = r at g1 g2
    obtain ⟨a, q⟩ := r
    simp only at g1 g2
    subst g1
    simp only [k, npartitions, verifyInt, Bool.not_true, Bool.false_eq_true, if_false, normalizeInt]
    unfold Param.checkCallbacks
    have := stuck_get { q with value := some (.int 0) } rfl
    simp only [k, npartitions] at this
    rw [this]
    exact ⟨rfl, rfl⟩
  refine ⟨hput.1, ?_, ?_⟩
  · show ((((p.put k (.int 0)).2).run k ops).get k).1 = none
    rw [stuck_get _ (stuck_run ops _ hput.2)]
  · intro raw
    show ((((p.put k (.int 0)).2).run k ops).put k raw).1 = false
    rw [stuck_put _ (stuck_run ops _ hput.2)]

example : ({} : Param PyV).Holds (npartitions none 4) (.int 4) := by
  refine ⟨Or.inr ⟨rfl, rfl⟩, by decide⟩

/-- A `bool` parameter accepts the string "false" and then reads true; the environment variable "false" means false. -/
theorem C26_bool_string_wrong :
    ((({} : Param PyV).put (boolParameter none false) (.str "false")).1 = true ∧
      ((({} : Param PyV).put (boolParameter none false) (.str "false")).2.get (boolParameter none false)).1 = some (.bool true)) ∧
    (({} : Param PyV).get (boolParameter (some "false") false)).1 = some (.bool false) := by decide

/-! ### C27 -/

/-- A `with context(...)` block whose values are accepted, whatever its body does and whether or not it raises: the block
    ends as its body ended, every listed parameter reads what it read before, every other one reads what it read at the end
    of the body. -/
theorem C27_context_partial (ks : Nat → Kind V) (hk : ∀ n, (ks n).Sound) (s : Store V) (vals : Nat → V)
    (h : ∀ n, ((s n).get (ks n)).1 = some (vals n)) (config : List (Nat × V)) (hnd : (config.map (·.1)).Nodup)
    (hacc : ∀ e ∈ config, (ks e.1).accepts e.2 = true)
    (hres : ∀ e ∈ config, (ks e.1).accepts (vals e.1) = true ∧ (ks e.1).normalize (vals e.1) = vals e.1) (body : Prog V) :
    ((Prog.block config body .done).exec ks s).1 = (body.exec ks (s.enter ks config).2).1 ∧
    ∀ n, ((((Prog.block config body .done).exec ks s).2 n).get (ks n)).1 =
      if n ∈ config.map (·.1) then some (vals n) else (((body.exec ks (s.enter ks config).2).2 n).get (ks n)).1 := by
  obtain ⟨vals', h1, h2, h3⟩ := block_spec ks hk s vals (fun n => holds_of_get (ks n) (s n) (vals n) (h n)) config hnd hacc hres body
  refine ⟨h1, ?_⟩
  intro n
  rw [(get_holds (ks n) _ _ (h3 n)).1]
  rw [(get_holds (ks n) _ _ (h2 n)).1]
  simp only
  split <;> rfl

/-- Inside the block the parameters have the values asked for. -/
theorem C27_context_enter (ks : Nat → Kind V) (hk : ∀ n, (ks n).Sound) (config : List (Nat × V)) : ∀ (s : Store V) (vals : Nat → V),
    (∀ n, ((s n).get (ks n)).1 = some (vals n)) → (config.map (·.1)).Nodup → (∀ e ∈ config, (ks e.1).accepts e.2 = true) →
    (∀ e ∈ config, (((s.enter ks config).2 e.1).get (ks e.1)).1 = some ((ks e.1).normalize e.2)) ∧
    ∀ n, n ∉ config.map (·.1) → (((s.enter ks config).2 n).get (ks n)).1 = some (vals n) := by
  induction config with
  | nil => intro s vals h _ _; exact ⟨by simp, fun n _ => h n⟩
  | cons e config ih =>
    obtain ⟨n, v⟩ := e
    intro s vals h hnd hacc
    have hold : ∀ m, (s m).Holds (ks m) (vals m) := fun m => holds_of_get (ks m) (s m) (vals m) (h m)
    rw [List.map_cons, List.nodup_cons] at hnd
    have ha := hacc (n, v) List.mem_cons_self
    simp only at ha
    obtain ⟨g1, g2, _⟩ := get_holds (ks n) (s n) (vals n) (hold n)
    have hq := get_holds_holds (ks n) (s n) (vals n) (hold n)
    have hent : (s.enter ks ((n, v) :: config)).2 = ((s.set n ((((s n).get (ks n)).2.put (ks n) v).2)).enter ks config).2 := by
      rw [Store.enter]
      generalize hg : (s n).get (ks n) = r at g1 hq
      obtain ⟨a, p⟩ := r
      simp only at g1 hq
      subst g1
      simp only
      obtain ⟨p1, p2⟩ := put_holds (ks n) (hk n) p (vals n) hq v
      generalize hg' : p.put (ks n) v = r' at p1 p2
      obtain ⟨b, q⟩ := r'
      simp only at p1 p2
      rw [ha] at p2
      subst p2
      simp only
      generalize ((s.set n q).enter ks config) = w
      obtain ⟨o, t⟩ := w
      cases o <;> rfl
    obtain ⟨p1, p2⟩ := put_holds (ks n) (hk n) _ (vals n) hq v
    rw [ha, if_pos rfl] at p1
    have hset := set_holds ks s vals hold n _ _ p1
    have hrec := ih _ (upd vals n ((ks n).normalize v)) (fun m => (get_holds (ks m) _ _ (hset m)).1) hnd.2
      (fun e he => hacc e (List.mem_cons_of_mem _ he))
    rw [hent]
    constructor
    · intro e he
      rcases List.mem_cons.1 he with rfl | he
      · rw [hrec.2 n hnd.1]
        simp [upd]
      · exact hrec.1 e he
    · intro m hm
      simp only [List.map_cons, List.mem_cons, not_or] at hm
      rw [hrec.2 m hm.2]
      simp [upd, hm.1]

/-- two `MinRowPartitionSize`-like parameters, all others alike; a body that changes one of them, opens a block and raises -/
def sizes : Nat → Kind PyV := fun n => minSize none (n + 1)

example : (∀ n, (sizes n).Sound) ∧ (∀ n, ((fun _ => {} : Store PyV) n).get (sizes n) = (some (.int (n + 1)), { value := some (.int (n + 1)), source := some .default })) ∧
    (∀ e ∈ [(0, PyV.int 5), (1, PyV.int 6)], (sizes e.1).accepts e.2 = true ∧ (sizes e.1).accepts (.int (e.1 + 1)) = true ∧ (sizes e.1).normalize (.int (e.1 + 1)) = .int (e.1 + 1)) := by
  refine ⟨fun n => minSize_sound none _ (by omega) (by simp), ?_, by decide⟩
  intro n
  simp [Param.get, sizes, minSize, positive]

example : let r := (Prog.block [(0, PyV.int 5), (1, .int 6)] (.op 0 (.put (.int 9)) (.block [(1, .int 8)] (.op 2 (.put (.int 4)) .raise) .done)) .done).exec sizes (fun _ => {})
    r.1 = false ∧ ((r.2 0).get (sizes 0)).1 = some (.int 1) ∧ ((r.2 1).get (sizes 1)).1 = some (.int 2) ∧ ((r.2 2).get (sizes 2)).1 = some (.int 4) := by decide

/-- `GpuCount` has no default: `with context(GpuCount=2)` raises on leaving and leaves the value behind. -/
theorem C27_no_default_wrong :
    ((({} : Param PyV).get (gpuCount none)).1 = some .none) ∧
    (((Prog.block [(0, PyV.int 2)] .done .done).exec (fun _ => gpuCount none) (fun _ => {})).1 = false) ∧
    (((((Prog.block [(0, PyV.int 2)] .done .done).exec (fun _ => gpuCount none) (fun _ => {})).2) 0).get (gpuCount none)).1 = some (.int 2) := by decide

/-- When the second value is rejected on entry, the first parameter keeps the value meant for the block. -/
theorem C27_entry_wrong :
    ((({} : Param PyV).get (minSize none 32)).1 = some (.int 32)) ∧
    (((Prog.block [(0, PyV.int 5), (1, .int 0)] .done .done).exec (fun _ => minSize none 32) (fun _ => {})).1 = false) ∧
    (((((Prog.block [(0, PyV.int 5), (1, .int 0)] .done .done).exec (fun _ => minSize none 32) (fun _ => {})).2) 0).get (minSize none 32)).1 = some (.int 5) := by decide

/-! ### C37 -/

/-- After every history of registrations and activations names and executions correspond one to one. -/
theorem C37_registry {S : Type} [DecidableEq S] (choices : List S) (ops : List (RegOp S)) (name : S) (e : Exec S) :
    let g := ({ choices := choices } : Registry S).run ops
    (g.toExec.lookup name = some e ↔ g.backendFor e = some name) :=
  bij_run _ (bij_empty choices) ops name e

/-- A registration that raises leaves both directions as they were; one that succeeds adds the pair and nothing else. -/
theorem C37_register_partial {S : Type} [DecidableEq S] (choices : List S) (ops : List (RegOp S)) (name : S) (e : Exec S) :
    let g := ({ choices := choices } : Registry S).run ops
    ((g.register name e).1 = false ↔ (∃ x, g.toExec.lookup name = some x) ∨ ∃ n, g.backendFor e = some n) ∧
    ((g.register name e).1 = false → (∀ n, (g.register name e).2.toExec.lookup n = g.toExec.lookup n) ∧ ∀ x, (g.register name e).2.backendFor x = g.backendFor x) ∧
    ((g.register name e).1 = true → (g.register name e).2.executionFor name = some e ∧ (g.register name e).2.backendFor e = some name ∧
      (∀ n, n ≠ name → (g.register name e).2.toExec.lookup n = g.toExec.lookup n) ∧ ∀ x, x ≠ e → (g.register name e).2.backendFor x = g.backendFor x) := by
  intro g
  have ho : (g.addOption name).toExec = g.toExec ∧ (g.addOption name).toBackend = g.toBackend := by
    unfold Registry.addOption; split <;> exact ⟨rfl, rfl⟩
  have hm : name ∈ (g.addOption name).choices := by
    unfold Registry.addOption
    split
    · assumption
    · simp
  unfold Registry.register Registry.backendFor
  simp only
  rw [ho.1, ho.2]
  by_cases h1 : (g.toExec.lookup name).isSome = true
  · rw [if_pos h1]
    obtain ⟨x, hx⟩ := Option.isSome_iff_exists.1 h1
    simp [ho.1, ho.2, hx]
  · rw [if_neg h1]
    have h1' := Option.not_isSome_iff_eq_none.1 h1
    by_cases h2 : (g.toBackend.lookup e).isSome = true
    · rw [if_pos h2]
      obtain ⟨x, hx⟩ := Option.isSome_iff_exists.1 h2
      simp [ho.1, ho.2, hx]
    · rw [if_neg h2]
      have h2' := Option.not_isSome_iff_eq_none.1 h2
      refine ⟨by simp [h1', h2'], by simp, fun _ => ⟨?_, ?_, ?_, ?_⟩⟩
      · unfold Registry.executionFor
        rw [if_pos hm]
        simp only
        rw [lookup_append_none _ _ _ h1']
        simp
      · simp only
        rw [lookup_append_none _ _ _ h2']
        simp
      · intro n hn
        cases hx : g.toExec.lookup n with
        | some y => exact lookup_append_some _ _ _ _ hx
        | none =>
          simp only
          rw [lookup_append_none _ _ _ hx]
          have : (n == name) = false := by simpa using hn
          simp [List.lookup_cons, this]
      · intro x hx'
        cases hx : g.toBackend.lookup x with
        | some y => exact lookup_append_some _ _ _ _ hx
        | none =>
          simp only
          rw [lookup_append_none _ _ _ hx]
          have : (x == e) = false := by simpa using hx'
          simp [List.lookup_cons, this]

/-- What is registered stays registered, to the same execution. -/
theorem C37_registered_stays {S : Type} [DecidableEq S] (choices : List S) (ops ops' : List (RegOp S)) (name : S) (e : Exec S)
    (h : (({ choices := choices } : Registry S).run ops).toExec.lookup name = some e) :
    (({ choices := choices } : Registry S).run (ops ++ ops')).toExec.lookup name = some e := by
  unfold Registry.run at *
  rw [List.foldl_append]
  generalize ops.foldl Registry.step ({ choices := choices } : Registry S) = g at h
  induction ops' generalizing g with
  | nil => exact h
  | cons o ops' ih => exact ih _ ((le_step g o).1 name e h)

/-- A registration that raises, because the execution is taken, still adds the name to the active backends. -/
theorem C37_rejected_active_wrong :
    let g := ({ choices := [] } : Registry Nat).run [.register 1 (10, 20)]
    (g.register 2 (10, 20)).1 = false ∧ 2 ∉ g.choices ∧ 2 ∈ (g.register 2 (10, 20)).2.choices ∧ (g.register 2 (10, 20)).2.executionFor 2 = none := by decide

/-- Activating a backend that is active, documented to do nothing, lists it twice. -/
theorem C37_activate_twice_wrong :
    let g := ({ choices := [] } : Registry Nat).run [.register 1 (10, 20)]
    g.choices = [1] ∧ (g.activate 1).1 = true ∧ (g.activate 1).2.choices = [1, 1] := by decide

example : let g := ({ choices := [] } : Registry Nat).run [.register 1 (10, 20), .register 2 (10, 20), .register 1 (11, 21), .register 3 (11, 21)]
    g.toExec = [(1, (10, 20)), (3, (11, 21))] ∧ g.backendFor (11, 21) = some 3 ∧ g.backendFor (10, 20) = some 1 := by decide

/-! ### C38 -/

/-- Two spellings of one switch, not both given by the environment: after every history of calls under either name both
    read the last accepted value, or the first value if there is none. -/
theorem C38_spellings_partial (ka kb : Kind V) (h : Spellings ka kb) (ops : List (SiblingOp V)) :
    let s := ops.foldl (siblingStep ka kb) (({} : Param V), ({} : Param V))
    (siblingGet ka kb s.1 s.2).1 = some (siblingAfter ka (firstValue ka kb) ops) ∧
    (siblingGet kb ka s.2 s.1).1 = some (siblingAfter ka (firstValue ka kb) ops) := by
  have hs := sibling_run ka kb h ops (({} : Param V), ({} : Param V)) (firstValue ka kb) (Or.inl ⟨rfl, rfl, rfl⟩)
  exact ⟨(siblingGet_spec ka kb h _ _ _ hs).1, (siblingGet_spec kb ka h.symm _ _ _ (stands_symm h hs)).1⟩

example : Spellings (boolParameter (some "true") false) (boolParameter none false) :=
  ⟨rfl, rfl, rfl, fun _ => rfl, fun _ => rfl, by simp [boolParameter], by simp [boolParameter], Or.inr rfl⟩

example : let ka := boolParameter (some "true") false
    let kb := boolParameter none false
    siblingAfter ka (firstValue ka kb) [.get false] = .bool true ∧
    siblingAfter ka (firstValue ka kb) [.put false (.bool false), .put true .none] = .bool false := by decide

/-- When the environment gives both spellings, the first `get` raises and the next ones read different values. -/
theorem C38_both_wrong :
    let ka := boolParameter (some "true") false
    let kb := boolParameter (some "false") false
    let s := ([.get true] : List (SiblingOp PyV)).foldl (siblingStep ka kb) ({}, {})
    (siblingGet ka kb {} {}).1 = none ∧ (siblingGet ka kb s.1 s.2).1 = some (.bool true) ∧ (siblingGet kb ka s.2 s.1).1 = some (.bool false) := by decide

/-! ### C47 -/

section
variable {S : Type} [DecidableEq S]

theorem isEngine_unique (v : ExecEnv S) (g : Registry S) (hb : v.backend = none) (a b : S) (ha : IsEngine v g a) (hb' : IsEngine v g b) : a = b := by
  unfold IsEngine at *
  rw [hb] at ha hb'
  cases hv : v.engine with
  | some e => rw [hv] at ha hb'; simp at ha hb'; exact ha.symm.trans hb'
  | none => rw [hv] at ha hb'; simp at ha hb'; exact ha.trans hb'.symm

theorem isFormat_unique (v : ExecEnv S) (g : Registry S) (hb : v.backend = none) (a b : S) (ha : IsFormat v g a) (hb' : IsFormat v g b) : a = b := by
  unfold IsFormat at *
  rw [hb] at ha hb'
  cases hv : v.format with
  | some e => rw [hv] at ha hb'; simp at ha hb'; exact ha.symm.trans hb'
  | none => rw [hv] at ha hb'; simp at ha hb'; exact ha.trans hb'.symm

/-- the three values describe one execution -/
theorem consistent_values (v : ExecEnv S) (st : ExecState S) (h : st.Consistent v) (e f b : S) (he : st.engine = some e) (hf : st.format = some f)
    (hb : st.backend = some b) : st.registry.backendFor (f, e) = some b := by
  rcases h.2 with ⟨e', f', b', h1, h2, h3, h4⟩ | ⟨h1, h2, h3⟩
  · rw [he] at h1; rw [hf] at h2; rw [hb] at h3
    simp only [Option.some.injEq] at h1 h2 h3
    subst h1 h2 h3
    exact h4
  · have hc := (h1 e he).1
    have i1 := (h1 e he).2
    have i2 := (h2 f hf).2
    rcases (h3 b hb).2 with h4 | ⟨h4, f', e', h5, h6, h7⟩
    · have hve : v.engine = none ∧ v.format = none := by
        unfold ExecEnv.conflict at hc
        rw [h4] at hc
        simpa using hc
      rcases i1 with i | ⟨_, b1, x1, i3, i4, i5⟩ | ⟨_, i, _⟩
      · rw [hve.1] at i; simp at i
      · rcases i2 with j | ⟨_, b2, x2, j3, j4, j5⟩ | ⟨_, j, _⟩
        · rw [hve.2] at j; simp at j
        · rw [h4] at i3 j3
          simp only [Option.some.injEq] at i3 j3
          subst i3 j3
          rw [i4] at j4
          simp only [Option.some.injEq] at j4
          subst j4
          rw [i5, j5]
          unfold Registry.executionFor at i4
          split at i4
          · exact (h.1 b x1).1 i4
          · simp at i4
        · rw [h4] at j; simp at j
      · rw [h4] at i; simp at i
    · rw [isEngine_unique v st.registry h4 e e' i1 h6, isFormat_unique v st.registry h4 f f' i2 h5]
      exact h7

/-- After every history of reading and setting the three parameters and of registering and activating backends: if they can
    be read, one after the other, they describe one execution. -/
theorem C47_one_execution_partial (v : ExecEnv S) (ops0 : List (RegOp S)) (choices : List S) (ops : List (ExecOp S))
    (hops : ∀ o ∈ ops, o.grows = true) (e f b : S) :
    let st : ExecState S := (ExecState.run v { registry := ({ choices := choices } : Registry S).run ops0 } ops)
    let r1 := st.getEngine v
    let r2 := r1.2.getFormat v
    let r3 := r2.2.getBackend v
    r1.1 = some e → r2.1 = some f → r3.1 = some b → r3.2.registry.backendFor (f, e) = some b := by
  intro st r1 r2 r3 h1 h2 h3
  have hst : st.Consistent v := by
    refine exec_run v ops hops _ ⟨bij_run _ (bij_empty choices) ops0, Or.inr ⟨?_, ?_, ?_⟩⟩ <;> simp
  obtain ⟨a1, a2, a3, a4, a5, a6, a7⟩ := getEngine_spec v st hst
  obtain ⟨b1, b2, b3, b4, b5, b6, b7⟩ := getFormat_spec v r1.2 a1
  obtain ⟨c1, c2, c3, c4, c5⟩ := getBackend_spec v r2.2 b1
  refine consistent_values v r3.2 c1 e f b ?_ ?_ (c3 b h3)
  · exact c4 e (by show r2.2.engine = some e; rw [b3]; exact a5 e h1)
  · exact c5 f (b5 f h2)

/-- Setting one of the three parameters, when it does not raise, sets it, keeps the other half of the execution where there
    is one, and all three can be read afterwards. -/
theorem C47_put_partial (v : ExecEnv S) (ops0 : List (RegOp S)) (choices : List S) (ops : List (ExecOp S)) (hops : ∀ o ∈ ops, o.grows = true) (x : S) :
    let st : ExecState S := (ExecState.run v { registry := ({ choices := choices } : Registry S).run ops0 } ops)
    ((st.putBackend v x).1 = true → ∃ e, st.registry.executionFor x = some e ∧ ((st.putBackend v x).2.getBackend v).1 = some x ∧
      ((st.putBackend v x).2.getEngine v).1 = some e.2 ∧ ((st.putBackend v x).2.getFormat v).1 = some e.1) ∧
    ((st.putEngine v x).1 = true → ((st.putEngine v x).2.getEngine v).1 = some x ∧ ((st.putEngine v x).2.getFormat v).1 = (st.getFormat v).1) ∧
    ((st.putFormat v x).1 = true → ((st.putFormat v x).2.getFormat v).1 = some x ∧ ((st.putFormat v x).2.getEngine v).1 = (st.getEngine v).1) := by
  intro st
  have hst : st.Consistent v := by
    refine exec_run v ops hops _ ⟨bij_run _ (bij_empty choices) ops0, Or.inr ⟨?_, ?_, ?_⟩⟩ <;> simp
  refine ⟨?_, ?_, ?_⟩
  · intro h
    obtain ⟨h1, h2, h3⟩ := putBackend_spec v st hst x
    obtain ⟨h4, e, h5, h6, h7⟩ := h3 h
    refine ⟨e, h5, ?_, ?_, ?_⟩
    · simp [ExecState.getBackend, h4]
    · simp [ExecState.getEngine, h6]
    · simp [ExecState.getFormat, h7]
  · intro h
    obtain ⟨h1, h2⟩ := putEngine_spec v st hst x
    obtain ⟨h3, h4⟩ := h2 h
    obtain ⟨g1, _, _, _, g5, _, g7⟩ := getFormat_spec v _ h1
    have hsome : ∃ f, (st.getFormat v).1 = some f := by
      cases hf : (st.getFormat v).1 with
      | some f => exact ⟨f, rfl⟩
      | none =>
        exfalso
        unfold ExecState.putEngine at h
        generalize hg : st.getFormat v = r at hf h
        obtain ⟨a, q⟩ := r
        simp only at hf
        subst hf
        simp at h
    obtain ⟨f, hf⟩ := hsome
    refine ⟨?_, ?_⟩
    · simp [ExecState.getEngine, h3]
    · rw [hf]
      exact g7 f (by rw [h4, hf])
  · intro h
    obtain ⟨h1, h2⟩ := putFormat_spec v st hst x
    obtain ⟨h3, h4⟩ := h2 h
    obtain ⟨g1, _, _, _, g5, _, g7⟩ := getEngine_spec v _ h1
    have hsome : ∃ f, (st.getEngine v).1 = some f := by
      cases hf : (st.getEngine v).1 with
      | some f => exact ⟨f, rfl⟩
      | none =>
        exfalso
        unfold ExecState.putFormat at h
        generalize hg : st.getEngine v = r at hf h
        obtain ⟨a, q⟩ := r
        simp only at hf
        subst hf
        simp at h
    obtain ⟨f, hf⟩ := hsome
    refine ⟨?_, ?_⟩
    · simp [ExecState.getFormat, h3]
    · rw [hf]
      exact g7 f (by rw [h4, hf])

end

/-- storage format 10 (Pandas) with engines 20 and 21, storage format 11 (Native) with engine 22; backends 1, 2, 3 -/
def threeBackends : List (RegOp Nat) := [.register 1 (10, 20), .register 2 (10, 21), .register 3 (11, 22)]

example : let v : ExecEnv Nat := { engine := none, format := none, backend := none, defaultEngine := 20, defaultFormat := 10 }
    let st := ExecState.run v { registry := ({ choices := [] } : Registry Nat).run threeBackends } [.getEngine, .putBackend 3, .putEngine 20, .putBackend 2, .registry (.register 4 (12, 23))]
    (st.engine, st.format, st.backend) = (some 21, some 10, some 2) ∧ (st.putEngine v 20).1 = true ∧ (st.putFormat v 11).1 = false ∧ (st.putBackend v 4).1 = true := by decide

/-- If the backend named by the environment is deactivated for a while, a failed `put` changes the engine only; afterwards all
    three can be read and describe no execution. -/
theorem C47_deactivated_wrong :
    let v : ExecEnv Nat := { engine := none, format := none, backend := some 3, defaultEngine := 20, defaultFormat := 10 }
    let st := ExecState.run v { registry := ({ choices := [] } : Registry Nat).run threeBackends }
      [.getEngine, .registry (.setActive [1, 2]), .putBackend 1, .registry (.setActive [1, 2, 3])]
    let r1 := st.getEngine v
    let r2 := r1.2.getFormat v
    let r3 := r2.2.getBackend v
    (r1.1, r2.1, r3.1) = (some 20, some 11, some 3) ∧ r3.2.registry.backendFor (11, 20) = none ∧ r3.2.registry.executionFor 3 = some (11, 22) := by decide
