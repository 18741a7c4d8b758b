import Verif.Model.Config
/-
Lemmas about the registry of backends and about sibling parameters.
-/

variable {S : Type} [DecidableEq S]

theorem lookup_append_some {K V : Type} [BEq K] (l m : List (K × V)) (k : K) (v : V) (h : l.lookup k = some v) :
    (l ++ m).lookup k = some v := by
  induction l with
  | nil => simp at h
  | cons e l ih =>
    obtain ⟨a, b⟩ := e
    rw [List.cons_append, List.lookup_cons] at *
    by_cases hk : (k == a) = true
    · simp only [hk] at h ⊢; exact h
    · have hk' : (k == a) = false := by simpa using hk
      simp only [hk'] at h ⊢; exact ih h

theorem lookup_append_none {K V : Type} [BEq K] (l m : List (K × V)) (k : K) (h : l.lookup k = none) :
    (l ++ m).lookup k = m.lookup k := by
  induction l with
  | nil => rfl
  | cons e l ih =>
    obtain ⟨a, b⟩ := e
    rw [List.cons_append, List.lookup_cons] at *
    by_cases hk : (k == a) = true
    · simp only [hk] at h; simp at h
    · have hk' : (k == a) = false := by simpa using hk
      simp only [hk'] at h ⊢; exact ih h

/-- names and executions correspond one to one -/
def Registry.Bij (g : Registry S) : Prop := ∀ n e, g.toExec.lookup n = some e ↔ g.toBackend.lookup e = some n

theorem bij_step (g : Registry S) (h : g.Bij) (o : RegOp S) : (g.step o).Bij := by
  cases o with
  | activate name =>
    simp only [Registry.step, Registry.activate]
    split <;> exact h
  | setActive names =>
    simp only [Registry.step, Registry.setActive]
    split <;> exact h
  | register name e =>
    simp only [Registry.step, Registry.register]
    have ho : (g.addOption name).toExec = g.toExec ∧ (g.addOption name).toBackend = g.toBackend := by
      unfold Registry.addOption; split <;> exact ⟨rfl, rfl⟩
    split
    · intro n x; rw [ho.1, ho.2]; exact h n x
    · rename_i h1
      split
      · intro n x; rw [ho.1, ho.2]; exact h n x
      · rename_i h2
        rw [ho.1] at h1
        rw [ho.2] at h2
        have h1 : g.toExec.lookup name = none := Option.not_isSome_iff_eq_none.1 h1
        have h2 : g.toBackend.lookup e = none := Option.not_isSome_iff_eq_none.1 h2
        intro n x
        simp only [ho.1, ho.2]
        cases hn : g.toExec.lookup n with
        | some y =>
          rw [lookup_append_some _ _ _ _ hn]
          have hy := (h n y).1 hn
          constructor
          · intro hyx
            simp only [Option.some.injEq] at hyx
            subst hyx
            exact lookup_append_some _ _ _ _ hy
          · intro hx
            cases hx' : g.toBackend.lookup x with
            | some m =>
              rw [lookup_append_some _ _ _ _ hx'] at hx
              simp only [Option.some.injEq] at hx
              subst hx
              have := (h m x).2 hx'
              rw [hn] at this
              exact this
            | none =>
              rw [lookup_append_none _ _ _ hx'] at hx
              simp only [List.lookup_cons, List.lookup_nil] at hx
              split at hx
              · simp only [Option.some.injEq] at hx
                subst hx
                rw [h1] at hn; simp at hn
              · simp at hx
        | none =>
          rw [lookup_append_none _ _ _ hn]
          constructor
          · intro hx
            simp only [List.lookup_cons, List.lookup_nil] at hx
            split at hx
            · rename_i hb
              simp only [Option.some.injEq] at hx
              subst hx
              rw [lookup_append_none _ _ _ h2]
              have : n = name := by simpa using hb
              simp [this]
            · simp at hx
          · intro hx
            cases hx' : g.toBackend.lookup x with
            | some m =>
              rw [lookup_append_some _ _ _ _ hx'] at hx
              simp only [Option.some.injEq] at hx
              subst hx
              have := (h m x).2 hx'
              rw [hn] at this; simp at this
            | none =>
              rw [lookup_append_none _ _ _ hx'] at hx
              simp only [List.lookup_cons, List.lookup_nil] at hx
              split at hx
              · rename_i hb
                simp only [Option.some.injEq] at hx
                subst hx
                have : x = e := by simpa using hb
                simp [this]
              · simp at hx

theorem bij_run (g : Registry S) (h : g.Bij) (ops : List (RegOp S)) : (g.run ops).Bij := by
  induction ops generalizing g with
  | nil => exact h
  | cons o ops ih => exact ih _ (bij_step g h o)

theorem bij_empty (choices : List S) : ({ choices := choices } : Registry S).Bij := by
  intro n e; simp

/-- what is registered stays registered -/
def Registry.Le (g g' : Registry S) : Prop :=
  (∀ n e, g.toExec.lookup n = some e → g'.toExec.lookup n = some e) ∧ (∀ n e, g.toBackend.lookup e = some n → g'.toBackend.lookup e = some n)

theorem le_refl (g : Registry S) : g.Le g := ⟨fun _ _ h => h, fun _ _ h => h⟩

theorem le_step (g : Registry S) (o : RegOp S) : g.Le (g.step o) := by
  cases o with
  | activate name =>
    simp only [Registry.step, Registry.activate]
    split <;> exact le_refl g
  | setActive names =>
    simp only [Registry.step, Registry.setActive]
    split <;> exact le_refl g
  | register name e =>
    simp only [Registry.step, Registry.register]
    have ho : (g.addOption name).toExec = g.toExec ∧ (g.addOption name).toBackend = g.toBackend := by
      unfold Registry.addOption; split <;> exact ⟨rfl, rfl⟩
    have hl : g.Le (g.addOption name) := ⟨fun n e h => by rw [ho.1]; exact h, fun n e h => by rw [ho.2]; exact h⟩
    split
    · exact hl
    · split
      · exact hl
      · exact ⟨fun n e h => by simp only [ho.1]; exact lookup_append_some _ _ _ _ h,
          fun n e h => by simp only [ho.2]; exact lookup_append_some _ _ _ _ h⟩

/-- the set of active backends does not shrink -/
def RegOp.grows : RegOp S → Bool
  | .setActive _ => false
  | _ => true

theorem choices_step (g : Registry S) (o : RegOp S) (ho : o.grows = true) : ∀ n ∈ g.choices, n ∈ (g.step o).choices := by
  intro n hn
  cases o with
  | setActive names => simp [RegOp.grows] at ho
  | activate name =>
    simp only [Registry.step, Registry.activate]
    split
    · simp [hn]
    · exact hn
  | register name e =>
    simp only [Registry.step, Registry.register]
    have : n ∈ (g.addOption name).choices := by
      unfold Registry.addOption; split <;> simp [hn]
    split
    · exact this
    · split <;> exact this

/-! ### the three parameters -/

/-- the engine the environment asks for -/
def IsEngine (v : ExecEnv S) (g : Registry S) (e : S) : Prop :=
  v.engine = some e ∨ (v.engine = none ∧ ∃ b x, v.backend = some b ∧ g.executionFor b = some x ∧ e = x.2) ∨
    (v.engine = none ∧ v.backend = none ∧ e = v.defaultEngine)

/-- the storage format the environment asks for -/
def IsFormat (v : ExecEnv S) (g : Registry S) (f : S) : Prop :=
  v.format = some f ∨ (v.format = none ∧ ∃ b x, v.backend = some b ∧ g.executionFor b = some x ∧ f = x.1) ∨
    (v.format = none ∧ v.backend = none ∧ f = v.defaultFormat)

/-- the backend the environment asks for -/
def IsBackend (v : ExecEnv S) (g : Registry S) (b : S) : Prop :=
  v.backend = some b ∨ (v.backend = none ∧ ∃ f e, IsFormat v g f ∧ IsEngine v g e ∧ g.backendFor (f, e) = some b)

/-- one and the same execution -/
def ExecState.Consistent (v : ExecEnv S) (st : ExecState S) : Prop :=
  st.registry.Bij ∧
  ((∃ e f b, st.engine = some e ∧ st.format = some f ∧ st.backend = some b ∧ st.registry.backendFor (f, e) = some b) ∨
   ((∀ e, st.engine = some e → v.conflict = false ∧ IsEngine v st.registry e) ∧
    (∀ f, st.format = some f → v.conflict = false ∧ IsFormat v st.registry f) ∧
    (∀ b, st.backend = some b → v.conflict = false ∧ IsBackend v st.registry b)))

theorem getEngine_spec (v : ExecEnv S) (st : ExecState S) (h : st.Consistent v) :
    (st.getEngine v).2.Consistent v ∧ (st.getEngine v).2.registry = st.registry ∧ (st.getEngine v).2.format = st.format ∧
    (st.getEngine v).2.backend = st.backend ∧
    (∀ e, (st.getEngine v).1 = some e → (st.getEngine v).2.engine = some e) ∧
    ((st.getEngine v).1 = none → (st.getEngine v).2 = st) ∧
    (∀ e, st.engine = some e → (st.getEngine v).1 = some e) := by
  unfold ExecState.getEngine
  cases he : st.engine with
  | some e => exact ⟨h, rfl, rfl, rfl, by simpa using he, by simp, by simp⟩
  | none =>
    simp only
    cases hc : v.conflict with
    | true => exact ⟨by simpa using h, by simp, by simp, by simp, by simp, by simp, by simp⟩
    | false =>
      simp only [Bool.false_eq_true, if_false]
      generalize hr : v.initialEngine st.registry = r
      cases r with
      | none => exact ⟨h, rfl, rfl, rfl, by simp, by simp, by simp⟩
      | some e =>
        refine ⟨⟨h.1, Or.inr ?_⟩, rfl, rfl, rfl, by simp, by simp, by simp⟩
        rcases h.2 with ⟨e', _, _, h1, _⟩ | ⟨h1, h2, h3⟩
        · rw [he] at h1; simp at h1
        · refine ⟨?_, h2, h3⟩
          intro e' he'
          simp only [Option.some.injEq] at he'
          subst he'
          refine ⟨hc, ?_⟩
          unfold ExecEnv.initialEngine at hr
          unfold IsEngine
          cases hve : v.engine with
          | some e0 => left; simpa [hve] using hr
          | none =>
            right
            cases hvb : v.backend with
            | some b =>
              left
              simp only [hve, hvb, Option.map_eq_some_iff] at hr
              obtain ⟨x, hx, hxe⟩ := hr
              exact ⟨rfl, b, x, rfl, hx, hxe.symm⟩
            | none =>
              right
              simp only [hve, hvb, Option.some.injEq] at hr
              exact ⟨rfl, rfl, hr.symm⟩

theorem getFormat_spec (v : ExecEnv S) (st : ExecState S) (h : st.Consistent v) :
    (st.getFormat v).2.Consistent v ∧ (st.getFormat v).2.registry = st.registry ∧ (st.getFormat v).2.engine = st.engine ∧
    (st.getFormat v).2.backend = st.backend ∧
    (∀ f, (st.getFormat v).1 = some f → (st.getFormat v).2.format = some f) ∧
    ((st.getFormat v).1 = none → (st.getFormat v).2 = st) ∧
    (∀ f, st.format = some f → (st.getFormat v).1 = some f) := by
  unfold ExecState.getFormat
  cases he : st.format with
  | some e => exact ⟨h, rfl, rfl, rfl, by simpa using he, by simp, by simp⟩
  | none =>
    simp only
    cases hc : v.conflict with
    | true => exact ⟨by simpa using h, by simp, by simp, by simp, by simp, by simp, by simp⟩
    | false =>
      simp only [Bool.false_eq_true, if_false]
      generalize hr : v.initialFormat st.registry = r
      cases r with
      | none => exact ⟨h, rfl, rfl, rfl, by simp, by simp, by simp⟩
      | some e =>
        refine ⟨⟨h.1, Or.inr ?_⟩, rfl, rfl, rfl, by simp, by simp, by simp⟩
        rcases h.2 with ⟨_, f', _, _, h1, _⟩ | ⟨h1, h2, h3⟩
        · rw [he] at h1; simp at h1
        · refine ⟨h1, ?_, h3⟩
          intro e' he'
          simp only [Option.some.injEq] at he'
          subst he'
          refine ⟨hc, ?_⟩
          unfold ExecEnv.initialFormat at hr
          unfold IsFormat
          cases hve : v.format with
          | some e0 => left; simpa [hve] using hr
          | none =>
            right
            cases hvb : v.backend with
            | some b =>
              left
              simp only [hve, hvb, Option.map_eq_some_iff] at hr
              obtain ⟨x, hx, hxe⟩ := hr
              exact ⟨rfl, b, x, rfl, hx, hxe.symm⟩
            | none =>
              right
              simp only [hve, hvb, Option.some.injEq] at hr
              exact ⟨rfl, rfl, hr.symm⟩

theorem getBackend_spec (v : ExecEnv S) (st : ExecState S) (h : st.Consistent v) :
    (st.getBackend v).2.Consistent v ∧ (st.getBackend v).2.registry = st.registry ∧
    (∀ b, (st.getBackend v).1 = some b → (st.getBackend v).2.backend = some b) ∧
    (∀ e, st.engine = some e → (st.getBackend v).2.engine = some e) ∧ (∀ f, st.format = some f → (st.getBackend v).2.format = some f) := by
  unfold ExecState.getBackend
  cases hb : st.backend with
  | some b => exact ⟨h, rfl, by simpa using hb, fun _ h => h, fun _ h => h⟩
  | none =>
    simp only
    cases hc : v.conflict with
    | true => exact ⟨by simpa using h, by simp, by simp, by simp, by simp⟩
    | false =>
      simp only [Bool.false_eq_true, if_false]
      have hunput : (∀ e, st.engine = some e → v.conflict = false ∧ IsEngine v st.registry e) ∧
          (∀ f, st.format = some f → v.conflict = false ∧ IsFormat v st.registry f) := by
        rcases h.2 with ⟨_, _, b', _, _, h1, _⟩ | ⟨h1, h2, h3⟩
        · rw [hb] at h1; simp at h1
        · exact ⟨h1, h2⟩
      cases hvb : v.backend with
      | some b =>
        refine ⟨⟨h.1, Or.inr ⟨hunput.1, hunput.2, ?_⟩⟩, rfl, by simp, fun _ h => h, fun _ h => h⟩
        intro b' hb'
        simp only [Option.some.injEq] at hb'
        subst hb'
        exact ⟨hc, Or.inl hvb⟩
      | none =>
        simp only
        obtain ⟨f1, f2, f3, f4, f5, f6, f7⟩ := getFormat_spec v st h
        generalize hg : st.getFormat v = r at f1 f2 f3 f4 f5 f6 f7
        obtain ⟨a, st1⟩ := r
        cases a with
        | none => exact ⟨f1, f2, by simp, fun e he => by simp only at f3 ⊢; rw [f3]; exact he, fun f hf => by have := f7 f hf; simp at this⟩
        | some f =>
          simp only at f1 f2 f3 f4 f5 ⊢
          have f5 := f5 f rfl
          obtain ⟨e1, e2, e3, e4, e5, e6, e7⟩ := getEngine_spec v st1 f1
          generalize hg' : st1.getEngine v = r' at e1 e2 e3 e4 e5 e6 e7
          obtain ⟨a', st2⟩ := r'
          have hff : ∀ f', st.format = some f' → f' = f := by
            intro f' hf'
            have := f7 f' hf'
            simp only [Option.some.injEq] at this
            exact this.symm
          cases a' with
          | none =>
            simp only at e1 e2 e3 ⊢
            have := e6 rfl
            simp only at this
            subst this
            exact ⟨f1, f2, by simp, fun e he => by rw [f3]; exact he, fun f' hf' => by rw [hff f' hf']; exact f5⟩
          | some e =>
            simp only at e1 e2 e3 e4 e5 ⊢
            have e5 := e5 e rfl
            have hreg : st2.registry = st.registry := e2.trans f2
            have hee : ∀ e', st.engine = some e' → e' = e := by
              intro e' he'
              have := e7 e' (by rw [f3]; exact he')
              simp only [Option.some.injEq] at this
              exact this.symm
            cases hbk : st2.registry.backendFor (f, e) with
            | none =>
              exact ⟨e1, hreg, by simp, fun e' he' => by rw [hee e' he']; exact e5, fun f' hf' => by rw [hff f' hf']; simp only; rw [e3]; exact f5⟩
            | some b =>
              refine ⟨⟨e1.1, Or.inl ⟨e, f, b, e5, ?_, rfl, hbk⟩⟩, hreg, by simp, fun e' he' => by rw [hee e' he']; exact e5, fun f' hf' => by rw [hff f' hf']; simp only; rw [e3]; exact f5⟩
              simp only
              rw [e3]; exact f5

theorem isEngine_mono (v : ExecEnv S) (g g' : Registry S) (h : ∀ b x, g.executionFor b = some x → g'.executionFor b = some x) (e : S)
    (he : IsEngine v g e) : IsEngine v g' e := by
  rcases he with h1 | ⟨h1, b, x, h2, h3, h4⟩ | h1
  · exact Or.inl h1
  · exact Or.inr (Or.inl ⟨h1, b, x, h2, h b x h3, h4⟩)
  · exact Or.inr (Or.inr h1)

theorem isFormat_mono (v : ExecEnv S) (g g' : Registry S) (h : ∀ b x, g.executionFor b = some x → g'.executionFor b = some x) (e : S)
    (he : IsFormat v g e) : IsFormat v g' e := by
  rcases he with h1 | ⟨h1, b, x, h2, h3, h4⟩ | h1
  · exact Or.inl h1
  · exact Or.inr (Or.inl ⟨h1, b, x, h2, h b x h3, h4⟩)
  · exact Or.inr (Or.inr h1)

theorem executionFor_step (g : Registry S) (o : RegOp S) (ho : o.grows = true) (b : S) (x : Exec S) (h : g.executionFor b = some x) :
    (g.step o).executionFor b = some x := by
  unfold Registry.executionFor at *
  split at h
  · rename_i hb
    rw [if_pos (choices_step g o ho b hb)]
    exact (le_step g o).1 b x h
  · simp at h

theorem registry_step (v : ExecEnv S) (st : ExecState S) (h : st.Consistent v) (o : RegOp S) (ho : o.grows = true) :
    ({ st with registry := st.registry.step o } : ExecState S).Consistent v := by
  refine ⟨bij_step _ h.1 o, ?_⟩
  rcases h.2 with ⟨e, f, b, h1, h2, h3, h4⟩ | ⟨h1, h2, h3⟩
  · exact Or.inl ⟨e, f, b, h1, h2, h3, (le_step st.registry o).2 _ _ h4⟩
  · have hm := executionFor_step st.registry o ho
    refine Or.inr ⟨fun e he => ⟨(h1 e he).1, isEngine_mono v _ _ hm e (h1 e he).2⟩,
      fun f hf => ⟨(h2 f hf).1, isFormat_mono v _ _ hm f (h2 f hf).2⟩, fun b hb => ⟨(h3 b hb).1, ?_⟩⟩
    rcases (h3 b hb).2 with h4 | ⟨h4, f, e, h5, h6, h7⟩
    · exact Or.inl h4
    · exact Or.inr ⟨h4, f, e, isFormat_mono v _ _ hm f h5, isEngine_mono v _ _ hm e h6, (le_step st.registry o).2 _ _ h7⟩

/-- if the engine can be read, so can the storage format -/
theorem format_of_engine (v : ExecEnv S) (st : ExecState S) (h : st.Consistent v) (e : S) (he : (st.getEngine v).1 = some e)
    (hx : ∀ b, v.backend = some b → v.conflict = false → (∃ x, st.registry.executionFor b = some x) ∨ st.format ≠ none) :
    (st.getFormat v).1 ≠ none := by
  have hnc : st.format = none → v.conflict = false := by
    intro hf
    unfold ExecState.getEngine at he
    cases hse : st.engine with
    | some e' =>
      rcases h.2 with ⟨_, f', _, _, h1, _⟩ | ⟨h1, _, _⟩
      · rw [hf] at h1; simp at h1
      · exact (h1 e' hse).1
    | none =>
      simp only [hse] at he
      cases hc : v.conflict with
      | true => simp [hc] at he
      | false => rfl
  unfold ExecState.getFormat
  cases hf : st.format with
  | some f => simp
  | none =>
    have hc := hnc hf
    simp only [hc, Bool.false_eq_true, if_false, ExecEnv.initialFormat]
    cases hvf : v.format with
    | some f => simp
    | none =>
      cases hvb : v.backend with
      | none => simp
      | some b =>
        rcases hx b hvb hc with ⟨x, hx⟩ | hx
        · simp [hx]
        · exact absurd hf hx

/-- an engine that is set or can be read means the backend of the environment is registered -/
theorem execution_of_engine (v : ExecEnv S) (st : ExecState S) (h : st.Consistent v) (e : S) (he : (st.getEngine v).1 = some e)
    (b : S) (hb : v.backend = some b) (hc : v.conflict = false) : (∃ x, st.registry.executionFor b = some x) ∨ st.format ≠ none := by
  have hve : v.engine = none := by
    unfold ExecEnv.conflict at hc
    rw [hb] at hc
    simp at hc
    exact hc.1
  cases hse : st.engine with
  | some e' =>
    rcases h.2 with ⟨_, f', _, _, h1, _⟩ | ⟨h1, _, _⟩
    · right; rw [h1]; simp
    · rcases (h1 e' hse).2 with h2 | ⟨_, b', x, h3, h4, _⟩ | ⟨_, h3, _⟩
      · rw [hve] at h2; simp at h2
      · rw [hb] at h3
        simp only [Option.some.injEq] at h3
        subst h3
        exact Or.inl ⟨x, h4⟩
      · rw [hb] at h3; simp at h3
  | none =>
    unfold ExecState.getEngine at he
    simp only [hse, hc, hve, hb, Bool.false_eq_true, if_false, ExecEnv.initialEngine] at he
    cases hx : st.registry.executionFor b with
    | some x => exact Or.inl ⟨x, rfl⟩
    | none => simp [hx] at he

theorem setExecution_spec (v : ExecEnv S) (st : ExecState S) (h : st.Consistent v) (b : S) (x : Exec S) (hx : st.registry.executionFor b = some x) :
    (st.setExecution v x).2.Consistent v ∧ (st.setExecution v x).2.registry = st.registry ∧
    ((st.setExecution v x).1 = true → (st.setExecution v x).2.engine = some x.2 ∧ (st.setExecution v x).2.format = some x.1 ∧
      (st.setExecution v x).2.backend = some b) ∧
    ((st.getEngine v).1 ≠ none → (st.setExecution v x).1 = true) := by
  have hbk : st.registry.backendFor x = some b := by
    unfold Registry.executionFor at hx
    split at hx
    · exact (h.1 b x).1 hx
    · simp at hx
  obtain ⟨e1, e2, e3, e4, e5, e6, e7⟩ := getEngine_spec v st h
  have hfmt : ∀ e, (st.getEngine v).1 = some e → (st.getFormat v).1 ≠ none := fun e he =>
    format_of_engine v st h e he (execution_of_engine v st h e he)
  have hunf : ∀ st' : ExecState S, st'.format = st.format → st'.registry = st.registry → (st'.getFormat v).1 = (st.getFormat v).1 ∧
      ∀ f, (st.getFormat v).1 = some f → (st'.getFormat v).2 = { st' with format := some f } := by
    intro st' hf hr
    unfold ExecState.getFormat
    rw [hf, hr]
    cases hsf : st.format with
    | some f =>
      refine ⟨rfl, ?_⟩
      intro f' hf'
      simp only [Option.some.injEq] at hf'
      subst hf'
      obtain ⟨g, e, f0, b0⟩ := st'
      simp only at hf hr
      simp only [hf, hsf, hr]
    | none =>
      simp only
      cases hc : v.conflict with
      | true => simp
      | false =>
        simp only [Bool.false_eq_true, if_false]
        generalize v.initialFormat st.registry = r
        cases r with
        | none => simp
        | some f => simp
  unfold ExecState.setExecution
  generalize hg : st.getEngine v = r at e1 e2 e3 e4 e5 e6 e7 hfmt
  obtain ⟨a, st1⟩ := r
  cases a with
  | none =>
    simp only
    exact ⟨e1, e2, by simp, by simp⟩
  | some e =>
    simp only at e1 e2 e3 e4 e5 ⊢
    obtain ⟨u1, u2⟩ := hunf { st1 with engine := some x.2 } e3 e2
    have hne := hfmt e rfl
    cases hf : (st.getFormat v).1 with
    | none => exact absurd hf hne
    | some f =>
      have u2 := u2 f hf
      rw [hf] at u1
      generalize hg2 : ({ st1 with engine := some x.2 } : ExecState S).getFormat v = r2 at u1 u2
      obtain ⟨a2, st2⟩ := r2
      simp only at u1 u2
      subst u1 u2
      simp only
      -- the backend of the new pair
      have hback : ∃ b', ({ st1 with engine := some x.2, format := some x.1 } : ExecState S).getBackend v =
          (some b', { st1 with engine := some x.2, format := some x.1, backend := some b' }) := by
        unfold ExecState.getBackend
        simp only
        cases hsb : st1.backend with
        | some b' =>
          refine ⟨b', ?_⟩
          simp
        | none =>
          simp only
          have hc : v.conflict = false := by
            rcases e1.2 with ⟨_, _, b', _, _, h3, _⟩ | ⟨h1, _, _⟩
            · rw [hsb] at h3; simp at h3
            · exact (h1 e (e5 e rfl)).1
          simp only [hc, Bool.false_eq_true, if_false]
          cases hvb : v.backend with
          | some b' => exact ⟨b', rfl⟩
          | none =>
            simp only [ExecState.getFormat, ExecState.getEngine]
            rw [e2]
            have : st.registry.backendFor (x.1, x.2) = some b := hbk
            rw [this]
            exact ⟨b, rfl⟩
      obtain ⟨b', hb'⟩ := hback
      rw [hb']
      simp only
      rw [e2, hbk]
      simp only
      exact ⟨⟨h.1, Or.inl ⟨x.2, x.1, b, rfl, rfl, rfl, hbk⟩⟩, by simp, by simp, by simp⟩

theorem putBackend_spec (v : ExecEnv S) (st : ExecState S) (h : st.Consistent v) (b : S) :
    (st.putBackend v b).2.Consistent v ∧ (st.putBackend v b).2.registry = st.registry ∧
    ((st.putBackend v b).1 = true → (st.putBackend v b).2.backend = some b ∧ ∃ x, st.registry.executionFor b = some x ∧
      (st.putBackend v b).2.engine = some x.2 ∧ (st.putBackend v b).2.format = some x.1) := by
  unfold ExecState.putBackend
  cases hx : st.registry.executionFor b with
  | none => exact ⟨h, rfl, by simp⟩
  | some x =>
    obtain ⟨h1, h2, h3, _⟩ := setExecution_spec v st h b x hx
    exact ⟨h1, h2, fun ht => ⟨(h3 ht).2.2, x, rfl, (h3 ht).1, (h3 ht).2.1⟩⟩

theorem putEngine_spec (v : ExecEnv S) (st : ExecState S) (h : st.Consistent v) (e : S) :
    (st.putEngine v e).2.Consistent v ∧ ((st.putEngine v e).1 = true → (st.putEngine v e).2.engine = some e ∧
      (st.putEngine v e).2.format = (st.getFormat v).1) := by
  obtain ⟨f1, f2, f3, f4, f5, f6, f7⟩ := getFormat_spec v st h
  unfold ExecState.putEngine
  generalize hg : st.getFormat v = r at f1 f2 f3 f4 f5 f6 f7
  obtain ⟨a, st1⟩ := r
  cases a with
  | none => exact ⟨f1, by simp⟩
  | some f =>
    simp only at f1 f2 ⊢
    cases hb : st1.registry.backendFor (f, e) with
    | none => exact ⟨f1, by simp⟩
    | some b =>
      simp only
      obtain ⟨h1, h2, h3⟩ := putBackend_spec v st1 f1 b
      refine ⟨h1, fun ht => ?_⟩
      obtain ⟨_, x, hx, hxe, hxf⟩ := h3 ht
      have hxb : st1.registry.backendFor x = some b := by
        unfold Registry.executionFor at hx
        split at hx
        · exact (f1.1 b x).1 hx
        · simp at hx
      have : x = (f, e) := by
        have h4 := (f1.1 b x).2 hxb
        have h5 := (f1.1 b (f, e)).2 hb
        rw [h4] at h5
        simpa using h5
      subst this
      exact ⟨hxe, hxf⟩

theorem putFormat_spec (v : ExecEnv S) (st : ExecState S) (h : st.Consistent v) (f : S) :
    (st.putFormat v f).2.Consistent v ∧ ((st.putFormat v f).1 = true → (st.putFormat v f).2.format = some f ∧
      (st.putFormat v f).2.engine = (st.getEngine v).1) := by
  obtain ⟨f1, f2, f3, f4, f5, f6, f7⟩ := getEngine_spec v st h
  unfold ExecState.putFormat
  generalize hg : st.getEngine v = r at f1 f2 f3 f4 f5 f6 f7
  obtain ⟨a, st1⟩ := r
  cases a with
  | none => exact ⟨f1, by simp⟩
  | some e =>
    simp only at f1 f2 ⊢
    cases hb : st1.registry.backendFor (f, e) with
    | none => exact ⟨f1, by simp⟩
    | some b =>
      simp only
      obtain ⟨h1, h2, h3⟩ := putBackend_spec v st1 f1 b
      refine ⟨h1, fun ht => ?_⟩
      obtain ⟨_, x, hx, hxe, hxf⟩ := h3 ht
      have hxb : st1.registry.backendFor x = some b := by
        unfold Registry.executionFor at hx
        split at hx
        · exact (f1.1 b x).1 hx
        · simp at hx
      have : x = (f, e) := by
        have h4 := (f1.1 b x).2 hxb
        have h5 := (f1.1 b (f, e)).2 hb
        rw [h4] at h5
        simpa using h5
      subst this
      exact ⟨hxf, hxe⟩

/-- the calls considered: the set of active backends is not reduced -/
def ExecOp.grows : ExecOp S → Bool
  | .registry o => o.grows
  | _ => true

theorem exec_step (v : ExecEnv S) (st : ExecState S) (h : st.Consistent v) (o : ExecOp S) (ho : o.grows = true) : (st.step v o).Consistent v := by
  cases o with
  | getEngine => exact (getEngine_spec v st h).1
  | getFormat => exact (getFormat_spec v st h).1
  | getBackend => exact (getBackend_spec v st h).1
  | putEngine e => exact (putEngine_spec v st h e).1
  | putFormat f => exact (putFormat_spec v st h f).1
  | putBackend b => exact (putBackend_spec v st h b).1
  | registry o => exact registry_step v st h o ho

theorem exec_run (v : ExecEnv S) (ops : List (ExecOp S)) (ho : ∀ o ∈ ops, o.grows = true) : ∀ (st : ExecState S), st.Consistent v →
    (st.run v ops).Consistent v := by
  induction ops with
  | nil => intro st h; exact h
  | cons o ops ih =>
    intro st h
    exact ih (fun o h => ho o (List.mem_cons_of_mem _ h)) _ (exec_step v st h o (ho o List.mem_cons_self))
