import Verif.Model.Config
/-
Lemmas about configuration parameters.
-/

variable {V : Type} [DecidableEq V]

/-! ### what a variable does -/

/-- the value a parameter starts with -/
def Kind.initial (k : Kind V) : Option V :=
  match k.config with
  | none => none
  | some none => some k.default
  | some (some v) => some v

/-- is the value accepted? -/
def Kind.accepts (k : Kind V) (raw : V) : Bool := k.putOk raw && k.verify raw

/-- what a variable holds after some assignments -/
def valueAfter (k : Kind V) (v : V) : List (ParamOp V) → V
  | [] => v
  | .put raw :: ops => if k.accepts raw then valueAfter k (k.normalize raw) ops else valueAfter k v ops
  | _ :: ops => valueAfter k v ops

/-- the values assigned that differ from the value before -/
def changes (k : Kind V) (v : V) : List (ParamOp V) → List V
  | [] => []
  | .put raw :: ops =>
    if k.accepts raw then
      if k.normalize raw = v then changes k v ops else k.normalize raw :: changes k (k.normalize raw) ops
    else changes k v ops
  | _ :: ops => changes k v ops

/-- does the call name the callback? -/
def ParamOp.names (id : Nat) : ParamOp V → Bool
  | .subscribe j => j = id
  | .once _ j => j = id
  | _ => false

/-- the values callback `id` has seen -/
def Param.seen (p : Param V) (id : Nat) : List V := (p.log.filter fun e => e.1 = id).map (·.2)

/-- Every accepted value passes the check made by `get`, and so does the initial value. -/
structure Kind.Sound (k : Kind V) : Prop where
  put : ∀ raw, k.accepts raw = true → k.getOk (k.normalize raw) = true
  init : ∃ v, k.initial = some v ∧ k.getOk v = true

/-- the parameter holds `v` -/
def Param.Holds (k : Kind V) (p : Param V) (v : V) : Prop :=
  (p.value = some v ∨ (p.value = none ∧ k.initial = some v)) ∧ k.getOk v = true

theorem get_holds (k : Kind V) (p : Param V) (v : V) (h : p.Holds k v) :
    (p.get k).1 = some v ∧ (p.get k).2.value = some v ∧ (p.get k).2.subs = p.subs ∧ (p.get k).2.once = p.once ∧ (p.get k).2.log = p.log := by
  obtain ⟨h1 | ⟨h1, h2⟩, hg⟩ := h
  · unfold Param.get
    simp [h1, hg]
  · unfold Kind.initial at h2
    unfold Param.get
    cases hc : k.config with
    | none => rw [hc] at h2; simp at h2
    | some c =>
      cases c with
      | none => rw [hc] at h2; simp at h2; subst h2; simp [h1, hg]
      | some w => rw [hc] at h2; simp at h2; subst h2; simp [h1, hg]

theorem get_holds_holds (k : Kind V) (p : Param V) (v : V) (h : p.Holds k v) : (p.get k).2.Holds k v :=
  ⟨Or.inl (get_holds k p v h).2.1, h.2⟩

/-- what a call does to a parameter that holds `v` -/
theorem call_holds (k : Kind V) (p : Param V) (v : V) (id : Nat) (h : p.Holds k v) :
    (p.call k id).value = some v ∧ (p.call k id).subs = p.subs ∧ (p.call k id).once = p.once ∧ (p.call k id).log = p.log ++ [(id, v)] := by
  obtain ⟨h1, h2, h3, h4, h5⟩ := get_holds k p v h
  unfold Param.call
  generalize hg : p.get k = r at h1 h2 h3 h4 h5
  obtain ⟨a, q⟩ := r
  simp only at h1 h2 h3 h4 h5
  subst h1
  simp [h2, h3, h4, h5]

theorem calls_holds (k : Kind V) (v : V) (ids : List Nat) (p : Param V) (h : p.Holds k v) (hv : p.value = some v) :
    (ids.foldl (Param.call k) p).value = some v ∧ (ids.foldl (Param.call k) p).subs = p.subs ∧
      (ids.foldl (Param.call k) p).once = p.once ∧ (ids.foldl (Param.call k) p).log = p.log ++ ids.map (fun i => (i, v)) := by
  induction ids generalizing p with
  | nil => simp [hv]
  | cons i ids ih =>
    obtain ⟨h1, h2, h3, h4⟩ := call_holds k p v i h
    obtain ⟨g1, g2, g3, g4⟩ := ih (p.call k i) ⟨Or.inl h1, h.2⟩ h1
    rw [List.foldl_cons]
    exact ⟨g1, g2.trans h2, g3.trans h3, by rw [g4, h4]; simp⟩

/-- what `put` does -/
theorem put_spec (k : Kind V) (hk : k.Sound) (p : Param V) (v : V) (h : p.Holds k v) (raw : V) :
    (k.accepts raw = false → p.put k raw = (false, p)) ∧
    (k.accepts raw = true → (p.put k raw).1 = true ∧ (p.put k raw).2.value = some (k.normalize raw) ∧ (p.put k raw).2.subs = p.subs ∧
      (if k.normalize raw = v then (p.put k raw).2.once = p.once ∧ (p.put k raw).2.log = p.log
       else (p.put k raw).2.once = p.once.filter (fun e => !decide (e.1 = k.normalize raw)) ∧
         (p.put k raw).2.log = p.log ++ p.subs.map (fun i => (i, k.normalize raw)) ++
           ((p.once.filter fun e => e.1 = k.normalize raw).map fun e => (e.2, k.normalize raw)))) := by
  constructor
  · intro ha
    unfold Kind.accepts at ha
    unfold Param.put
    cases h1 : k.putOk raw with
    | false => simp
    | true => rw [h1] at ha; simp at ha; simp [ha]
  · intro ha
    have hok := hk.put raw ha
    unfold Kind.accepts at ha
    rw [Bool.and_eq_true] at ha
    obtain ⟨h1, h2, h3, h4, h5⟩ := get_holds k p v h
    unfold Param.put
    simp only [ha.1, ha.2, Bool.not_true, Bool.false_eq_true, if_false]
    generalize hg : p.get k = r at h1 h2 h3 h4 h5
    obtain ⟨a, q⟩ := r
    simp only at h1 h2 h3 h4 h5
    subst h1
    simp only
    have hq : ({ q with value := some (k.normalize raw) } : Param V).Holds k (k.normalize raw) := ⟨Or.inl rfl, hok⟩
    obtain ⟨g1, g2, g3, g4, g5⟩ := get_holds k _ _ hq
    unfold Param.checkCallbacks
    generalize hg' : ({ q with value := some (k.normalize raw) } : Param V).get k = r' at g1 g2 g3 g4 g5
    obtain ⟨a', q'⟩ := r'
    simp only at g1 g2 g3 g4 g5
    subst g1
    simp only
    by_cases he : v = k.normalize raw
    · rw [if_pos he, if_pos he.symm]
      exact ⟨rfl, g2, by simp [g3, h3], by simp [g4, h4], by simp [g5, h5]⟩
    · rw [if_neg he, if_neg (fun h => he h.symm)]
      obtain ⟨c1, c2, c3, c4⟩ := calls_holds k (k.normalize raw) q'.subs q' ⟨Or.inl g2, hok⟩ g2
      obtain ⟨d1, d2, d3, d4⟩ := calls_holds k (k.normalize raw)
        (((q'.subs.foldl (Param.call k) q').once.filter fun e => e.1 = k.normalize raw).map (·.2))
        { (q'.subs.foldl (Param.call k) q') with once := (q'.subs.foldl (Param.call k) q').once.filter fun e => !decide (e.1 = k.normalize raw) }
        ⟨Or.inl c1, hok⟩ c1
      simp only at d2 d3 d4
      refine ⟨rfl, d1, ?_, ?_, ?_⟩
      · rw [d2, c2, g3, h3]
      · rw [d3, c3, g4, h4]
      · rw [d4, c4, c3, g5, h5, g3, h3, g4, h4]
        simp [List.map_map, Function.comp_def]

/-! ### histories -/

def Param.Mentions (p : Param V) (id : Nat) (subs : List Nat) (once : List V) : Prop :=
  p.subs.filter (· = id) = subs ∧ (p.once.filter fun e => e.2 = id).map (·.1) = once

omit [DecidableEq V] in
theorem seen_append (p q : Param V) (id : Nat) (l : List (Nat × V)) (h : q.log = p.log ++ l) :
    q.seen id = p.seen id ++ (l.filter fun e => e.1 = id).map (·.2) := by
  unfold Param.seen
  rw [h, List.filter_append, List.map_append]

omit [DecidableEq V] in
theorem filter_ids (ids : List Nat) (id : Nat) (v : V) :
    ((ids.map fun i => (i, v)).filter fun e => e.1 = id).map (·.2) = (ids.filter (· = id)).map fun _ => v := by
  induction ids with
  | nil => rfl
  | cons i ids ih =>
    simp only [List.map_cons, List.filter_cons]
    by_cases h : i = id
    · simp [h, ih]
    · simp [h, ih]

theorem filter_once (l : List (V × Nat)) (id : Nat) (v : V) :
    ((((l.filter fun e => e.1 = v).map fun e => (e.2, v))).filter fun e => e.1 = id).map (·.2) =
      (((l.filter fun e => e.2 = id).map (·.1)).filter (· = v)) := by
  induction l with
  | nil => rfl
  | cons e l ih =>
    simp only [List.filter_cons]
    by_cases h1 : e.1 = v <;> by_cases h2 : e.2 = id <;> simp [h1, h2, ih]

theorem filter_once_rest (l : List (V × Nat)) (id : Nat) (v : V) :
    ((l.filter fun e => !decide (e.1 = v)).filter fun e => e.2 = id).map (·.1) =
      (((l.filter fun e => e.2 = id).map (·.1)).filter (fun w => !decide (w = v))) := by
  induction l with
  | nil => rfl
  | cons e l ih =>
    simp only [List.filter_cons]
    by_cases h1 : e.1 = v <;> by_cases h2 : e.2 = id <;>
      simp only [h1, h2, decide_true, decide_false, Bool.not_true, Bool.not_false, if_true, if_false, Bool.false_eq_true, List.filter_cons,
        List.map_cons, ih]

/-- what one call does, seen by callback `id`, which the call does not name -/
theorem step_spec (k : Kind V) (hk : k.Sound) (p : Param V) (v : V) (h : p.Holds k v) (id : Nat) (subs : List Nat) (once : List V)
    (hm : p.Mentions id subs once) (o : ParamOp V) (ho : o.names id = false) :
    (p.step k o).Holds k (valueAfter k v [o]) ∧
    (p.step k o).Mentions id subs (once.filter fun w => !(changes k v [o]).contains w) ∧
    (p.step k o).seen id = p.seen id ++ (changes k v [o]).flatMap (fun w => subs.map (fun _ => w) ++ once.filter (· = w)) := by
  have same : ∀ q : Param V, q.value = some v → q.subs.filter (· = id) = subs → (q.once.filter fun e => e.2 = id).map (·.1) = once →
      (∃ l : List (Nat × V), q.log = p.log ++ l ∧ l.filter (fun e => e.1 = id) = []) →
      q.Holds k v ∧ q.Mentions id subs (once.filter fun w => !([] : List V).contains w) ∧
        q.seen id = p.seen id ++ ([] : List V).flatMap (fun w => subs.map (fun _ => w) ++ once.filter (· = w)) := by
    rintro q h1 h2 h3 ⟨l, h4, h5⟩
    refine ⟨⟨Or.inl h1, h.2⟩, ⟨h2, ?_⟩, ?_⟩
    · rw [h3, List.filter_eq_self.2 (by simp)]
    · rw [seen_append p q id l h4, h5]; simp
  cases o with
  | get =>
    obtain ⟨h1, h2, h3, h4, h5⟩ := get_holds k p v h
    simp only [Param.step, valueAfter, changes]
    exact same _ h2 (by rw [h3]; exact hm.1) (by rw [h4]; exact hm.2) ⟨[], by simp [h5], rfl⟩
  | subscribe j =>
    have hj : j ≠ id := by simpa [ParamOp.names] using ho
    have hp : ({ p with subs := p.subs ++ [j] } : Param V).Holds k v := h
    obtain ⟨h1, h2, h3, h4⟩ := call_holds k _ v j hp
    simp only [Param.step, valueAfter, changes, Param.subscribe]
    refine same _ h1 ?_ (by rw [h3]; exact hm.2) ⟨[(j, v)], h4, by simp [hj]⟩
    rw [h2, List.filter_append]
    simp [hj, hm.1]
  | once raw j =>
    have hj : j ≠ id := by simpa [ParamOp.names] using ho
    obtain ⟨h1, h2, h3, h4, h5⟩ := get_holds k p v h
    simp only [Param.step, valueAfter, changes, Param.addOnce]
    generalize hg : p.get k = r at h1 h2 h3 h4 h5
    obtain ⟨a, q⟩ := r
    simp only at h1 h2 h3 h4 h5
    subst h1
    simp only
    split
    · obtain ⟨c1, c2, c3, c4⟩ := call_holds k q v j ⟨Or.inl h2, h.2⟩
      refine same _ c1 (by rw [c2, h3]; exact hm.1) (by rw [c3, h4]; exact hm.2) ⟨[(j, v)], by rw [c4, h5], by simp [hj]⟩
    · refine same _ h2 (by rw [h3]; exact hm.1) ?_ ⟨[], by simp [h5], rfl⟩
      rw [h4, List.filter_append]
      simp [hj, hm.2]
  | put raw =>
    simp only [Param.step]
    obtain ⟨s1, s2⟩ := put_spec k hk p v h raw
    by_cases ha : k.accepts raw = true
    · obtain ⟨e1, e2, e3, e4⟩ := s2 ha
      simp only [valueAfter, changes, ha, if_true]
      by_cases he : k.normalize raw = v
      · rw [if_pos he] at e4 ⊢
        rw [he] at e2
        rw [he]
        exact same _ e2 (by rw [e3]; exact hm.1) (by rw [e4.1]; exact hm.2) ⟨[], by simp [e4.2], rfl⟩
      · rw [if_neg he] at e4 ⊢
        refine ⟨⟨Or.inl e2, hk.put raw ha⟩, ⟨by rw [e3]; exact hm.1, ?_⟩, ?_⟩
        · rw [e4.1, filter_once_rest, hm.2]
          congr 1
          funext w
          by_cases hw : w = k.normalize raw <;> simp [hw]
        · rw [seen_append p _ id _ (by rw [e4.2, List.append_assoc]), List.filter_append, List.map_append, filter_ids, filter_once,
            hm.1, hm.2]
          simp
    · have ha' : k.accepts raw = false := by simpa using ha
      rw [s1 ha']
      simp only [valueAfter, changes, ha', Bool.false_eq_true, if_false]
      refine ⟨h, ⟨hm.1, ?_⟩, by simp⟩
      rw [hm.2, List.filter_eq_self.2 (by simp)]

theorem valueAfter_cons (k : Kind V) (v : V) (o : ParamOp V) (ops : List (ParamOp V)) :
    valueAfter k v (o :: ops) = valueAfter k (valueAfter k v [o]) ops := by
  cases o <;> simp only [valueAfter]
  split <;> rfl

theorem changes_cons (k : Kind V) (v : V) (o : ParamOp V) (ops : List (ParamOp V)) :
    changes k v (o :: ops) = changes k v [o] ++ changes k (valueAfter k v [o]) ops := by
  cases o <;> simp only [valueAfter, changes, List.nil_append]
  split
  · split
    · rename_i h; rw [h, List.nil_append]
    · rfl
  · rfl

theorem valueAfter_append (k : Kind V) (v : V) (ops ops' : List (ParamOp V)) :
    valueAfter k v (ops ++ ops') = valueAfter k (valueAfter k v ops) ops' := by
  induction ops generalizing v with
  | nil => rfl
  | cons o ops ih => rw [List.cons_append, valueAfter_cons, ih, valueAfter_cons k v o ops]

theorem run_holds (k : Kind V) (hk : k.Sound) (ops : List (ParamOp V)) : ∀ (p : Param V) (v : V), p.Holds k v →
    (p.run k ops).Holds k (valueAfter k v ops) := by
  induction ops with
  | nil => intro p v h; exact h
  | cons o ops ih =>
    intro p v h
    rw [valueAfter_cons]
    refine ih _ _ ?_
    cases o with
    | put raw => exact (step_spec k hk p v h 0 _ _ ⟨rfl, rfl⟩ (.put raw) rfl).1
    | get => exact (step_spec k hk p v h 0 _ _ ⟨rfl, rfl⟩ .get rfl).1
    | subscribe j => exact (step_spec k hk p v h (j + 1) _ _ ⟨rfl, rfl⟩ (.subscribe j) (by simp [ParamOp.names])).1
    | once raw j => exact (step_spec k hk p v h (j + 1) _ _ ⟨rfl, rfl⟩ (.once raw j) (by simp [ParamOp.names])).1

/-- a subscriber sees every change -/
theorem run_subscriber (k : Kind V) (hk : k.Sound) (id : Nat) (subs : List Nat) (ops : List (ParamOp V)) (hops : ∀ o ∈ ops, o.names id = false) :
    ∀ (p : Param V) (v : V), p.Holds k v → p.Mentions id subs [] →
    (p.run k ops).seen id = p.seen id ++ (changes k v ops).flatMap (fun w => subs.map fun _ => w) ∧ (p.run k ops).Mentions id subs [] := by
  induction ops with
  | nil => intro p v h hm; exact ⟨by simp [Param.run, changes], hm⟩
  | cons o ops ih =>
    intro p v h hm
    obtain ⟨h1, h2, h3⟩ := step_spec k hk p v h id subs [] hm o (hops o List.mem_cons_self)
    obtain ⟨g1, g2⟩ := ih (fun o ho => hops o (List.mem_cons_of_mem _ ho)) _ _ h1 h2
    refine ⟨?_, g2⟩
    have : p.run k (o :: ops) = (p.step k o).run k ops := rfl
    rw [this, g1, h3, changes_cons k v o ops, List.flatMap_append]
    simp [List.append_assoc]

/-- a one-shot subscriber sees the first time its value is taken -/
theorem run_once (k : Kind V) (hk : k.Sound) (id : Nat) (w : V) (ops : List (ParamOp V)) (hops : ∀ o ∈ ops, o.names id = false) :
    ∀ (p : Param V) (v : V), p.Holds k v → p.Mentions id [] [w] →
    (p.run k ops).seen id = p.seen id ++ (if w ∈ changes k v ops then [w] else []) := by
  induction ops with
  | nil => intro p v h hm; simp [Param.run, changes]
  | cons o ops ih =>
    intro p v h hm
    obtain ⟨h1, h2, h3⟩ := step_spec k hk p v h id [] [w] hm o (hops o List.mem_cons_self)
    have e : p.run k (o :: ops) = (p.step k o).run k ops := rfl
    have hops' : ∀ o ∈ ops, o.names id = false := fun o ho => hops o (List.mem_cons_of_mem _ ho)
    rw [e, changes_cons]
    by_cases hw : w ∈ changes k v [o]
    · have hc : (changes k v [o]).contains w = true := List.contains_iff_mem.2 hw
      simp only [List.filter_cons, hc, Bool.not_true, Bool.false_eq_true, if_false, List.filter_nil] at h2
      obtain ⟨g1, _⟩ := run_subscriber k hk id [] ops hops' _ _ h1 h2
      rw [g1, h3]
      have hone : changes k v [o] = [w] := by
        cases o with
        | put raw =>
          simp only [changes] at hw ⊢
          by_cases c1 : k.accepts raw = true
          · by_cases c2 : k.normalize raw = v
            · simp [c1, c2] at hw
            · simp [c1, c2] at hw ⊢; exact hw.symm
          · simp [c1] at hw
        | _ => simp [changes] at hw
      rw [hone]
      simp
    · have hc : (changes k v [o]).contains w = false := by
        rw [Bool.eq_false_iff]
        exact fun h => hw (List.contains_iff_mem.1 h)
      simp only [List.filter_cons, hc, Bool.not_false, if_true, List.filter_nil] at h2
      rw [ih hops' _ _ h1 h2, h3]
      have : (changes k v [o]).flatMap (fun x => ([] : List Nat).map (fun _ => x) ++ [w].filter (· = x)) = [] := by
        rw [List.flatMap_eq_nil_iff]
        intro x hx
        simp only [List.map_nil, List.nil_append, List.filter_eq_nil_iff]
        intro y hy hyx
        rcases List.mem_singleton.1 hy with rfl
        rw [decide_eq_true_eq] at hyx
        exact hw (hyx ▸ hx)
      rw [this]
      simp [hw]

/-! ### `context` -/

theorem holds_of_get (k : Kind V) (p : Param V) (v : V) (h : (p.get k).1 = some v) : p.Holds k v := by
  unfold Param.get at h
  cases hv : p.value with
  | some w =>
    simp only [hv, Option.filter_some] at h
    split at h
    · rename_i hg
      simp only [Option.some.injEq] at h
      subst h
      exact ⟨Or.inl hv, hg⟩
    · simp at h
  | none =>
    simp only [hv] at h
    cases hc : k.config with
    | none => simp [hc] at h
    | some c =>
      have hi : ∀ w, k.initial = some w → k.getOk w = true → w = v → p.Holds k v := by
        rintro w h1 h2 rfl
        exact ⟨Or.inr ⟨hv, h1⟩, h2⟩
      cases c with
      | none =>
        simp only [hc, Option.filter_some] at h
        split at h
        · rename_i hg
          exact hi k.default (by simp [Kind.initial, hc]) hg (by simpa using h)
        · simp at h
      | some w =>
        simp only [hc, Option.filter_some] at h
        split at h
        · rename_i hg
          exact hi w (by simp [Kind.initial, hc]) hg (by simpa using h)
        · simp at h

/-- every parameter holds its value -/
def Store.Holds (ks : Nat → Kind V) (s : Store V) (vals : Nat → V) : Prop := ∀ n, (s n).Holds (ks n) (vals n)

def upd (vals : Nat → V) (n : Nat) (v : V) : Nat → V := fun m => if m = n then v else vals m

theorem set_holds (ks : Nat → Kind V) (s : Store V) (vals : Nat → V) (h : s.Holds ks vals) (n : Nat) (p : Param V) (v : V)
    (hp : p.Holds (ks n) v) : (s.set n p).Holds ks (upd vals n v) := by
  intro m
  unfold Store.set upd
  by_cases hm : m = n
  · subst hm; simpa using hp
  · simpa [hm] using h m

theorem step_holds (k : Kind V) (hk : k.Sound) (p : Param V) (v : V) (h : p.Holds k v) (o : ParamOp V) :
    (p.step k o).Holds k (valueAfter k v [o]) := run_holds k hk [o] p v h

theorem put_holds (k : Kind V) (hk : k.Sound) (p : Param V) (v : V) (h : p.Holds k v) (raw : V) :
    (p.put k raw).2.Holds k (if k.accepts raw then k.normalize raw else v) ∧ (p.put k raw).1 = k.accepts raw := by
  obtain ⟨h1, h2⟩ := put_spec k hk p v h raw
  by_cases ha : k.accepts raw = true
  · obtain ⟨e1, e2, _, _⟩ := h2 ha
    rw [if_pos ha]
    exact ⟨⟨Or.inl e2, hk.put raw ha⟩, by rw [e1, ha]⟩
  · have ha' : k.accepts raw = false := by simpa using ha
    rw [h1 ha', ha']
    exact ⟨h, rfl⟩

theorem enter_holds (ks : Nat → Kind V) (hk : ∀ n, (ks n).Sound) (config : List (Nat × V)) : ∀ (s : Store V) (vals : Nat → V), s.Holds ks vals →
    ∃ vals', (s.enter ks config).2.Holds ks vals' ∧ (∀ n, n ∉ config.map (·.1) → vals' n = vals n) ∧
      ((∀ e ∈ config, (ks e.1).accepts e.2 = true) → (config.map (·.1)).Nodup →
        (s.enter ks config).1 = some (config.map fun e => (e.1, vals e.1))) := by
  induction config with
  | nil => intro s vals h; exact ⟨vals, h, fun _ _ => rfl, fun _ _ => rfl⟩
  | cons e config ih =>
    obtain ⟨n, v⟩ := e
    intro s vals h
    obtain ⟨h1, h2, h3, h4, h5⟩ := get_holds (ks n) (s n) (vals n) (h n)
    have hq := get_holds_holds (ks n) (s n) (vals n) (h n)
    unfold Store.enter
    generalize hg : (s n).get (ks n) = r at h1 h2 h3 h4 h5 hq
    obtain ⟨a, p⟩ := r
    simp only at h1 hq
    subst h1
    simp only
    obtain ⟨g1, g2⟩ := put_holds (ks n) (hk n) p (vals n) hq v
    generalize hg' : p.put (ks n) v = r' at g1 g2
    obtain ⟨b, q⟩ := r'
    simp only at g1 g2
    have hs' := set_holds ks s vals h n q _ g1
    cases b with
    | false =>
      simp only
      refine ⟨_, hs', ?_, ?_⟩
      · intro m hm
        simp only [List.map_cons, List.mem_cons, not_or] at hm
        simp [upd, hm.1]
      · intro hacc
        have := hacc (n, v) List.mem_cons_self
        simp only at this
        rw [this] at g2; simp at g2
    | true =>
      simp only
      obtain ⟨vals', e1, e2, e3⟩ := ih (s.set n q) _ hs'
      have hcong : ∃ w : Option (List (Nat × V)) × Store V, w = (s.set n q).enter ks config := ⟨_, rfl⟩
      obtain ⟨w, hw⟩ := hcong
      rw [← hw] at e1 e3 ⊢
      obtain ⟨o, t⟩ := w
      have hA : ∀ m, m ∉ ((n, v) :: config).map (·.1) → vals' m = vals m := by
        intro m hm
        simp only [List.map_cons, List.mem_cons, not_or] at hm
        rw [e2 m hm.2]
        simp [upd, hm.1]
      have hB : (∀ e ∈ (n, v) :: config, (ks e.1).accepts e.2 = true) → (((n, v) :: config).map (·.1)).Nodup →
          o = some (config.map fun e => (e.1, vals e.1)) := by
        intro hacc hnd
        rw [List.map_cons, List.nodup_cons] at hnd
        have := e3 (fun e he => hacc e (List.mem_cons_of_mem _ he)) hnd.2
        simp only at this
        simp only [this, Option.some.injEq]
        apply List.map_congr_left
        intro e he
        have hne : e.1 ≠ n := by
          intro h0
          exact hnd.1 (List.mem_map.2 ⟨e, he, h0⟩)
        simp [upd, hne]
      cases o with
      | none => exact ⟨vals', e1, hA, fun hacc hnd => by have := hB hacc hnd; simp at this⟩
      | some olds => exact ⟨vals', e1, hA, fun hacc hnd => by have := hB hacc hnd; simp at this; simp [this]⟩

theorem leave_holds (ks : Nat → Kind V) (hk : ∀ n, (ks n).Sound) (olds : List (Nat × V)) : ∀ (s : Store V) (vals : Nat → V), s.Holds ks vals →
    ∃ vals', (s.leave ks olds).2.Holds ks vals' ∧ (∀ n, n ∉ olds.map (·.1) → vals' n = vals n) ∧
      ((∀ e ∈ olds, (ks e.1).accepts e.2 = true ∧ (ks e.1).normalize e.2 = e.2) → (olds.map (·.1)).Nodup →
        (s.leave ks olds).1 = true ∧ ∀ e ∈ olds, vals' e.1 = e.2) := by
  induction olds with
  | nil => intro s vals h; exact ⟨vals, h, fun _ _ => rfl, fun _ _ => ⟨rfl, by simp⟩⟩
  | cons e olds ih =>
    obtain ⟨n, v⟩ := e
    intro s vals h
    unfold Store.leave
    obtain ⟨g1, g2⟩ := put_holds (ks n) (hk n) (s n) (vals n) (h n) v
    generalize hg' : (s n).put (ks n) v = r' at g1 g2
    obtain ⟨b, q⟩ := r'
    simp only at g1 g2
    have hs' := set_holds ks s vals h n q _ g1
    cases b with
    | false =>
      simp only
      refine ⟨_, hs', ?_, ?_⟩
      · intro m hm
        simp only [List.map_cons, List.mem_cons, not_or] at hm
        simp [upd, hm.1]
      · intro hacc
        have := (hacc (n, v) List.mem_cons_self).1
        simp only at this
        rw [this] at g2; simp at g2
    | true =>
      simp only
      obtain ⟨vals', e1, e2, e3⟩ := ih (s.set n q) _ hs'
      refine ⟨vals', e1, ?_, ?_⟩
      · intro m hm
        simp only [List.map_cons, List.mem_cons, not_or] at hm
        rw [e2 m hm.2]
        simp [upd, hm.1]
      · intro hacc hnd
        rw [List.map_cons, List.nodup_cons] at hnd
        obtain ⟨f1, f2⟩ := e3 (fun e he => hacc e (List.mem_cons_of_mem _ he)) hnd.2
        refine ⟨f1, ?_⟩
        intro e he
        rcases List.mem_cons.1 he with rfl | he
        · rw [e2 n hnd.1]
          have := hacc (n, v) List.mem_cons_self
          simp [upd, this.1, this.2]
        · exact f2 e he

theorem exec_holds (ks : Nat → Kind V) (hk : ∀ n, (ks n).Sound) (prog : Prog V) : ∀ (s : Store V) (vals : Nat → V), s.Holds ks vals →
    ∃ vals', (prog.exec ks s).2.Holds ks vals' := by
  induction prog with
  | done => intro s vals h; exact ⟨vals, h⟩
  | raise => intro s vals h; exact ⟨vals, h⟩
  | op n o rest ih =>
    intro s vals h
    exact ih _ _ (set_holds ks s vals h n _ _ (step_holds (ks n) (hk n) (s n) (vals n) (h n) o))
  | block config body rest ihb ihr =>
    intro s vals h
    obtain ⟨v1, e1, _, _⟩ := enter_holds ks hk config s vals h
    unfold Prog.exec
    generalize hw : s.enter ks config = w at e1
    obtain ⟨o, t⟩ := w
    simp only at e1
    cases o with
    | none => exact ⟨v1, e1⟩
    | some olds =>
      simp only
      obtain ⟨v2, e2⟩ := ihb t v1 e1
      obtain ⟨v3, e3, _, _⟩ := leave_holds ks hk olds _ v2 e2
      split
      · exact ihr _ _ e3
      · exact ⟨v3, e3⟩

theorem block_spec (ks : Nat → Kind V) (hk : ∀ n, (ks n).Sound) (s : Store V) (vals : Nat → V) (h : s.Holds ks vals)
    (config : List (Nat × V)) (hnd : (config.map (·.1)).Nodup) (hacc : ∀ e ∈ config, (ks e.1).accepts e.2 = true)
    (hres : ∀ e ∈ config, (ks e.1).accepts (vals e.1) = true ∧ (ks e.1).normalize (vals e.1) = vals e.1) (body : Prog V) :
    ∃ vals', ((Prog.block config body .done).exec ks s).1 = (body.exec ks (s.enter ks config).2).1 ∧
      (body.exec ks (s.enter ks config).2).2.Holds ks vals' ∧
      ((Prog.block config body .done).exec ks s).2.Holds ks (fun n => if n ∈ config.map (·.1) then vals n else vals' n) := by
  obtain ⟨v1, e1, _, e3⟩ := enter_holds ks hk config s vals h
  have e3 := e3 hacc hnd
  obtain ⟨v2, e2⟩ := exec_holds ks hk body _ v1 e1
  obtain ⟨v3, f1, f2, f3⟩ := leave_holds ks hk (config.map fun e => (e.1, vals e.1)) _ v2 e2
  have hmm : (config.map fun e => (e.1, vals e.1)).map (·.1) = config.map (·.1) := by
    rw [List.map_map]; rfl
  rw [hmm] at f2 f3
  have f3 := f3 (by
    intro e he
    obtain ⟨c, hc, rfl⟩ := List.mem_map.1 he
    exact hres c hc) hnd
  refine ⟨v2, ?_, e2, ?_⟩
  · rw [Prog.exec]
    generalize hw : s.enter ks config = w at e3 f3 f1
    obtain ⟨o, t⟩ := w
    simp only at e3
    subst e3
    simp only at f3 ⊢
    rw [f3.1]
    cases (body.exec ks t).1 <;> simp [Prog.exec]
  · have hfin : ((Prog.block config body .done).exec ks s).2 = ((body.exec ks (s.enter ks config).2).2.leave ks (config.map fun e => (e.1, vals e.1))).2 := by
      rw [Prog.exec]
      generalize hw : s.enter ks config = w at e3 f3 f1
      obtain ⟨o, t⟩ := w
      simp only at e3
      subst e3
      simp only
      split <;> rfl
    rw [hfin]
    intro n
    have := f1 n
    have hv : v3 n = if n ∈ config.map (·.1) then vals n else v2 n := by
      split
      · rename_i hn
        obtain ⟨c, hc, rfl⟩ := List.mem_map.1 hn
        exact f3.2 (c.1, vals c.1) (List.mem_map.2 ⟨c, hc, rfl⟩)
      · rename_i hn
        exact f2 n hn
    rw [hv] at this
    exact this
