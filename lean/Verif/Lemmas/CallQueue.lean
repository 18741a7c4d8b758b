import Verif.Pandas.Eager

variable {D : Type}

theorem runQueue_none (q : List (D → Option D)) : runQueue none q = none := by
  cases q <;> rfl

theorem runQueue_append (d : Option D) (q r : List (D → Option D)) :
    runQueue d (q ++ r) = runQueue (runQueue d q) r := by
  induction q generalizing d with
  | nil => rfl
  | cons f fs ih =>
    cases d with
    | none => simp [runQueue, runQueue_none]
    | some d => simp only [List.cons_append, runQueue, ih]

theorem runQueue_snoc (d : Option D) (q : List (D → Option D)) (f : D → Option D) :
    runQueue d (q ++ [f]) = (runQueue d q).bind f := by
  rw [runQueue_append]
  cases runQueue d q <;> rfl

/-- A partition of the in-process engine stands for the eagerly computed value `v`. -/
def PyRel (len : D → Nat) (p : PyPart D) (v : Option D) : Prop :=
  runQueue (some p.data) p.queue = v ∧ ∀ n, p.lenCache = some n → v.map len = some n

def FutRel (len : D → Nat) (p : FutPart D) (v : Option D) : Prop :=
  runQueue p.data p.queue = v ∧ ∀ c, p.lenCache = some c → v.map len = c

/-- Store invariant: object by object. -/
def StoreRel {P : Type} (R : P → Option D → Prop) (s : List P) (t : List (Option D)) : Prop :=
  s.length = t.length ∧ ∀ (i : Nat) (p : P) (v : Option D), s[i]? = some p → t[i]? = some v → R p v

theorem StoreRel.none_iff {P : Type} {R : P → Option D → Prop} {s : List P}
    {t : List (Option D)} (h : StoreRel R s t) (i : Nat) : s[i]? = none ↔ t[i]? = none := by
  rw [List.getElem?_eq_none_iff, List.getElem?_eq_none_iff, h.1]

theorem StoreRel.push {P : Type} {R : P → Option D → Prop} {s : List P} {t : List (Option D)}
    (h : StoreRel R s t) {p : P} {v : Option D} (hp : R p v) : StoreRel R (s ++ [p]) (t ++ [v]) := by
  refine ⟨by simp [h.1], ?_⟩
  intro i p' v' h1 h2
  rw [List.getElem?_append] at h1 h2
  rw [← h.1] at h2
  split at h1
  · rename_i hi
    rw [if_pos hi] at h2
    exact h.2 i p' v' h1 h2
  · rename_i hi
    rw [if_neg hi] at h2
    obtain ⟨_, h3⟩ := List.getElem?_eq_some_iff.mp h1
    obtain ⟨_, h4⟩ := List.getElem?_eq_some_iff.mp h2
    simp only [List.getElem_singleton] at h3 h4
    subst h3; subst h4
    exact hp

theorem StoreRel.set {P : Type} {R : P → Option D → Prop} {s : List P} {t : List (Option D)}
    (h : StoreRel R s t) {i : Nat} {q : P} (hq : ∀ v, t[i]? = some v → R q v) :
    StoreRel R (s.set i q) t := by
  refine ⟨by simp [h.1], ?_⟩
  intro j p' v' h1 h2
  rw [List.getElem?_set] at h1
  split at h1
  · rename_i hij
    subst hij
    split at h1
    · cases h1; exact hq v' h2
    · cases h1
  · exact h.2 j p' v' h1 h2

theorem PyRel.flush {len : D → Nat} {p : PyPart D} {v : Option D} (h : PyRel len p v) :
    p.flush.2 = v.isSome ∧ (∀ d, v = some d → p.flush.1.data = d ∧ PyRel len p.flush.1 v) := by
  obtain ⟨h1, h2⟩ := h
  unfold PyPart.flush
  rw [h1]
  cases v with
  | none => exact ⟨rfl, by intro d hd; cases hd⟩
  | some d =>
    refine ⟨rfl, ?_⟩
    intro d' hd
    cases hd
    exact ⟨rfl, ⟨rfl, h2⟩⟩

theorem PyRel.drain {len : D → Nat} {p : PyPart D} {v : Option D} (h : PyRel len p v) :
    p.drain.2 = v.isSome ∧ (∀ d, v = some d → p.drain.1.data = d ∧ PyRel len p.drain.1 v) := by
  unfold PyPart.drain
  split
  · rename_i hq
    have : p.queue = [] := List.eq_nil_of_length_eq_zero hq
    have h1 := h.1
    rw [this] at h1
    simp only [runQueue] at h1
    subst h1
    exact ⟨rfl, by intro d hd; cases hd; exact ⟨rfl, h⟩⟩
  · exact h.flush

/-- the operation's announced length is the true one -/
def HintOK (len : D → Nat) (t : List (Option D)) : POp D → Prop
  | .add i f n => ∀ m v, n = some m → t[i]? = some v → (v.bind f).map len = some m
  | _ => True

theorem pyStep_sim {len : D → Nat} {s : List (PyPart D)} {t : List (Option D)}
    (h : StoreRel (PyRel len) s t) (op : POp D) (hop : HintOK len t op) :
    (pyStep len s op).2 = (eagerStep true len t op).2 ∧
    ((pyStep len s op).2 ≠ .raised →
      StoreRel (PyRel len) (pyStep len s op).1 (eagerStep true len t op).1) := by
  have key : ∀ i : Nat, (s[i]? = none ∧ t[i]? = none) ∨
      ∃ p v, s[i]? = some p ∧ t[i]? = some v ∧ PyRel len p v := by
    intro i
    cases hs : s[i]? with
    | none => exact Or.inl ⟨rfl, (h.none_iff i).mp hs⟩
    | some p =>
      cases ht : t[i]? with
      | none => rw [(h.none_iff i).mpr ht] at hs; cases hs
      | some v => exact Or.inr ⟨p, v, rfl, rfl, h.2 i p v hs ht⟩
  cases op with
  | add i f n =>
    rcases key i with ⟨h1, h2⟩ | ⟨p, v, h1, h2, hR⟩
    · simp only [pyStep, eagerStep, h1, h2]; exact ⟨(by first | rfl | trivial), fun _ => h⟩
    · simp only [pyStep, eagerStep, h1, h2]
      refine ⟨(by first | rfl | trivial), fun _ => h.push ⟨?_, ?_⟩⟩
      · rw [runQueue_snoc, hR.1]
      · intro m hm
        exact hop m v hm h2
  | drain i =>
    rcases key i with ⟨h1, h2⟩ | ⟨p, v, h1, h2, hR⟩
    · simp only [pyStep, eagerStep, h1, h2]; exact ⟨(by first | rfl | trivial), fun _ => h⟩
    · simp only [pyStep, eagerStep, h1, h2, hR.drain.1]
      cases v with
      | none => exact ⟨(by first | rfl | trivial), fun hc => absurd rfl hc⟩
      | some d =>
        refine ⟨(by first | rfl | trivial), fun _ => h.set ?_⟩
        intro v' hv'
        rw [h2] at hv'; cases hv'
        exact (hR.drain.2 d rfl).2
  | read i =>
    rcases key i with ⟨h1, h2⟩ | ⟨p, v, h1, h2, hR⟩
    · simp only [pyStep, eagerStep, h1, h2]; exact ⟨(by first | rfl | trivial), fun _ => h⟩
    · simp only [pyStep, eagerStep, h1, h2, hR.drain.1]
      cases v with
      | none => exact ⟨(by first | rfl | trivial), fun hc => absurd rfl hc⟩
      | some d =>
        refine ⟨by simp [(hR.drain.2 d rfl).1], fun _ => h.set ?_⟩
        intro v' hv'
        rw [h2] at hv'; cases hv'
        exact (hR.drain.2 d rfl).2
  | apply i f =>
    rcases key i with ⟨h1, h2⟩ | ⟨p, v, h1, h2, hR⟩
    · simp only [pyStep, eagerStep, h1, h2]; exact ⟨(by first | rfl | trivial), fun _ => h⟩
    · simp only [pyStep, eagerStep, h1, h2, hR.flush.1]
      cases v with
      | none => exact ⟨(by first | rfl | trivial), fun hc => absurd rfl hc⟩
      | some d =>
        simp only [Option.isSome_some, ↓reduceIte, (hR.flush.2 d rfl).1, Option.bind_some]
        cases hf : f d with
        | none => exact ⟨(by first | rfl | trivial), fun hc => absurd rfl hc⟩
        | some d' =>
          refine ⟨(by first | rfl | trivial), fun _ => ?_⟩
          refine StoreRel.push (h.set ?_) ⟨rfl, by intro n hn; cases hn⟩
          intro v' hv'
          rw [h2] at hv'; cases hv'
          exact (hR.flush.2 d rfl).2
  | copy i =>
    rcases key i with ⟨h1, h2⟩ | ⟨p, v, h1, h2, hR⟩
    · simp only [pyStep, eagerStep, h1, h2]; exact ⟨(by first | rfl | trivial), fun _ => h⟩
    · simp only [pyStep, eagerStep, h1, h2]
      exact ⟨(by first | rfl | trivial), fun _ => h.push hR⟩
  | length i =>
    rcases key i with ⟨h1, h2⟩ | ⟨p, v, h1, h2, hR⟩
    · simp only [pyStep, eagerStep, h1, h2]; exact ⟨(by first | rfl | trivial), fun _ => h⟩
    · simp only [pyStep, eagerStep, h1, h2]
      cases hl : p.lenCache with
      | some n =>
        have := hR.2 n hl
        cases v with
        | none => simp at this
        | some d =>
          simp only [Option.map_some, Option.some.injEq] at this
          subst this
          exact ⟨(by first | rfl | trivial), fun _ => h⟩
      | none =>
        simp only [hR.flush.1]
        cases v with
        | none => exact ⟨(by first | rfl | trivial), fun hc => absurd rfl hc⟩
        | some d =>
          simp only [Option.isSome_some, ↓reduceIte, (hR.flush.2 d rfl).1]
          refine ⟨(by first | rfl | trivial), fun _ => h.set ?_⟩
          intro v' hv'
          rw [h2] at hv'; cases hv'
          have h3 := (hR.flush.2 d rfl).2.1
          rw [(hR.flush.2 d rfl).1] at h3
          exact ⟨h3, by intro n hn; cases hn; rfl⟩

theorem FutRel.drain {len : D → Nat} {p : FutPart D} {v : Option D} (h : FutRel len p v) :
    p.drain.data = v ∧ FutRel len p.drain v := by
  unfold FutPart.drain
  split
  · rename_i hq
    have : p.queue = [] := List.eq_nil_of_length_eq_zero hq
    have h1 := h.1
    rw [this] at h1
    exact ⟨h1, h⟩
  · exact ⟨h.1, ⟨h.1, h.2⟩⟩

theorem futStep_sim {len : D → Nat} {s : List (FutPart D)} {t : List (Option D)}
    (h : StoreRel (FutRel len) s t) (op : POp D) (hop : HintOK len t op) :
    (futStep len s op).2 = (eagerStep false len t op).2 ∧
      StoreRel (FutRel len) (futStep len s op).1 (eagerStep false len t op).1 := by
  have key : ∀ i : Nat, (s[i]? = none ∧ t[i]? = none) ∨
      ∃ p v, s[i]? = some p ∧ t[i]? = some v ∧ FutRel len p v := by
    intro i
    cases hs : s[i]? with
    | none => exact Or.inl ⟨rfl, (h.none_iff i).mp hs⟩
    | some p =>
      cases ht : t[i]? with
      | none => rw [(h.none_iff i).mpr ht] at hs; cases hs
      | some v => exact Or.inr ⟨p, v, rfl, rfl, h.2 i p v hs ht⟩
  cases op with
  | add i f n =>
    rcases key i with ⟨h1, h2⟩ | ⟨p, v, h1, h2, hR⟩
    · simp only [futStep, eagerStep, h1, h2]; exact ⟨(by first | rfl | trivial), h⟩
    · simp only [futStep, eagerStep, h1, h2]
      refine ⟨(by first | rfl | trivial), h.push ⟨?_, ?_⟩⟩
      · rw [runQueue_snoc, hR.1]
      · intro c hc
        cases n with
        | none => cases hc
        | some m =>
          simp only [Option.map_some, Option.some.injEq] at hc
          subst hc
          exact hop m v rfl h2
  | drain i =>
    rcases key i with ⟨h1, h2⟩ | ⟨p, v, h1, h2, hR⟩
    · simp only [futStep, eagerStep, h1, h2]; exact ⟨(by first | rfl | trivial), h⟩
    · simp only [futStep, eagerStep, h1, h2]
      refine ⟨(by first | rfl | trivial), h.set ?_⟩
      intro v' hv'
      rw [h2] at hv'; cases hv'
      exact hR.drain.2
  | read i =>
    rcases key i with ⟨h1, h2⟩ | ⟨p, v, h1, h2, hR⟩
    · simp only [futStep, eagerStep, h1, h2]; exact ⟨(by first | rfl | trivial), h⟩
    · simp only [futStep, eagerStep, h1, h2, hR.drain.1]
      refine ⟨(by first | rfl | trivial), h.set ?_⟩
      intro v' hv'
      rw [h2] at hv'; cases hv'
      exact hR.drain.2
  | apply i f =>
    rcases key i with ⟨h1, h2⟩ | ⟨p, v, h1, h2, hR⟩
    · simp only [futStep, eagerStep, h1, h2]; exact ⟨(by first | rfl | trivial), h⟩
    · simp only [futStep, eagerStep, h1, h2]
      refine ⟨(by first | rfl | trivial), h.push ⟨?_, by intro c hc; cases hc⟩⟩
      rw [runQueue_snoc, hR.1]; rfl
  | copy i =>
    rcases key i with ⟨h1, h2⟩ | ⟨p, v, h1, h2, hR⟩
    · simp only [futStep, eagerStep, h1, h2]; exact ⟨(by first | rfl | trivial), h⟩
    · simp only [futStep, eagerStep, h1, h2]
      exact ⟨(by first | rfl | trivial), h.push hR⟩
  | length i =>
    rcases key i with ⟨h1, h2⟩ | ⟨p, v, h1, h2, hR⟩
    · simp only [futStep, eagerStep, h1, h2]; exact ⟨(by first | rfl | trivial), h⟩
    · simp only [futStep, eagerStep, h1, h2]
      cases hl : p.lenCache with
      | some c =>
        have := hR.2 c hl
        subst this
        refine ⟨by cases v <;> rfl, h.set ?_⟩
        intro v' hv'
        rw [h2] at hv'; cases hv'
        exact ⟨hR.1, by intro c hc; cases hc; rfl⟩
      | none =>
        simp only [hR.1]
        refine ⟨by cases v <;> rfl, h.set ?_⟩
        intro v' hv'
        rw [h2] at hv'; cases hv'
        exact ⟨hR.1, by intro c hc; cases hc; rfl⟩

theorem eagerStep_some {b : Bool} {len : D → Nat} {t : List (Option D)} {op : POp D}
    (ht : ∀ v ∈ t, v.isSome) (hop : op.Total len) :
    (∀ v ∈ (eagerStep b len t op).1, v.isSome) ∧ (eagerStep b len t op).2 ≠ .raised ∧ HintOK len t op := by
  have key : ∀ (i : Nat) (v : Option D), t[i]? = some v → ∃ d, v = some d := by
    intro i v hv
    exact Option.isSome_iff_exists.mp (ht v (List.mem_of_getElem? hv))
  have push : ∀ d : D, ∀ v ∈ t ++ [some d], v.isSome := by
    intro d v hv
    rcases List.mem_append.mp hv with hv | hv
    · exact ht v hv
    · simp only [List.mem_singleton] at hv; subst hv; rfl
  cases op with
  | add i f n =>
    refine ⟨?_, ?_, ?_⟩
    · simp only [eagerStep]
      cases h1 : t[i]? with
      | none => exact ht
      | some v =>
        obtain ⟨d, rfl⟩ := key i v h1
        obtain ⟨d', hd, _⟩ := hop d
        simp only [Option.bind_some, hd]; exact push d'
    · simp only [eagerStep]; cases t[i]? <;> simp
    · intro m v hm h1
      obtain ⟨d, rfl⟩ := key i v h1
      obtain ⟨d', hd, hl⟩ := hop d
      simp [hd, hl m hm]
  | drain i =>
    refine ⟨?_, ?_, trivial⟩
    · simp only [eagerStep]; cases h1 : t[i]? <;> exact ht
    · simp only [eagerStep]
      cases h1 : t[i]? with
      | none => simp
      | some v => obtain ⟨d, rfl⟩ := key i v h1; simp
  | read i =>
    refine ⟨?_, ?_, trivial⟩
    · simp only [eagerStep]; cases h1 : t[i]? <;> exact ht
    · simp only [eagerStep]
      cases h1 : t[i]? with
      | none => simp
      | some v => obtain ⟨d, rfl⟩ := key i v h1; simp
  | apply i f =>
    refine ⟨?_, ?_, trivial⟩
    · simp only [eagerStep]
      cases h1 : t[i]? with
      | none => exact ht
      | some v =>
        obtain ⟨d, rfl⟩ := key i v h1
        obtain ⟨d', hd⟩ := hop d
        simp only [Option.bind_some, hd, Option.isNone_some, Bool.and_false, Bool.false_eq_true,
          ↓reduceIte]
        exact push d'
    · simp only [eagerStep]
      cases h1 : t[i]? with
      | none => simp
      | some v =>
        obtain ⟨d, rfl⟩ := key i v h1
        obtain ⟨d', hd⟩ := hop d
        simp [hd]
  | copy i =>
    refine ⟨?_, ?_, trivial⟩
    · simp only [eagerStep]
      cases h1 : t[i]? with
      | none => exact ht
      | some v => obtain ⟨d, rfl⟩ := key i v h1; exact push d
    · simp only [eagerStep]; cases t[i]? <;> simp
  | length i =>
    refine ⟨?_, ?_, trivial⟩
    · simp only [eagerStep]; cases h1 : t[i]? <;> exact ht
    · simp only [eagerStep]
      cases h1 : t[i]? with
      | none => simp
      | some v => obtain ⟨d, rfl⟩ := key i v h1; simp

theorem HintOK.of_noHint {len : D → Nat} {t : List (Option D)} {op : POp D} (h : op.NoHint) :
    HintOK len t op := by
  cases op with
  | add i f n =>
    simp only [POp.NoHint] at h
    subst h
    intro m v hm
    cases hm
  | _ => trivial

theorem init_rel_py (len : D → Nat) (ds : List D) :
    StoreRel (PyRel len) (pyInit len ds) (ds.map some) := by
  refine ⟨by simp [pyInit], ?_⟩
  intro i p v h1 h2
  simp only [pyInit, List.getElem?_map, Option.map_eq_some_iff] at h1 h2
  obtain ⟨d, hd, rfl⟩ := h1
  obtain ⟨d', hd', rfl⟩ := h2
  rw [hd] at hd'; cases hd'
  exact ⟨rfl, by intro n hn; cases hn; rfl⟩

theorem init_rel_fut (len : D → Nat) (ds : List D) :
    StoreRel (FutRel len) (futInit len ds) (ds.map some) := by
  refine ⟨by simp [futInit], ?_⟩
  intro i p v h1 h2
  simp only [futInit, List.getElem?_map, Option.map_eq_some_iff] at h1 h2
  obtain ⟨d, hd, rfl⟩ := h1
  obtain ⟨d', hd', rfl⟩ := h2
  rw [hd] at hd'; cases hd'
  exact ⟨rfl, by intro n hn; cases hn; rfl⟩
