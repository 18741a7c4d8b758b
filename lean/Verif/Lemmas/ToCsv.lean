import Verif.Lemmas.Labels
import Verif.Lemmas.Writers
import Verif.Model.ToCsv
/-
The workers of `to_csv`: an invariant of every run.
-/

variable {ι κ α β : Type}

/-- what is kept of the old file -/
def csvBase (mode : OpenMode) (old : Option (List β)) : List β :=
  match mode with
  | .a => old.getD []
  | _ => []

/-- the file after the first `t` workers -/
def csvFilled (job : CsvJob β) (old : Option (List β)) (t : Nat) : List β :=
  csvBase job.mode old ++ ((job.texts.take t).map (·.getD [])).flatten

def csvTurnFile (job : CsvJob β) (old : Option (List β)) (t : Nat) : Option (List β) :=
  if t = 0 then old else some (csvFilled job old t)

/-- the state of the worker whose turn it is -/
def csvTurn (job : CsvJob β) (old : Option (List β)) (t : Nat) (file : Option (List β)) : Option CsvPhase → Prop
  | none | some .pending | some .running | some .waiting => file = csvTurnFile job old t
  | some .opened => file = some (csvFilled job old t) ∧ (workerMode job.mode t = .a ∨ t = 0 ∧ csvBase job.mode old = [])
  | some .written => file = some (csvFilled job old (t + 1))
  | some .done => False
  | some .failed => file = csvTurnFile job old t ∨ ∃ p, p <+: ((job.texts[t]?.getD none).getD []) ∧
      file = some (csvFilled job old t ++ p)

structure CsvInv (job : CsvJob β) (old : Option (List β)) (s : CsvState β) (t : Nat) : Prop where
  nle : t ≤ job.texts.length
  plen : s.phases.length = job.texts.length
  elen : job.texts.length < s.events.length
  events : ∀ j : Nat, s.events[j]? = some true ↔ j ≤ t
  before : ∀ j, j < t → s.phases[j]? = some .done
  after : ∀ j, t < j → s.phases[j]? ≠ some .opened ∧ s.phases[j]? ≠ some .written ∧ s.phases[j]? ≠ some .done
  texts : ∀ j : Nat, s.phases[j]? = some .waiting ∨ s.phases[j]? = some .opened ∨ s.phases[j]? = some .written ∨
    s.phases[j]? = some .done → ∃ x, job.texts[j]? = some (some x)
  turn : csvTurn job old t s.file s.phases[t]?

theorem csvFilled_zero (job : CsvJob β) (old : Option (List β)) : csvFilled job old 0 = csvBase job.mode old := by
  simp [csvFilled]

theorem csvFilled_succ {job : CsvJob β} (old : Option (List β)) {t : Nat} {x : List β} (h : job.texts[t]? = some (some x)) :
    csvFilled job old (t + 1) = csvFilled job old t ++ x := by
  unfold csvFilled
  rw [List.take_add_one, h]
  simp

theorem csvInv_init (job : CsvJob β) (old : Option (List β)) {count : Nat} (h : job.texts.length < count) :
    CsvInv job old (csvInit job count old) 0 where
  nle := Nat.zero_le _
  plen := by simp [csvInit]
  elen := by simpa [csvInit] using h
  events := by
    intro j
    simp only [csvInit, List.getElem?_set, List.length_replicate]
    by_cases hj : 0 = j
    · subst hj; simp; omega
    · rw [if_neg hj, List.getElem?_replicate]
      by_cases h2 : j < count <;> simp [h2] <;> omega
  before := by omega
  after := by
    intro j _
    simp only [csvInit, List.getElem?_map]
    cases job.texts[j]? <;> simp
  texts := by
    intro j
    simp only [csvInit, List.getElem?_map]
    cases job.texts[j]? <;> simp
  turn := by
    simp only [csvInit, List.getElem?_map]
    cases job.texts[0]? <;> simp [csvTurn, csvTurnFile]

/-- A step by which worker `i` moves to a phase in which it has not yet entered, without touching the file. -/
theorem csvInv_move {job : CsvJob β} {old : Option (List β)} {s : CsvState β} {t : Nat} (h : CsvInv job old s t) (i : Nat)
    (p : CsvPhase) (hp : p = .running ∨ p = .waiting ∨ p = .failed)
    (hq : s.phases[i]? = some .pending ∨ s.phases[i]? = some .running ∨ s.phases[i]? = some .waiting ∨
      (s.phases[i]? = some .written ∧ p = .failed))
    (hx : p = .waiting → ∃ x, job.texts[i]? = some (some x)) : CsvInv job old (s.setPhase i p) t := by
  have hi : i < s.phases.length := by
    rcases hq with h | h | h | h
    · exact (List.getElem?_eq_some_iff.mp h).1
    · exact (List.getElem?_eq_some_iff.mp h).1
    · exact (List.getElem?_eq_some_iff.mp h).1
    · exact (List.getElem?_eq_some_iff.mp h.1).1
  have hit : t ≤ i := by
    apply Nat.le_of_not_lt
    intro hlt
    have := h.before i hlt
    rw [this] at hq
    simp at hq
  refine ⟨h.nle, ?_, h.elen, h.events, ?_, ?_, ?_, ?_⟩
  · simp [CsvState.setPhase, h.plen]
  · intro j hj
    simp only [CsvState.setPhase]
    rw [List.getElem?_set_ne (by omega)]
    exact h.before j hj
  · intro j hj
    simp only [CsvState.setPhase]
    by_cases hij : i = j
    · subst hij
      rw [List.getElem?_set_self hi]
      rcases hp with rfl | rfl | rfl <;> simp
    · rw [List.getElem?_set_ne hij]
      exact h.after j hj
  · intro j hj
    simp only [CsvState.setPhase] at hj
    by_cases hij : i = j
    · subst hij
      rw [List.getElem?_set_self hi] at hj
      rcases hp with rfl | rfl | rfl
      · simp at hj
      · exact hx rfl
      · simp at hj
    · rw [List.getElem?_set_ne hij] at hj
      exact h.texts j hj
  · simp only [CsvState.setPhase]
    by_cases hij : i = t
    · subst hij
      rw [List.getElem?_set_self hi]
      have ht := h.turn
      rcases hq with hq | hq | hq | ⟨hq, rfl⟩
      · rw [hq] at ht; rcases hp with rfl | rfl | rfl
        · exact ht
        · exact ht
        · exact Or.inl ht
      · rw [hq] at ht; rcases hp with rfl | rfl | rfl
        · exact ht
        · exact ht
        · exact Or.inl ht
      · rw [hq] at ht; rcases hp with rfl | rfl | rfl
        · exact ht
        · exact ht
        · exact Or.inl ht
      · rw [hq] at ht
        obtain ⟨x, hx'⟩ := h.texts i (Or.inr (Or.inr (Or.inl hq)))
        refine Or.inr ⟨x, by rw [hx']; simp, ?_⟩
        rw [← csvFilled_succ old hx']
        exact ht
    · rw [List.getElem?_set_ne hij]
      exact h.turn

theorem csv_turn_of_opened {job : CsvJob β} {old : Option (List β)} {s : CsvState β} {t : Nat} (h : CsvInv job old s t) {i : Nat}
    (hq : s.phases[i]? = some .opened ∨ s.phases[i]? = some .written) : i = t := by
  have h1 : ¬ i < t := by
    intro hlt
    rw [h.before i hlt] at hq
    simp at hq
  have h2 : ¬ t < i := by
    intro hlt
    obtain ⟨a, b, _⟩ := h.after i hlt
    rcases hq with hq | hq
    · exact a hq
    · exact b hq
  omega

/-- Opening the file when it is worker `t`'s turn. -/
theorem csv_open {job : CsvJob β} {old : Option (List β)} {t : Nat} {f : List β}
    (h : openFile (workerMode job.mode t) (csvTurnFile job old t) = some f) :
    f = csvFilled job old t ∧ (workerMode job.mode t = .a ∨ t = 0 ∧ csvBase job.mode old = []) := by
  by_cases ht : t = 0
  · subst ht
    rw [csvFilled_zero]
    simp only [csvTurnFile, workerMode, ↓reduceIte, ne_eq, not_true_eq_false] at h ⊢
    cases hm : job.mode <;> rw [hm] at h
    · simp only [openFile, Option.some.injEq] at h; simp [csvBase, ← h]
    · simp only [openFile, Option.some.injEq] at h; simp [csvBase, ← h]
    · cases old with
      | none => simp only [openFile, Option.some.injEq] at h; simp [csvBase, ← h]
      | some o => simp [openFile] at h
  · simp only [csvTurnFile, workerMode, if_neg ht, ne_eq, ht, not_false_eq_true, ↓reduceIte] at h ⊢
    cases hm : job.mode <;> rw [hm] at h
    · simp only [openFile, Option.getD_some, Option.some.injEq] at h; simp [h]
    · simp only [openFile, Option.getD_some, Option.some.injEq] at h; simp [h]
    · simp [openFile] at h

/-- Changing the phase of the worker whose turn it is, and the file. -/
theorem csvInv_turn {job : CsvJob β} {old : Option (List β)} {s : CsvState β} {t : Nat} (h : CsvInv job old s t)
    (ht : t < s.phases.length) (p : CsvPhase) (f : Option (List β)) (hx : ∃ x, job.texts[t]? = some (some x))
    (hturn : csvTurn job old t f (some p)) : CsvInv job old { s with file := f, phases := s.phases.set t p } t := by
  refine ⟨h.nle, ?_, h.elen, h.events, ?_, ?_, ?_, ?_⟩
  · simp [h.plen]
  · intro j hj
    simp only
    rw [List.getElem?_set_ne (by omega)]
    exact h.before j hj
  · intro j hj
    simp only
    rw [List.getElem?_set_ne (by omega)]
    exact h.after j hj
  · intro j hj
    simp only at hj
    by_cases hij : t = j
    · subst hij; exact hx
    · rw [List.getElem?_set_ne hij] at hj
      exact h.texts j hj
  · simp only
    rw [List.getElem?_set_self ht]
    exact hturn

theorem csv_write {job : CsvJob β} {old : Option (List β)} {t : Nat} (x : List β)
    (h : workerMode job.mode t = .a ∨ t = 0 ∧ csvBase job.mode old = []) :
    writeHandle (workerMode job.mode t) x (csvFilled job old t) = csvFilled job old t ++ x := by
  rcases h with h | ⟨rfl, h⟩
  · rw [h]; rfl
  · rw [csvFilled_zero, h]
    cases workerMode job.mode 0 <;> simp [writeHandle]

theorem csvInv_step {job : CsvJob β} {old : Option (List β)} {s s' : CsvState β} {t : Nat} (h : CsvInv job old s t)
    (e : CsvEvent) (he : csvStep job s e = some s') : ∃ t', t ≤ t' ∧ CsvInv job old s' t' := by
  cases e with
  | start i =>
    simp only [csvStep] at he
    split at he
    · rename_i hc
      cases he
      exact ⟨t, Nat.le_refl _, csvInv_move h i _ (Or.inl rfl) (Or.inl hc.1) (by simp)⟩
    · cases he
  | buffer i =>
    simp only [csvStep] at he
    split at he
    · rename_i hc
      cases he
      refine ⟨t, Nat.le_refl _, csvInv_move h i _ ?_ (Or.inr (Or.inl hc)) ?_⟩
      · split <;> simp
      · split
        · rename_i x hx; exact fun _ => ⟨x, hx⟩
        · intro h'; cases h'
    · cases he
  | enter i =>
    simp only [csvStep] at he
    split at he
    · rename_i hc
      have hle := (h.events i).mp hc.2
      have hit : i = t := by
        rcases Nat.lt_or_eq_of_le hle with hlt | heq
        · rw [h.before i hlt] at hc
          simp at hc
        · exact heq
      subst hit
      have hlt := (List.getElem?_eq_some_iff.mp hc.1).1
      have ht := h.turn
      rw [hc.1] at ht
      split at he
      · rename_i f hf
        cases he
        rw [show s.file = csvTurnFile job old i from ht] at hf
        obtain ⟨e1, e2⟩ := csv_open hf
        refine ⟨i, Nat.le_refl _, csvInv_turn h hlt _ _ (h.texts i (Or.inl hc.1)) ?_⟩
        exact ⟨by rw [e1], e2⟩
      · cases he
        exact ⟨i, Nat.le_refl _, csvInv_move h i _ (Or.inr (Or.inr rfl)) (Or.inr (Or.inr (Or.inl hc.1))) (by simp)⟩
    · cases he
  | write i =>
    simp only [csvStep] at he
    split at he
    · rename_i hc
      have hit := csv_turn_of_opened h (Or.inl hc)
      subst hit
      have hlt := (List.getElem?_eq_some_iff.mp hc).1
      have ht := h.turn
      rw [hc] at ht
      obtain ⟨t1, t2⟩ := ht
      split at he
      · rename_i x f hx hf
        cases he
        rw [t1] at hf
        cases hf
        refine ⟨i, Nat.le_refl _, csvInv_turn h hlt _ _ ⟨x, hx⟩ ?_⟩
        show _ = _
        rw [csv_write x t2, csvFilled_succ old hx]
      · cases he
    · cases he
  | send i =>
    simp only [csvStep] at he
    split at he
    · rename_i hc
      have hit := csv_turn_of_opened h (Or.inr hc)
      subst hit
      have hlt := (List.getElem?_eq_some_iff.mp hc).1
      have ht := h.turn
      rw [hc] at ht
      split at he
      · rename_i hev
        cases he
        refine ⟨i + 1, by omega, ?_, ?_, ?_, ?_, ?_, ?_, ?_, ?_⟩
        · rw [h.plen] at hlt; exact hlt
        · simp [h.plen]
        · simp [h.elen]
        · intro j
          simp only
          by_cases hj : i + 1 = j
          · subst hj; rw [List.getElem?_set_self hev]; simp
          · rw [List.getElem?_set_ne hj, h.events j]; omega
        · intro j hj
          simp only
          by_cases hj' : i = j
          · subst hj'; rw [List.getElem?_set_self hlt]
          · rw [List.getElem?_set_ne hj']; exact h.before j (by omega)
        · intro j hj
          simp only
          rw [List.getElem?_set_ne (by omega)]
          exact h.after j (by omega)
        · intro j hj
          simp only at hj
          by_cases hj' : i = j
          · subst hj'; exact h.texts i (Or.inr (Or.inr (Or.inl hc)))
          · rw [List.getElem?_set_ne hj'] at hj; exact h.texts j hj
        · simp only
          rw [List.getElem?_set_ne (by omega)]
          obtain ⟨a, b, c⟩ := h.after (i + 1) (by omega)
          have hf : s.file = csvTurnFile job old (i + 1) := by
            rw [csvTurnFile, if_neg (by omega)]; exact ht
          cases hp : s.phases[i + 1]? with
          | none => exact hf
          | some p =>
            rw [hp] at a b c
            cases p with
            | pending => exact hf
            | running => exact hf
            | waiting => exact hf
            | opened => exact absurd rfl a
            | written => exact absurd rfl b
            | done => exact absurd rfl c
            | failed => exact Or.inl hf
      · cases he
        exact ⟨i, Nat.le_refl _, csvInv_move h i _ (Or.inr (Or.inr rfl)) (Or.inr (Or.inr (Or.inr ⟨hc, rfl⟩))) (by simp)⟩
    · cases he
  | crash i torn =>
    simp only [csvStep] at he
    split at he
    · rename_i hc
      have hit := csv_turn_of_opened h (Or.inl hc)
      subst hit
      have hlt := (List.getElem?_eq_some_iff.mp hc).1
      have ht := h.turn
      rw [hc] at ht
      obtain ⟨t1, t2⟩ := ht
      split at he
      · rename_i x f hx hf
        cases he
        rw [t1] at hf
        cases hf
        refine ⟨i, Nat.le_refl _, csvInv_turn h hlt _ _ ⟨x, hx⟩ ?_⟩
        refine Or.inr ⟨x.take torn, ?_, ?_⟩
        · rw [hx]; exact List.take_prefix _ _
        · rw [csv_write _ t2]
      · cases he
    · rename_i hc; cases he
      exact ⟨t, Nat.le_refl _, csvInv_move h i _ (Or.inr (Or.inr rfl)) (Or.inl hc) (by simp)⟩
    · rename_i hc; cases he
      exact ⟨t, Nat.le_refl _, csvInv_move h i _ (Or.inr (Or.inr rfl)) (Or.inr (Or.inl hc)) (by simp)⟩
    · rename_i hc; cases he
      exact ⟨t, Nat.le_refl _, csvInv_move h i _ (Or.inr (Or.inr rfl)) (Or.inr (Or.inr (Or.inl hc))) (by simp)⟩
    · rename_i hc; cases he
      exact ⟨t, Nat.le_refl _, csvInv_move h i _ (Or.inr (Or.inr rfl)) (Or.inr (Or.inr (Or.inr ⟨hc, rfl⟩))) (by simp)⟩
    · cases he

theorem csvInv_run {job : CsvJob β} {old : Option (List β)} (es : List CsvEvent) {s s' : CsvState β} {t : Nat}
    (h : CsvInv job old s t) (he : csvRun job s es = some s') : ∃ t', t ≤ t' ∧ CsvInv job old s' t' := by
  induction es generalizing s t with
  | nil => cases he; exact ⟨t, Nat.le_refl _, h⟩
  | cons e es ih =>
    simp only [csvRun, Option.bind_eq_some_iff] at he
    obtain ⟨s1, h1, h2⟩ := he
    obtain ⟨t1, l1, i1⟩ := csvInv_step h e h1
    obtain ⟨t2, l2, i2⟩ := ih i1 h2
    exact ⟨t2, Nat.le_trans l1 l2, i2⟩

/-! ### runs end -/

def CsvPhase.rank : CsvPhase → Nat
  | .pending => 0
  | .running => 1
  | .waiting => 2
  | .opened => 3
  | .written => 4
  | .done => 5
  | .failed => 5

theorem rank_set (l : List CsvPhase) {i : Nat} {q : CsvPhase} (p : CsvPhase) (h : l[i]? = some q) :
    ((l.set i p).map CsvPhase.rank).sum + q.rank = (l.map CsvPhase.rank).sum + p.rank := by
  induction l generalizing i with
  | nil => simp at h
  | cons x xs ih =>
    cases i with
    | zero => simp at h; subst h; simp; omega
    | succ i =>
      simp only [List.getElem?_cons_succ] at h
      have := ih h
      simp only [List.set_cons_succ, List.map_cons, List.sum_cons]
      omega

theorem rank_le (l : List CsvPhase) : (l.map CsvPhase.rank).sum ≤ 5 * l.length := by
  induction l with
  | nil => simp
  | cons x xs ih =>
    have : x.rank ≤ 5 := by cases x <;> simp [CsvPhase.rank]
    simp only [List.map_cons, List.sum_cons, List.length_cons]
    omega

theorem csvStep_rank {job : CsvJob β} {s s' : CsvState β} (e : CsvEvent) (he : csvStep job s e = some s') :
    s'.phases.length = s.phases.length ∧ (s.phases.map CsvPhase.rank).sum + 1 ≤ (s'.phases.map CsvPhase.rank).sum := by
  have key : ∀ (i : Nat) (q p : CsvPhase), s.phases[i]? = some q → q.rank + 1 ≤ p.rank →
      (s.phases.map CsvPhase.rank).sum + 1 ≤ ((s.phases.set i p).map CsvPhase.rank).sum := by
    intro i q p h1 h2
    have := rank_set s.phases p h1
    omega
  cases e with
  | start i =>
    simp only [csvStep] at he
    split at he
    · rename_i hc; cases he
      exact ⟨by simp [CsvState.setPhase], key i _ _ hc.1 (by decide)⟩
    · cases he
  | buffer i =>
    simp only [csvStep] at he
    split at he
    · rename_i hc; cases he
      refine ⟨by simp [CsvState.setPhase], key i _ _ hc ?_⟩
      split <;> decide
    · cases he
  | enter i =>
    simp only [csvStep] at he
    split at he
    · rename_i hc
      split at he
      · cases he; exact ⟨by simp, key i _ _ hc.1 (by decide)⟩
      · cases he; exact ⟨by simp [CsvState.setPhase], key i _ _ hc.1 (by decide)⟩
    · cases he
  | write i =>
    simp only [csvStep] at he
    split at he
    · rename_i hc
      split at he
      · cases he; exact ⟨by simp, key i _ _ hc (by decide)⟩
      · cases he
    · cases he
  | send i =>
    simp only [csvStep] at he
    split at he
    · rename_i hc
      split at he
      · cases he; exact ⟨by simp, key i _ _ hc (by decide)⟩
      · cases he; exact ⟨by simp [CsvState.setPhase], key i _ _ hc (by decide)⟩
    · cases he
  | crash i torn =>
    simp only [csvStep] at he
    split at he
    · rename_i hc
      split at he
      · cases he; exact ⟨by simp, key i _ _ hc (by decide)⟩
      · cases he
    · rename_i hc; cases he; exact ⟨by simp [CsvState.setPhase], key i _ _ hc (by decide)⟩
    · rename_i hc; cases he; exact ⟨by simp [CsvState.setPhase], key i _ _ hc (by decide)⟩
    · rename_i hc; cases he; exact ⟨by simp [CsvState.setPhase], key i _ _ hc (by decide)⟩
    · rename_i hc; cases he; exact ⟨by simp [CsvState.setPhase], key i _ _ hc (by decide)⟩
    · cases he

theorem csvRun_length {job : CsvJob β} (es : List CsvEvent) {s s' : CsvState β} (he : csvRun job s es = some s') :
    s'.phases.length = s.phases.length ∧ (s.phases.map CsvPhase.rank).sum + es.length ≤ (s'.phases.map CsvPhase.rank).sum := by
  induction es generalizing s with
  | nil => cases he; simp
  | cons e es ih =>
    simp only [csvRun, Option.bind_eq_some_iff] at he
    obtain ⟨s1, h1, h2⟩ := he
    have a := csvStep_rank e h1
    have b := ih h2
    simp only [List.length_cons]
    omega

/-! ### nothing fails by itself -/

theorem csv_enter_turn {job : CsvJob β} {old : Option (List β)} {s : CsvState β} {t i : Nat} (h : CsvInv job old s t)
    (hc : s.phases[i]? = some .waiting ∧ s.events[i]? = some true) : i = t ∧ s.file = csvTurnFile job old t := by
  have hle := (h.events i).mp hc.2
  have hit : i = t := by
    rcases Nat.lt_or_eq_of_le hle with hlt | heq
    · rw [h.before i hlt] at hc
      simp at hc
    · exact heq
  subst hit
  have ht := h.turn
  rw [hc.1] at ht
  exact ⟨rfl, ht⟩

theorem csvStep_no_fail {job : CsvJob β} {old : Option (List β)} {s s' : CsvState β} {t : Nat} (h : CsvInv job old s t)
    (htexts : ∀ x ∈ job.texts, x.isSome) (hmode : job.mode = .x → old = none ∧ job.texts.length ≤ 1)
    (e : CsvEvent) (hne : ∀ i k, e ≠ .crash i k) (he : csvStep job s e = some s') (hf : .failed ∉ s.phases) :
    .failed ∉ s'.phases := by
  have key : ∀ (i : Nat) (p : CsvPhase), p ≠ .failed → .failed ∉ s.phases.set i p := by
    intro i p hp hm
    rcases List.mem_or_eq_of_mem_set hm with h | h
    · exact hf h
    · exact hp h.symm
  cases e with
  | start i =>
    simp only [csvStep] at he
    split at he
    · cases he; exact key i _ (by decide)
    · cases he
  | buffer i =>
    simp only [csvStep] at he
    split at he
    · rename_i hc
      have hi := (List.getElem?_eq_some_iff.mp hc).1
      rw [h.plen] at hi
      cases he
      apply key
      rw [List.getElem?_eq_getElem hi]
      have := htexts _ (List.getElem_mem hi)
      cases hx : job.texts[i] with
      | none => rw [hx] at this; cases this
      | some x => simp
    · cases he
  | enter i =>
    simp only [csvStep] at he
    split at he
    · rename_i hc
      obtain ⟨rfl, hfile⟩ := csv_enter_turn h hc
      have hi := (List.getElem?_eq_some_iff.mp hc.1).1
      rw [h.plen] at hi
      split at he
      · cases he; exact key i _ (by decide)
      · rename_i hopen
        exfalso
        rw [hfile] at hopen
        cases hm : job.mode with
        | w =>
          rw [hm] at hopen
          by_cases h0 : i = 0 <;> simp [workerMode, h0, openFile] at hopen
        | a =>
          rw [hm] at hopen
          by_cases h0 : i = 0 <;> simp [workerMode, h0, openFile] at hopen
        | x =>
          obtain ⟨ho, hl⟩ := hmode hm
          have h0 : i = 0 := by omega
          subst h0
          subst ho
          rw [hm] at hopen
          simp [workerMode, openFile, csvTurnFile] at hopen
    · cases he
  | write i =>
    simp only [csvStep] at he
    split at he
    · split at he
      · cases he; exact key i _ (by decide)
      · cases he
    · cases he
  | send i =>
    simp only [csvStep] at he
    split at he
    · rename_i hc
      have hi := (List.getElem?_eq_some_iff.mp hc).1
      rw [h.plen] at hi
      split at he
      · cases he; exact key i _ (by decide)
      · rename_i hlt
        have := h.elen
        omega
    · cases he
  | crash i k => exact absurd rfl (hne i k)

theorem csvRun_no_fail {job : CsvJob β} {old : Option (List β)} (htexts : ∀ x ∈ job.texts, x.isSome)
    (hmode : job.mode = .x → old = none ∧ job.texts.length ≤ 1) (es : List CsvEvent) (hne : ∀ i k, .crash i k ∉ es)
    {s s' : CsvState β} {t : Nat} (h : CsvInv job old s t) (he : csvRun job s es = some s') (hf : .failed ∉ s.phases) :
    .failed ∉ s'.phases := by
  induction es generalizing s t with
  | nil => cases he; exact hf
  | cons e es ih =>
    simp only [csvRun, Option.bind_eq_some_iff] at he
    obtain ⟨s1, h1, h2⟩ := he
    obtain ⟨t1, _, i1⟩ := csvInv_step h e h1
    refine ih (fun i k hm => hne i k (List.mem_cons_of_mem _ hm)) i1 h2 ?_
    exact csvStep_no_fail h htexts hmode e (fun i k he => hne i k (he ▸ List.mem_cons_self)) h1 hf

/-! ### something can always happen -/

theorem csv_busy_step {job : CsvJob β} {old : Option (List β)} {s : CsvState β} {t : Nat} (h : CsvInv job old s t) {i : Nat}
    (hc : s.phases[i]? = some .running ∨ s.phases[i]? = some .opened ∨ s.phases[i]? = some .written) :
    ∃ e s', (∀ i k, e ≠ CsvEvent.crash i k) ∧ csvStep job s e = some s' := by
  rcases hc with hc | hc | hc
  · exact ⟨.buffer i, _, by simp, by simp only [csvStep]; rw [if_pos hc]⟩
  · have hit := csv_turn_of_opened h (Or.inl hc)
    subst hit
    obtain ⟨x, hx⟩ := h.texts i (Or.inr (Or.inl hc))
    have ht := h.turn
    rw [hc] at ht
    refine ⟨.write i, ⟨some (writeHandle (workerMode job.mode i) x (csvFilled job old i)), s.events, s.phases.set i .written⟩,
      by simp, ?_⟩
    simp only [csvStep]
    rw [if_pos hc, hx, ht.1]
  · refine ⟨.send i, if i + 1 < s.events.length then
        { s with events := s.events.set (i + 1) true, phases := s.phases.set i .done } else s.setPhase i .failed, by simp, ?_⟩
    simp only [csvStep]
    rw [if_pos hc]
    split <;> rfl

theorem csv_progress {job : CsvJob β} {old : Option (List β)} {s : CsvState β} {t : Nat} (h : CsvInv job old s t)
    (hslots : (job.holds = false ∧ 1 ≤ job.slots) ∨ job.texts.length ≤ job.slots) (hf : .failed ∉ s.phases)
    (hnd : ∃ p ∈ s.phases, p ≠ .done) : ∃ e s', (∀ i k, e ≠ CsvEvent.crash i k) ∧ csvStep job s e = some s' := by
  have htl : t < s.phases.length := by
    apply Nat.lt_of_not_le
    intro hle
    obtain ⟨p, hp, hpd⟩ := hnd
    obtain ⟨j, hj, rfl⟩ := List.getElem_of_mem hp
    have := h.before j (by omega)
    rw [List.getElem?_eq_getElem hj] at this
    exact hpd (Option.some.inj this)
  have hp := List.getElem?_eq_getElem htl
  have hturn := h.turn
  cases hph : s.phases[t] with
  | pending =>
    rw [hph] at hp
    by_cases hs : (s.phases.filter (·.busy job.holds)).length < job.slots
    · exact ⟨.start t, _, by simp, by simp only [csvStep]; rw [if_pos ⟨hp, hs⟩]⟩
    · rcases hslots with ⟨h1, h2⟩ | h1
      · have : s.phases.filter (·.busy job.holds) ≠ [] := by
          intro h0; rw [h0] at hs; simp at hs; omega
        obtain ⟨q, hq⟩ := List.exists_mem_of_ne_nil _ this
        rw [List.mem_filter, h1] at hq
        obtain ⟨hq1, hq2⟩ := hq
        obtain ⟨j, hj, hjq⟩ := List.getElem_of_mem hq1
        have hj' := List.getElem?_eq_getElem hj
        rw [hjq] at hj'
        apply csv_busy_step h (i := j)
        rw [hj']
        cases q <;> simp [CsvPhase.busy] at hq2 ⊢
      · exfalso
        have hlt : (s.phases.filter (·.busy job.holds)).length < s.phases.length := by
          rw [List.length_filter_lt_length_iff_exists]
          exact ⟨_, List.getElem_mem htl, by rw [hph]; simp [CsvPhase.busy]⟩
        rw [h.plen] at hlt
        omega
  | running => rw [hph] at hp; exact csv_busy_step h (Or.inl hp)
  | opened => rw [hph] at hp; exact csv_busy_step h (Or.inr (Or.inl hp))
  | written => rw [hph] at hp; exact csv_busy_step h (Or.inr (Or.inr hp))
  | waiting =>
    rw [hph] at hp
    have hev : s.events[t]? = some true := (h.events t).mpr (Nat.le_refl _)
    cases ho : openFile (workerMode job.mode t) s.file with
    | some f => exact ⟨.enter t, _, by simp, by simp only [csvStep]; rw [if_pos ⟨hp, hev⟩, ho]⟩
    | none => exact ⟨.enter t, _, by simp, by simp only [csvStep]; rw [if_pos ⟨hp, hev⟩, ho]⟩
  | done => rw [hp, hph] at hturn; exact hturn.elim
  | failed => exact absurd (hph ▸ List.getElem_mem htl) hf

/-! ### what is written -/

theorem csv_all_done {job : CsvJob β} {old : Option (List β)} {s : CsvState β} {t : Nat} (h : CsvInv job old s t)
    (hd : ∀ p ∈ s.phases, p = .done) : s.file = csvTurnFile job old job.texts.length := by
  have ht : t = job.texts.length := by
    apply Nat.le_antisymm h.nle
    apply Nat.le_of_not_lt
    intro hlt
    rw [← h.plen] at hlt
    have hturn := h.turn
    rw [List.getElem?_eq_getElem hlt, hd _ (List.getElem_mem hlt)] at hturn
    exact hturn
  have hturn := h.turn
  rw [List.getElem?_eq_none (by rw [h.plen]; omega)] at hturn
  rw [← ht]
  exact hturn

theorem csvFilled_prefix (job : CsvJob β) (old : Option (List β)) {t u : Nat} (h : t ≤ u) :
    csvFilled job old t <+: csvFilled job old u := by
  unfold csvFilled
  rw [List.prefix_append_right_inj]
  obtain ⟨d, hd⟩ := (List.take_prefix_take_left h : job.texts.take t <+: job.texts.take u)
  rw [← hd, List.map_append, List.flatten_append]
  exact List.prefix_append _ _

/-- The file is untouched, or what there was followed by a beginning of the text. -/
theorem csv_file_prefix {job : CsvJob β} {old : Option (List β)} {s : CsvState β} {t : Nat} (h : CsvInv job old s t) :
    s.file = old ∨ ∃ u, s.file = some u ∧ csvBase job.mode old <+: u ∧ u <+: csvFilled job old job.texts.length := by
  have hbase : ∀ t, csvBase job.mode old <+: csvFilled job old t := fun t => List.prefix_append _ _
  have hfile : s.file = csvTurnFile job old t →
      s.file = old ∨ ∃ u, s.file = some u ∧ csvBase job.mode old <+: u ∧ u <+: csvFilled job old job.texts.length := by
    intro hf
    rw [hf]
    by_cases h0 : t = 0
    · left; simp [csvTurnFile, h0]
    · right; exact ⟨_, by simp [csvTurnFile, h0], hbase t, csvFilled_prefix job old h.nle⟩
  have hturn := h.turn
  cases hp : s.phases[t]? with
  | none => rw [hp] at hturn; exact hfile hturn
  | some p =>
    have hlt := (List.getElem?_eq_some_iff.mp hp).1
    rw [h.plen] at hlt
    rw [hp] at hturn
    cases p with
    | pending => exact hfile hturn
    | running => exact hfile hturn
    | waiting => exact hfile hturn
    | opened => exact Or.inr ⟨_, hturn.1, hbase t, csvFilled_prefix job old h.nle⟩
    | written => exact Or.inr ⟨_, hturn, hbase _, csvFilled_prefix job old hlt⟩
    | done => exact hturn.elim
    | failed =>
      rcases hturn with hf | ⟨q, hq, hf⟩
      · exact hfile hf
      · refine Or.inr ⟨_, hf, List.IsPrefix.trans (hbase t) (List.prefix_append _ _), ?_⟩
        refine List.IsPrefix.trans ?_ (csvFilled_prefix job old hlt)
        have : csvFilled job old (t + 1) = csvFilled job old t ++ ((job.texts[t]?.getD none).getD []) := by
          unfold csvFilled
          rw [List.take_add_one, List.getElem?_eq_getElem hlt]
          simp only [Option.toList_some, List.map_append, List.map_cons, List.map_nil, List.flatten_append, List.flatten_cons,
            List.flatten_nil, List.append_nil, List.append_assoc, Option.getD_some]
        rw [this, List.prefix_append_right_inj]
        exact hq

theorem csvRun_failed {job : CsvJob β} (es : List CsvEvent) {s s' : CsvState β} {i : Nat} (he : csvRun job s es = some s')
    (hf : s.phases[i]? = some .failed) : s'.phases[i]? = some .failed := by
  have hstep : ∀ {s s' : CsvState β} (e : CsvEvent), csvStep job s e = some s' → s.phases[i]? = some .failed →
      s'.phases[i]? = some .failed := by
    intro s s' e he hf
    have key : ∀ (j : Nat) (q p : CsvPhase), s.phases[j]? = some q → q ≠ .failed → (s.phases.set j p)[i]? = some .failed := by
      intro j q p h1 h2
      rw [List.getElem?_set_ne, hf]
      rintro rfl
      rw [hf] at h1
      exact h2 (Option.some.inj h1).symm
    cases e with
    | start j =>
      simp only [csvStep] at he
      split at he
      · rename_i hc; cases he; exact key j _ _ hc.1 (by decide)
      · cases he
    | buffer j =>
      simp only [csvStep] at he
      split at he
      · rename_i hc; cases he; exact key j _ _ hc (by decide)
      · cases he
    | enter j =>
      simp only [csvStep] at he
      split at he
      · rename_i hc
        split at he
        · cases he; exact key j _ _ hc.1 (by decide)
        · cases he; exact key j _ _ hc.1 (by decide)
      · cases he
    | write j =>
      simp only [csvStep] at he
      split at he
      · rename_i hc
        split at he
        · cases he; exact key j _ _ hc (by decide)
        · cases he
      · cases he
    | send j =>
      simp only [csvStep] at he
      split at he
      · rename_i hc
        split at he
        · cases he; exact key j _ _ hc (by decide)
        · cases he; exact key j _ _ hc (by decide)
      · cases he
    | crash j torn =>
      simp only [csvStep] at he
      split at he
      · rename_i hc
        split at he
        · cases he; exact key j _ _ hc (by decide)
        · cases he
      · rename_i hc; cases he; exact key j _ _ hc (by decide)
      · rename_i hc; cases he; exact key j _ _ hc (by decide)
      · rename_i hc; cases he; exact key j _ _ hc (by decide)
      · rename_i hc; cases he; exact key j _ _ hc (by decide)
      · cases he
  induction es generalizing s with
  | nil => cases he; exact hf
  | cons e es ih =>
    simp only [csvRun, Option.bind_eq_some_iff] at he
    obtain ⟨s1, h1, h2⟩ := he
    exact ih h2 (hstep e h1 hf)

/-! ### the texts of the row partitions -/

theorem bands_lines (line : List κ → ι → List α → List β) {df : Frame ι κ α} (hwf : df.WF) {rl cw : List Nat} (hc : df.IsCut rl cw) :
    ((bandsOf rl df).map fun b => List.zipWith (line b.columns) b.index b.rows).flatten =
      List.zipWith (line df.columns) df.index df.rows := by
  have h1 : ((bandsOf rl df).map (·.index)).flatten = df.index := by
    have := covers_lens rl df.index hc.rl_sum.symm
    simpa [bandsOf, List.map_map, Function.comp_def, Frame.ilocRows] using this
  have h2 := bandsOf_rows hwf hc
  have h3 : ((bandsOf rl df).map (·.index)).map List.length = ((bandsOf rl df).map (·.rows)).map List.length := by
    rw [List.map_map, List.map_map]
    apply List.map_congr_left
    intro b hb
    exact ((bandsOf_wf hwf rl b hb).1.rows_len).symm
  have := zipWith_flatten (line df.columns) _ _ h3
  rw [h1, h2, zipWith_map_same] at this
  rw [this]
  congr 1
  apply List.map_congr_left
  intro b hb
  rw [(bandsOf_wf hwf rl b hb).2]

theorem texts_flatten (head : List κ → List β) (line : List κ → ι → List α → List β) (header : Bool) {df : Frame ι κ α}
    (hwf : df.WF) {rl cw : List Nat} (hc : df.IsCut rl cw) :
    (((bandsOf rl df).mapIdx fun i b => some (csvText head line (if i ≠ 0 then false else header) b)).map (·.getD [])).flatten =
      csvText head line header df := by
  have hl := congrArg List.flatten (bands_lines line hwf hc)
  have hw := bandsOf_wf hwf rl
  have hne := bandsOf_ne hc.rl_ne df
  generalize bandsOf rl df = bs at hl hw hne
  cases bs with
  | nil => exact absurd rfl hne
  | cons b bs =>
    rw [List.mapIdx_cons]
    have hrest : (bs.mapIdx fun i b => some (csvText head line (if i + 1 ≠ 0 then false else header) b)).map (·.getD []) =
        bs.map fun b => (List.zipWith (line b.columns) b.index b.rows).flatten := by
      apply List.ext_getElem?
      intro i
      simp [csvText]
      rfl
    simp only [List.map_cons, List.flatten_cons]
    rw [hrest]
    have hcol := (hw b List.mem_cons_self).2
    unfold csvText
    rw [← hl]
    simp only [ne_eq, not_true_eq_false, ↓reduceIte, Option.getD_some, List.map_cons, List.flatten_cons, hcol,
      List.append_assoc, List.flatten_append, List.flatten_flatten, List.map_map, Function.comp_def]
