import Verif.Model.Config
/-
Lemmas about parameters that are spellings of each other.
-/

variable {V : Type} [DecidableEq V]

/-- two spellings of one switch: the same values are accepted, the default is the same, neither checks anything in `get`,
    and the environment (if it can be read) does not give both -/
structure Spellings (ka kb : Kind V) : Prop where
  verify : kb.verify = ka.verify
  normalize : kb.normalize = ka.normalize
  default : kb.default = ka.default
  getA : ∀ v, ka.getOk v = true
  getB : ∀ v, kb.getOk v = true
  readA : ka.config ≠ none
  readB : kb.config ≠ none
  notBoth : ka.config = some none ∨ kb.config = some none

theorem Spellings.symm {ka kb : Kind V} (h : Spellings ka kb) : Spellings kb ka :=
  ⟨h.verify.symm, h.normalize.symm, h.default.symm, h.getB, h.getA, h.readB, h.readA, h.notBoth.symm⟩

/-- the value in the environment of either spelling, or the default -/
def firstValue (ka kb : Kind V) : V :=
  match ka.config, kb.config with
  | some (some v), _ => v
  | _, some (some v) => v
  | _, _ => ka.default

theorem firstValue_symm {ka kb : Kind V} (h : Spellings ka kb) : firstValue kb ka = firstValue ka kb := by
  unfold firstValue
  rcases h.notBoth with h1 | h1
  · rw [h1]
    cases kb.config with
    | none => simp [h.default]
    | some c => cases c <;> simp [h.default]
  · rw [h1]
    cases ka.config with
    | none => simp [h.default]
    | some c => cases c <;> simp [h.default]

/-- the value both spellings have -/
def Stands (ka kb : Kind V) (v : V) (a b : Param V) : Prop :=
  (a.value = none ∧ b.value = none ∧ v = firstValue ka kb) ∨ (a.value = some v ∧ b.value = some v)

theorem stands_symm {ka kb : Kind V} (h : Spellings ka kb) {v : V} {a b : Param V} (hs : Stands ka kb v a b) : Stands kb ka v b a := by
  rcases hs with ⟨h1, h2, h3⟩ | ⟨h1, h2⟩
  · exact Or.inl ⟨h2, h1, by rw [h3, firstValue_symm h]⟩
  · exact Or.inr ⟨h2, h1⟩

theorem get_set {k : Kind V} (hg : ∀ v, k.getOk v = true) (p : Param V) (v : V) (h : p.value = some v) : p.get k = (some v, p) := by
  unfold Param.get
  simp [h, hg]

theorem siblingGet_spec (ka kb : Kind V) (h : Spellings ka kb) (v : V) (a b : Param V) (hs : Stands ka kb v a b) :
    (siblingGet ka kb a b).1 = some v ∧ (siblingGet ka kb a b).2.1.value = some v ∧ (siblingGet ka kb a b).2.2.value = some v := by
  rcases hs with ⟨h1, h2, h3⟩ | ⟨h1, h2⟩
  · subst h3
    unfold siblingGet
    rw [if_pos ⟨h1, h2⟩]
    have gA := h.getA
    have gB := h.getB
    have hcA : ∃ ca, ka.config = some ca := by
      cases hc : ka.config with
      | none => exact absurd hc h.readA
      | some c => exact ⟨c, rfl⟩
    have hcB : ∃ cb, kb.config = some cb := by
      cases hc : kb.config with
      | none => exact absurd hc h.readB
      | some c => exact ⟨c, rfl⟩
    obtain ⟨ca, hca⟩ := hcA
    obtain ⟨cb, hcb⟩ := hcB
    have hn := h.notBoth
    have fA : ∀ v, (some v : Option V).filter ka.getOk = some v := fun v => by simp [Option.filter_some, gA]
    have fB : ∀ v, (some v : Option V).filter kb.getOk = some v := fun v => by simp [Option.filter_some, gB]
    unfold firstValue
    rw [hca, hcb] at hn
    cases ca with
    | none =>
      cases cb with
      | none => simp [Param.get, h1, h2, hca, hcb, fA, fB]
      | some w => simp [Param.get, h1, h2, hca, hcb, fA, fB]
    | some w =>
      cases cb with
      | none => simp [Param.get, h1, h2, hca, hcb, fA, fB]
      | some w' => simp at hn
  · unfold siblingGet
    rw [if_neg (by simp [h1])]
    rw [get_set h.getA a v h1]
    exact ⟨rfl, h1, h2⟩

theorem siblingPut_spec (ka kb : Kind V) (h : Spellings ka kb) (v : V) (a b : Param V) (hs : Stands ka kb v a b) (raw : V) :
    (siblingPut ka kb raw a b).1 = ka.verify raw ∧
    Stands ka kb (if ka.verify raw then ka.normalize raw else v) (siblingPut ka kb raw a b).2.1 (siblingPut ka kb raw a b).2.2 := by
  unfold siblingPut
  cases hv : ka.verify raw with
  | false =>
    simp only [siblingPutOne, hv, Bool.not_false, if_true, Bool.false_eq_true, if_false]
    exact ⟨trivial, hs⟩
  | true =>
    obtain ⟨g1, g2, g3⟩ := siblingGet_spec ka kb h v a b hs
    have hone : siblingPutOne ka kb raw a b = (true, { (siblingGet ka kb a b).2.1 with value := some (ka.normalize raw), source := some .user }, (siblingGet ka kb a b).2.2) := by
      unfold siblingPutOne
      simp only [hv, Bool.not_true, Bool.false_eq_true, if_false]
      generalize hg : siblingGet ka kb a b = r at g1
      obtain ⟨x, y, z⟩ := r
      simp only at g1
      subst g1
      rfl
    rw [hone]
    simp only
    generalize (siblingGet ka kb a b).2.1 = a1 at g2
    generalize (siblingGet ka kb a b).2.2 = b1 at g3
    have hb : siblingPutOne kb ka raw b1 { a1 with value := some (ka.normalize raw), source := some .user } =
        (true, { b1 with value := some (ka.normalize raw), source := some .user }, { a1 with value := some (ka.normalize raw), source := some .user }) := by
      unfold siblingPutOne siblingGet
      rw [h.verify, hv, if_neg (by simp [g3]), get_set h.getB b1 v g3, h.normalize]
      simp
    rw [hb]
    simp only
    have ha : siblingPutOne ka kb raw { a1 with value := some (ka.normalize raw), source := some .user } { b1 with value := some (ka.normalize raw), source := some .user } =
        (true, { a1 with value := some (ka.normalize raw), source := some .user }, { b1 with value := some (ka.normalize raw), source := some .user }) := by
      unfold siblingPutOne siblingGet
      rw [hv, if_neg (by simp), get_set h.getA _ (ka.normalize raw) rfl]
      simp
    rw [ha]
    simp only [if_true]
    exact ⟨trivial, Or.inr ⟨rfl, rfl⟩⟩

/-- what a variable holds after assignments under either name -/
def siblingAfter (k : Kind V) (v : V) : List (SiblingOp V) → V
  | [] => v
  | .put _ raw :: ops => siblingAfter k (if k.verify raw then k.normalize raw else v) ops
  | .get _ :: ops => siblingAfter k v ops

theorem sibling_run (ka kb : Kind V) (h : Spellings ka kb) (ops : List (SiblingOp V)) : ∀ (s : Param V × Param V) (v : V), Stands ka kb v s.1 s.2 →
    Stands ka kb (siblingAfter ka v ops) (ops.foldl (siblingStep ka kb) s).1 (ops.foldl (siblingStep ka kb) s).2 := by
  induction ops with
  | nil => intro s v hs; exact hs
  | cons o ops ih =>
    intro s v hs
    rw [List.foldl_cons]
    cases o with
    | get first =>
      refine ih _ v ?_
      cases first with
      | true =>
        obtain ⟨_, g2, g3⟩ := siblingGet_spec ka kb h v s.1 s.2 hs
        exact Or.inr ⟨g2, g3⟩
      | false =>
        obtain ⟨_, g2, g3⟩ := siblingGet_spec kb ka h.symm v s.2 s.1 (stands_symm h hs)
        exact Or.inr ⟨g3, g2⟩
    | put first raw =>
      refine ih _ _ ?_
      cases first with
      | true => exact (siblingPut_spec ka kb h v s.1 s.2 hs raw).2
      | false =>
        have := (siblingPut_spec kb ka h.symm v s.2 s.1 (stands_symm h hs) raw).2
        rw [h.verify, h.normalize] at this
        exact stands_symm h.symm this
