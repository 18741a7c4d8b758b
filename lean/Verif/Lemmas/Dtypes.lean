import Verif.Model.Dtypes

variable {κ τ : Type}

/-! ### dictionaries -/

theorem mem_dictKeys {d : List (κ × τ)} {k : κ} : k ∈ dictKeys d ↔ ∃ v, (k, v) ∈ d := by
  unfold dictKeys
  rw [List.mem_map]
  constructor
  · rintro ⟨e, he, rfl⟩; exact ⟨e.2, he⟩
  · rintro ⟨v, hv⟩; exact ⟨_, hv, rfl⟩

theorem mem_dictKeys_of_mem {d : List (κ × τ)} {e : κ × τ} (h : e ∈ d) : e.1 ∈ dictKeys d := List.mem_map_of_mem h

theorem dictKeys_append (a b : List (κ × τ)) : dictKeys (a ++ b) = dictKeys a ++ dictKeys b := List.map_append

theorem dictGet_none [DecidableEq κ] {d : List (κ × τ)} {k : κ} : dictGet d k = none ↔ k ∉ dictKeys d := by
  induction d with
  | nil => simp [dictGet, dictKeys]
  | cons e d ih =>
    simp only [dictGet, dictKeys, List.map_cons, List.mem_cons, not_or]
    split
    · rename_i h; simp [h]
    · rename_i h
      rw [ih]
      exact ⟨fun h' => ⟨fun h'' => h h''.symm, h'⟩, fun h' => h'.2⟩

theorem dictGet_mem [DecidableEq κ] {d : List (κ × τ)} {k : κ} {v : τ} (h : dictGet d k = some v) : (k, v) ∈ d := by
  induction d with
  | nil => simp [dictGet] at h
  | cons e d ih =>
    simp only [dictGet] at h
    split at h
    · rename_i hk
      simp only [Option.some.injEq] at h
      subst hk; subst h
      exact List.mem_cons_self ..
    · exact List.mem_cons_of_mem _ (ih h)

theorem nodup_unique {d : List (κ × τ)} (hn : (dictKeys d).Nodup) {k : κ} {v w : τ} (h1 : (k, v) ∈ d) (h2 : (k, w) ∈ d) :
    v = w := by
  induction d with
  | nil => simp at h1
  | cons e d ih =>
    rw [dictKeys, List.map_cons, List.nodup_cons] at hn
    rw [List.mem_cons] at h1 h2
    rcases h1 with h1 | h1 <;> rcases h2 with h2 | h2
    · rw [← h1] at h2; exact (Prod.mk.inj h2).2.symm
    · subst h1; exact absurd (mem_dictKeys_of_mem h2) hn.1
    · subst h2; exact absurd (mem_dictKeys_of_mem h1) hn.1
    · exact ih hn.2 h1 h2

theorem dictGet_some [DecidableEq κ] {d : List (κ × τ)} (hn : (dictKeys d).Nodup) {k : κ} {v : τ} :
    dictGet d k = some v ↔ (k, v) ∈ d := by
  refine ⟨dictGet_mem, fun h => ?_⟩
  cases hg : dictGet d k with
  | none => exact absurd (mem_dictKeys_of_mem h) (dictGet_none.mp hg)
  | some w => rw [nodup_unique hn (dictGet_mem hg) h]

theorem dictSet_new [DecidableEq κ] {d : List (κ × τ)} {k : κ} (v : τ) (h : k ∉ dictKeys d) :
    dictSet d k v = d ++ [(k, v)] := by
  induction d with
  | nil => rfl
  | cons e d ih =>
    simp only [dictKeys, List.map_cons, List.mem_cons, not_or] at h
    simp only [dictSet]
    rw [if_neg (fun h' => h.1 h'.symm), ih h.2, List.cons_append]

theorem dictUpdate_new [DecidableEq κ] : ∀ (new d : List (κ × τ)), (dictKeys new).Nodup →
    (∀ k ∈ dictKeys new, k ∉ dictKeys d) → dictUpdate d new = d ++ new := by
  intro new
  induction new with
  | nil => intro d _ _; simp [dictUpdate]
  | cons e new ih =>
    intro d hn hd
    rw [dictKeys, List.map_cons, List.nodup_cons] at hn
    have h1 : e.1 ∉ dictKeys d := hd e.1 (by simp [dictKeys])
    unfold dictUpdate at ih ⊢
    rw [List.foldl_cons, dictSet_new _ h1, ih _ hn.2]
    · simp
    · intro k hk
      rw [dictKeys_append, List.mem_append, not_or]
      refine ⟨hd k (by simp only [dictKeys, List.map_cons, List.mem_cons]; exact Or.inr hk), ?_⟩
      intro h
      simp only [dictKeys, List.map_cons, List.map_nil, List.mem_singleton] at h
      subst h
      exact hn.1 hk

theorem nodup_of_map_nodup {α β : Type} (f : α → β) : ∀ {l : List α}, (l.map f).Nodup → l.Nodup
  | [], _ => List.nodup_nil
  | x :: l, h => by
    rw [List.map_cons, List.nodup_cons] at h
    exact List.nodup_cons.mpr ⟨fun hx => h.1 (List.mem_map_of_mem hx), nodup_of_map_nodup f h.2⟩

theorem subset_of_length_le [DecidableEq κ] : ∀ (a b : List κ), a.Nodup → (∀ x ∈ a, x ∈ b) → b.length ≤ a.length →
    ∀ x ∈ b, x ∈ a
  | [], b, _, _, hl => by
    have : b = [] := List.length_eq_zero_iff.mp (Nat.le_zero.mp hl)
    subst this
    exact fun _ h => h
  | y :: a, b, hn, hs, hl => by
    rw [List.nodup_cons] at hn
    have hy : y ∈ b := hs y (List.mem_cons_self ..)
    have ih := subset_of_length_le a (b.erase y) hn.2
      (fun x hx => (List.mem_erase_of_ne (show x ≠ y from fun h => hn.1 (h ▸ hx))).mpr (hs x (List.mem_cons_of_mem _ hx)))
      (by rw [List.length_erase_of_mem hy]; rw [List.length_cons] at hl; omega)
    intro x hx
    by_cases hxy : x = y
    · subst hxy; exact List.mem_cons_self ..
    · exact List.mem_cons_of_mem _ (ih x ((List.mem_erase_of_ne hxy).mpr hx))

/-- two lists of distinct keys with the same members -/
theorem perm_of_keys {a b : List (κ × τ)} (ha : (dictKeys a).Nodup) (hb : (dictKeys b).Nodup) (h1 : ∀ e ∈ a, e ∈ b)
    (h2 : ∀ e ∈ b, e.1 ∈ dictKeys a) : a.Perm b := by
  have na : a.Nodup := nodup_of_map_nodup _ ha
  have nb : b.Nodup := nodup_of_map_nodup _ hb
  rw [List.perm_ext_iff_of_nodup na nb]
  intro e
  refine ⟨h1 e, fun he => ?_⟩
  obtain ⟨v, hv⟩ := mem_dictKeys.mp (h2 e he)
  have := nodup_unique hb (h1 _ hv) he
  subst this
  exact hv

/-! ### what a description says of the columns `T` -/

/-- The dtypes in `known` are right, `unknown` are columns, if all names are known every other column has the remaining
    dtype, and a complete description covers everything. -/
structure DtKnows (T known : List (κ × τ)) (unknown : List κ) (rem : Option τ) (all schema : Bool) : Prop where
  kn : (dictKeys known).Nodup
  un : unknown.Nodup
  kt : ∀ e ∈ known, e ∈ T
  uc : ∀ c ∈ unknown, c ∈ dictKeys T
  dj : ∀ c ∈ unknown, c ∉ dictKeys known
  rest : all = true → ∀ e ∈ T, e.1 ∉ dictKeys known → e.1 ∉ unknown → rem = some e.2
  remAll : rem.isSome = true → all = true
  full : schema = true → unknown = [] ∧ rem = none ∧ ∀ e ∈ T, e.1 ∈ dictKeys known

/-- the description is right about `T` -/
structure DDesc.Describes (d : DDesc κ τ) (T : List (κ × τ)) : Prop where
  knows : DtKnows T d.known d.unknown d.remaining d.allNames d.schemaKnown
  order : ∀ o, d.order = some o → o = dictKeys T ∧ d.allNames = true
  index : d.unknownIsIndex = true → d.known = [] ∧ d.order.isSome = true

theorem DtKnows.full_perm {T known : List (κ × τ)} {unknown : List κ} {rem : Option τ} {all : Bool} (hT : (dictKeys T).Nodup)
    (h : DtKnows T known unknown rem all true) : known.Perm T :=
  perm_of_keys h.kn hT h.kt (h.full rfl).2.2

theorem DtKnows.nothing (T : List (κ × τ)) : DtKnows T [] [] none false false :=
  ⟨by simp [dictKeys], by simp, by simp, by simp, by simp, by simp, by simp, by simp⟩

/-! ### `columns_order` -/

/-- the effect of `columns_order` on the fields -/
theorem DtKnows.synced [DecidableEq κ] {T known : List (κ × τ)} {unknown : List κ} {rem : Option τ} {all schema : Bool}
    (hT : (dictKeys T).Nodup) (h : DtKnows T known unknown rem all schema) :
    let new := (dictKeys T).filter fun c => decide (c ∉ dictKeys known) && decide (c ∉ unknown)
    (known.length + unknown.length < (dictKeys T).length → ∀ t, rem = some t →
      DtKnows T (dictUpdate known (new.map fun c => (c, t))) unknown none true (schema || unknown.isEmpty)) ∧
    (rem = none → DtKnows T known (unknown ++ new) none true (schema && new.isEmpty)) ∧
    (¬known.length + unknown.length < (dictKeys T).length → new = []) := by
  intro new
  have hnew : ∀ c, c ∈ new ↔ c ∈ dictKeys T ∧ c ∉ dictKeys known ∧ c ∉ unknown := by
    intro c; simp [new]
  have hnn : new.Nodup := hT.sublist List.filter_sublist
  refine ⟨?_, ?_, ?_⟩
  · intro hlt t ht
    have hall := h.remAll (by rw [ht]; rfl)
    have hkn : dictKeys (new.map fun c => (c, t)) = new := by simp [dictKeys, List.map_map, Function.comp_def]
    rw [dictUpdate_new _ _ (by rw [hkn]; exact hnn) (by rw [hkn]; intro k hk; exact ((hnew k).mp hk).2.1)]
    constructor
    · rw [dictKeys_append, hkn, List.nodup_append]
      refine ⟨h.kn, hnn, ?_⟩
      intro a ha b hb hab
      subst hab
      exact ((hnew a).mp hb).2.1 ha
    · exact h.un
    · intro e he
      rw [List.mem_append] at he
      rcases he with he | he
      · exact h.kt e he
      · obtain ⟨c, hc, rfl⟩ := List.mem_map.mp he
        obtain ⟨h1, h2, h3⟩ := (hnew c).mp hc
        obtain ⟨v, hv⟩ := mem_dictKeys.mp h1
        have := h.rest hall _ hv h2 h3
        rw [ht, Option.some.injEq] at this
        rw [this]; exact hv
    · exact h.uc
    · intro c hc
      rw [dictKeys_append, hkn, List.mem_append, not_or]
      exact ⟨h.dj c hc, fun h' => ((hnew c).mp h').2.2 hc⟩
    · intro _ e he h1 h2
      rw [dictKeys_append, hkn, List.mem_append, not_or] at h1
      exact absurd ((hnew e.1).mpr ⟨mem_dictKeys_of_mem he, h1.1, h2⟩) h1.2
    · simp
    · intro hs
      rw [Bool.or_eq_true] at hs
      have hu : unknown = [] := by
        rcases hs with hs | hs
        · exact (h.full hs).1
        · exact List.isEmpty_iff.mp hs
      refine ⟨hu, rfl, ?_⟩
      intro e he
      rw [dictKeys_append, hkn, List.mem_append]
      by_cases h1 : e.1 ∈ dictKeys known
      · exact Or.inl h1
      · exact Or.inr ((hnew e.1).mpr ⟨mem_dictKeys_of_mem he, h1, by rw [hu]; simp⟩)
  · intro hr
    constructor
    · exact h.kn
    · rw [List.nodup_append]
      refine ⟨h.un, hnn, ?_⟩
      intro a ha b hb hab
      subst hab
      exact ((hnew a).mp hb).2.2 ha
    · exact h.kt
    · intro c hc
      rw [List.mem_append] at hc
      rcases hc with hc | hc
      · exact h.uc c hc
      · exact ((hnew c).mp hc).1
    · intro c hc
      rw [List.mem_append] at hc
      rcases hc with hc | hc
      · exact h.dj c hc
      · exact ((hnew c).mp hc).2.1
    · intro _ e he h1 h2
      rw [List.mem_append, not_or] at h2
      exact absurd ((hnew e.1).mpr ⟨mem_dictKeys_of_mem he, h1, h2.1⟩) h2.2
    · simp
    · intro hs
      rw [Bool.and_eq_true, List.isEmpty_iff] at hs
      rw [hs.2, (h.full hs.1).1]
      exact ⟨rfl, rfl, (h.full hs.1).2.2⟩
  · intro hlt
    -- the described columns are distinct columns of the frame, as many as there are
    have hd : (dictKeys known ++ unknown).Nodup := by
      rw [List.nodup_append]
      refine ⟨h.kn, h.un, ?_⟩
      intro a ha b hb hab
      subst hab
      exact h.dj a hb ha
    have hsub : dictKeys known ++ unknown ⊆ dictKeys T := by
      intro c hc
      rw [List.mem_append] at hc
      rcases hc with hc | hc
      · obtain ⟨v, hv⟩ := mem_dictKeys.mp hc
        exact mem_dictKeys_of_mem (h.kt _ hv)
      · exact h.uc c hc
    have hall := subset_of_length_le _ _ hd hsub (by
      rw [List.length_append]
      simp only [dictKeys, List.length_map] at hlt ⊢
      omega)
    rw [List.filter_eq_nil_iff]
    intro c hc
    have := hall c hc
    rw [List.mem_append] at this
    rcases this with h1 | h1 <;> simp [h1]

theorem DDesc.sync_order [DecidableEq κ] {d : DDesc κ τ} {o : List κ} (h : d.order = some o) : d.sync = d := by
  unfold DDesc.sync
  rw [h]

theorem DDesc.sync_orphan [DecidableEq κ] {d : DDesc κ τ} (h : d.parent = none) : d.sync = d := by
  unfold DDesc.sync
  rw [h]
  cases d.order <;> rfl

theorem DDesc.sync_unknown [DecidableEq κ] {d : DDesc κ τ} {p : DParent κ τ} (h : d.parent = some p)
    (hc : p.colsKnown = false) : d.sync = d := by
  unfold DDesc.sync
  rw [h]
  cases d.order
  · simp [hc]
  · rfl

theorem DDesc.sync_learn [DecidableEq κ] {d : DDesc κ τ} {p : DParent κ τ} (ho : d.order = none) (h : d.parent = some p)
    (hc : p.colsKnown = true) : d.sync = d.learn (dictKeys p.schema) := by
  unfold DDesc.sync
  rw [h, ho]
  simp [hc]

theorem DDesc.learn_fields [DecidableEq κ] (d : DDesc κ τ) (cols : List κ) :
    (d.learn cols).parent = d.parent ∧ (d.learn cols).order = some cols ∧ (d.learn cols).allNames = true ∧
    (d.learn cols).unknownIsIndex = d.unknownIsIndex := by
  unfold DDesc.learn
  simp only
  split
  · split <;> exact ⟨rfl, rfl, rfl, rfl⟩
  · exact ⟨rfl, rfl, rfl, rfl⟩

theorem DDesc.learn_knows [DecidableEq κ] {d : DDesc κ τ} {T : List (κ × τ)} (hT : (dictKeys T).Nodup)
    (h : DtKnows T d.known d.unknown d.remaining d.allNames d.schemaKnown) :
    DtKnows T (d.learn (dictKeys T)).known (d.learn (dictKeys T)).unknown (d.learn (dictKeys T)).remaining
      (d.learn (dictKeys T)).allNames (d.learn (dictKeys T)).schemaKnown ∧
    ∀ e ∈ T, e.1 ∈ dictKeys (d.learn (dictKeys T)).known ∨ e.1 ∈ (d.learn (dictKeys T)).unknown := by
  obtain ⟨known, unknown, ui, rem, par, ord, all, sch⟩ := d
  simp only at h
  obtain ⟨k1, k2, k3⟩ := h.synced hT
  unfold DDesc.learn
  simp only
  have cover : ∀ {known : List (κ × τ)} {unknown : List κ} {s : Bool}, DtKnows T known unknown none true s →
      ∀ e ∈ T, e.1 ∈ dictKeys known ∨ e.1 ∈ unknown := by
    intro known unknown s hk e he
    by_cases h1 : e.1 ∈ dictKeys known
    · exact Or.inl h1
    · by_cases h2 : e.1 ∈ unknown
      · exact Or.inr h2
      · exact absurd (hk.rest rfl e he h1 h2) (by simp)
  by_cases hlt : known.length + unknown.length < (dictKeys T).length
  · rw [if_pos hlt]
    cases rem with
    | some t => exact ⟨k1 hlt t rfl, cover (k1 hlt t rfl)⟩
    | none =>
      simp only
      have k2' := k2 rfl
      refine ⟨?_, cover k2'⟩
      refine ⟨k2'.kn, k2'.un, k2'.kt, k2'.uc, k2'.dj, k2'.rest, by simp, ?_⟩
      intro hs
      have hf := h.full hs
      apply k2'.full
      rw [Bool.and_eq_true]
      refine ⟨hs, ?_⟩
      rw [List.isEmpty_iff, List.filter_eq_nil_iff]
      intro c hc'
      obtain ⟨v, hv⟩ := mem_dictKeys.mp hc'
      simp [hf.2.2 _ hv]
  · rw [if_neg hlt]
    have hnew := k3 hlt
    rw [List.filter_eq_nil_iff] at hnew
    have hc : ∀ e ∈ T, e.1 ∈ dictKeys known ∨ e.1 ∈ unknown := by
      intro e he
      have := hnew e.1 (mem_dictKeys_of_mem he)
      by_cases h1 : e.1 ∈ dictKeys known
      · exact Or.inl h1
      · by_cases h2 : e.1 ∈ unknown
        · exact Or.inr h2
        · exact absurd (by simp [h1, h2]) this
    refine ⟨⟨h.kn, h.un, h.kt, h.uc, h.dj, ?_, fun _ => rfl, h.full⟩, hc⟩
    intro _ e he h1 h2
    rcases hc e he with h' | h'
    · exact absurd h' h1
    · exact absurd h' h2

theorem DDesc.sync_describes [DecidableEq κ] {d : DDesc κ τ} {T : List (κ × τ)} (hT : (dictKeys T).Nodup)
    (h : d.Describes T) (hp : ∀ p, d.parent = some p → d.order = none → p.colsKnown = true → p.schema = T) :
    d.sync.Describes T ∧ d.sync.parent = d.parent := by
  cases ho : d.order with
  | some o => rw [DDesc.sync_order ho]; exact ⟨h, rfl⟩
  | none =>
    cases hpar : d.parent with
    | none => rw [DDesc.sync_orphan hpar]; exact ⟨h, hpar⟩
    | some p =>
      cases hc : p.colsKnown with
      | false => rw [DDesc.sync_unknown hpar hc]; exact ⟨h, hpar⟩
      | true =>
        rw [DDesc.sync_learn ho hpar hc]
        have hs := hp p hpar ho hc
        subst hs
        obtain ⟨f1, f2, f3, f4⟩ := d.learn_fields (dictKeys p.schema)
        refine ⟨⟨(DDesc.learn_knows hT h.knows).1, ?_, ?_⟩, f1.trans hpar⟩
        · intro o ho'
          rw [f2, Option.some.injEq] at ho'
          exact ⟨ho'.symm, f3⟩
        · intro hi
          rw [f4] at hi
          have := (h.index hi).2
          rw [ho] at this
          exact absurd this (by simp)

/-! ### the constructor -/

/-- the descriptor made, before its order is known -/
def DDesc.raw (known : List (κ × τ)) (unknown : List κ) (remaining : Option τ) (parent : Option (DParent κ τ))
    (allNames schemaKnown : Bool) : DDesc κ τ :=
  { known := known, unknown := unknown, unknownIsIndex := false, remaining := remaining, parent := parent
    order := none, allNames := allNames, schemaKnown := schemaKnown }

theorem DDesc.make_ok [DecidableEq κ] {known : List (κ × τ)} {unknown : Option (List κ)} {remaining : Option τ}
    {parent : Option (DParent κ τ)} {order : Option (List κ)} {allNames : Bool} {schema : Option Bool} {r : DDesc κ τ}
    (h : DDesc.make known unknown remaining parent order allNames schema = .ok r) :
    let s := schema.getD
      (unknown.isSome && allNames && remaining.isNone && decide (0 < known.length) && (unknown.getD []).isEmpty)
    (remaining.isSome = true → allNames = true) ∧ (dictKeys known).Nodup ∧ (unknown.getD []).Nodup ∧
    (order = none → r = (DDesc.raw known (unknown.getD []) remaining parent allNames s).sync) ∧
    (∀ o, order = some o → remaining = none ∧ allNames = true ∧ o.length = (unknown.getD []).length + known.length ∧
      r = { DDesc.raw known (unknown.getD []) remaining parent allNames s with order := some o }) := by
  intro s
  unfold DDesc.make at h
  split at h
  · exact absurd h (by simp)
  · rename_i h1
    split at h
    · exact absurd h (by simp)
    · rename_i h2
      split at h
      · exact absurd h (by simp)
      · rename_i h3
        refine ⟨?_, Decidable.not_not.mp h2, Decidable.not_not.mp h3, ?_, ?_⟩
        · intro hr
          cases ha : allNames with
          | true => rfl
          | false => exact absurd ⟨ha, hr⟩ h1
        · intro ho
          subst ho
          simp only [Except.ok.injEq] at h
          exact h.symm
        · intro o ho
          subst ho
          simp only at h
          split at h
          · exact absurd h (by simp)
          · rename_i h4
            split at h
            · exact absurd h (by simp)
            · rename_i h5
              split at h
              · exact absurd h (by simp)
              · rename_i h6
                simp only [Except.ok.injEq] at h
                exact ⟨by simpa using h4, by simpa using h5, Decidable.not_not.mp h6, h.symm⟩

/-- the constructor does not raise on a right description -/
theorem DDesc.make_total [DecidableEq κ] {T known : List (κ × τ)} {unknown : List κ} {remaining : Option τ}
    {all schema : Bool} (h : DtKnows T known unknown remaining all schema) (parent : Option (DParent κ τ))
    (order : Option (List κ)) (s : Option Bool)
    (ho : ∀ o, order = some o → remaining = none ∧ all = true ∧ o.length = unknown.length + known.length) :
    ∃ r, DDesc.make known (some unknown) remaining parent order all s = .ok r := by
  unfold DDesc.make
  rw [if_neg (by rintro ⟨ha, hr⟩; rw [h.remAll hr] at ha; exact absurd ha (by simp)),
    if_neg (Decidable.not_not.mpr h.kn), if_neg (Decidable.not_not.mpr (by simpa using h.un))]
  cases order with
  | none => exact ⟨_, rfl⟩
  | some o =>
    obtain ⟨h1, h2, h3⟩ := ho o rfl
    simp only
    rw [if_neg (by rw [h1]; simp), if_neg (by rw [h2]; simp), if_neg (by simpa using h3)]
    exact ⟨_, rfl⟩

/-! ### selection -/

theorem DDesc.find_some [DecidableEq κ] {d : DDesc κ τ} {T : List (κ × τ)} (hT : (dictKeys T).Nodup) (h : d.Describes T)
    {e : κ × τ} (he : e ∈ T) {t : τ} (hf : d.find e.1 = some t) : t = e.2 := by
  unfold DDesc.find at hf
  split at hf
  · exact absurd hf (by simp)
  · rename_i hu
    cases hk : dictGet d.known e.1 with
    | some v =>
      rw [hk, Option.some_or, Option.some.injEq] at hf
      subst hf
      exact nodup_unique hT (h.knows.kt _ (dictGet_mem hk)) he
    | none =>
      rw [hk, Option.none_or] at hf
      have := h.knows.rest (h.knows.remAll (by rw [hf]; rfl)) e he (dictGet_none.mp hk) hu
      rw [hf, Option.some.injEq] at this
      exact this

/-- the columns selected -/
theorem DDesc.lazyGet_describes [DecidableEq κ] {d : DDesc κ τ} {T T' : List (κ × τ)} (hT : (dictKeys T).Nodup)
    (h : d.Describes T) (hsub : ∀ e ∈ T', e ∈ T) {r : DDesc κ τ} (hr : d.lazyGet (dictKeys T') = .ok r) :
    r.Describes T' ∧ r.order = some (dictKeys T') ∧ r.remaining = none ∧ r.unknownIsIndex = false ∧
    (r.schemaKnown = true → r.known = T') := by
  unfold DDesc.lazyGet at hr
  split at hr
  · exact absurd hr (by simp)
  · rename_i hn
    have hn := Decidable.not_not.mp hn
    obtain ⟨h1, h2, h3, -, h5⟩ := DDesc.make_ok hr
    obtain ⟨m1, -, m3, m4⟩ := h5 _ rfl
    subst m4
    simp only [Option.getD_some] at h1 h2 h3 m3
    have hfm : ∀ e ∈ ((dictKeys T').filterMap fun c => (d.find c).map fun t => (c, t)), e ∈ T' := by
      intro e he
      obtain ⟨c, hc, hce⟩ := List.mem_filterMap.mp he
      obtain ⟨v, hv⟩ := mem_dictKeys.mp hc
      cases hf : d.find c with
      | none => rw [hf] at hce; exact absurd hce (by simp)
      | some t =>
        rw [hf, Option.map_some, Option.some.injEq] at hce
        subst hce
        have := DDesc.find_some hT h (hsub _ hv) hf
        simp only at this
        subst this
        exact hv
    have hcov : ∀ e ∈ T', (d.find e.1).isSome = true →
        e.1 ∈ dictKeys ((dictKeys T').filterMap fun c => (d.find c).map fun t => (c, t)) := by
      intro e he hs
      obtain ⟨t, ht⟩ := Option.isSome_iff_exists.mp hs
      apply mem_dictKeys.mpr
      exact ⟨t, List.mem_filterMap.mpr ⟨e.1, mem_dictKeys_of_mem he, by rw [ht]; rfl⟩⟩
    refine ⟨⟨?_, ?_, ?_⟩, rfl, m1, rfl, ?_⟩
    · constructor
      · exact h2
      · exact h3
      · exact hfm
      · intro c hc; exact (List.mem_filter.mp hc).1
      · intro c hc hk
        obtain ⟨v, hv⟩ := mem_dictKeys.mp hk
        obtain ⟨c', _, hce⟩ := List.mem_filterMap.mp hv
        have hn := (List.mem_filter.mp hc).2
        cases hf : d.find c' with
        | none => rw [hf] at hce; exact absurd hce (by simp)
        | some t =>
          rw [hf, Option.map_some, Option.some.injEq, Prod.mk.injEq] at hce
          rw [← hce.1, hf] at hn
          exact absurd hn (by simp)
      · intro _ e he h1' h2'
        cases hf : d.find e.1 with
        | none => exact absurd (List.mem_filter.mpr ⟨mem_dictKeys_of_mem he, by rw [hf]; rfl⟩) h2'
        | some t => exact absurd (hcov e he (by rw [hf]; rfl)) h1'
      · simp only [DDesc.raw]; intro h'; exact h1 h'
      · intro hs
        simp only [DDesc.raw, Option.getD_none, Option.getD_some, Bool.and_eq_true, List.isEmpty_iff] at hs
        refine ⟨hs.2, m1, ?_⟩
        intro e he
        apply hcov e he
        have := List.filter_eq_nil_iff.mp hs.2 e.1 (mem_dictKeys_of_mem he)
        simpa [Option.isSome_iff_ne_none] using this
    · intro o ho
      simp only [Option.some.injEq] at ho
      exact ⟨ho.symm, rfl⟩
    · intro hi; exact absurd hi (by simp [DDesc.raw])
    · intro hs
      simp only [DDesc.raw, Option.getD_none, Option.getD_some, Bool.and_eq_true, List.isEmpty_iff] at hs
      have hall := List.filter_eq_nil_iff.mp hs.2
      show (dictKeys T').filterMap _ = T'
      have : ∀ (l : List (κ × τ)), (∀ e ∈ l, e ∈ T') →
          (dictKeys l).filterMap (fun c => (d.find c).map fun t => (c, t)) = l := by
        intro l
        induction l with
        | nil => intro _; rfl
        | cons e l ih =>
          intro hl
          have he := hl e (List.mem_cons_self ..)
          have hns := hall e.1 (mem_dictKeys_of_mem he)
          rw [dictKeys, List.map_cons, List.filterMap_cons]
          cases hf : d.find e.1 with
          | none => rw [hf] at hns; exact absurd rfl hns
          | some t =>
            have := DDesc.find_some hT h (hsub _ he) hf
            subst this
            simp only [Option.map_some]
            have ih' := ih fun x hx => hl x (List.mem_cons_of_mem _ hx)
            rw [dictKeys] at ih'
            rw [ih']
      exact this T' fun _ h => h

theorem DDesc.sync_sync [DecidableEq κ] (d : DDesc κ τ) : d.sync.sync = d.sync := by
  cases ho : d.sync.order with
  | some o => exact DDesc.sync_order ho
  | none =>
    have : d.sync = d := by
      cases ho' : d.order with
      | some o => exact DDesc.sync_order ho'
      | none =>
        cases hp : d.parent with
        | none => exact DDesc.sync_orphan hp
        | some p =>
          cases hc : p.colsKnown with
          | false => exact DDesc.sync_unknown hp hc
          | true =>
            rw [DDesc.sync_learn ho' hp hc, (d.learn_fields _).2.1] at ho
            exact absurd ho (by simp)
    rw [this, this]

/-- a copy is the descriptor itself, with the columns learnt -/
theorem DDesc.copy_ok [DecidableEq κ] {d r : DDesc κ τ} (h : d.copy = .ok r) : r = d.sync := by
  unfold DDesc.copy at h
  simp only at h
  cases hm : DDesc.make d.sync.known (some d.sync.unknown) d.sync.remaining d.sync.parent d.sync.order d.sync.allNames
      (some d.sync.schemaKnown) with
  | error e => rw [hm] at h; exact absurd h (by simp [Except.map])
  | ok x =>
    rw [hm] at h
    simp only [Except.map, Except.ok.injEq] at h
    obtain ⟨-, -, -, h4, h5⟩ := DDesc.make_ok hm
    simp only [Option.getD_some] at h4 h5
    have hss := d.sync_sync
    generalize d.sync = s at *
    cases ho : s.order with
    | some o =>
      obtain ⟨-, -, -, m4⟩ := h5 o ho
      subst m4
      rw [← h]
      obtain ⟨known, unknown, ui, rem, par, ord, all, sch⟩ := s
      simp only at ho
      subst ho
      rfl
    | none =>
      have m4 := h4 ho
      have hraw : (DDesc.raw s.known s.unknown s.remaining s.parent s.allNames s.schemaKnown).sync =
          DDesc.raw s.known s.unknown s.remaining s.parent s.allNames s.schemaKnown := by
        cases hp : s.parent with
        | none => exact DDesc.sync_orphan rfl
        | some p =>
          cases hc : p.colsKnown with
          | false => exact DDesc.sync_unknown (p := p) rfl hc
          | true =>
            rw [DDesc.sync_learn ho hp hc] at hss
            have := congrArg DDesc.order hss
            rw [(s.learn_fields _).2.1, ho] at this
            exact absurd this (by simp)
      rw [hraw] at m4
      subst m4
      rw [← h]
      obtain ⟨known, unknown, ui, rem, par, ord, all, sch⟩ := s
      simp only at ho
      subst ho
      rfl

/-! ### renaming -/

/-- the new name of a column -/
def newName [DecidableEq κ] (renamer : List (κ × κ)) (c : κ) : κ := (dictGet renamer c).getD c

theorem mapM_eq_map {α β : Type} {f : α → Option β} {g : α → β} : ∀ (l : List α), (∀ x ∈ l, f x = some (g x)) →
    l.mapM f = some (l.map g)
  | [], _ => rfl
  | x :: l, h => by
    rw [List.mapM_cons, h x (List.mem_cons_self ..), mapM_eq_map l fun y hy => h y (List.mem_cons_of_mem _ hy)]
    rfl

theorem dictGet_zip [DecidableEq κ] : ∀ (o new : List κ), o.length ≤ new.length → ∀ c ∈ o,
    ∃ c', dictGet (o.zip new) c = some c'
  | [], _, _, _, h => absurd h (by simp)
  | _ :: _, [], hl, _, _ => absurd hl (by simp)
  | x :: o, y :: new, hl, c, hc => by
    simp only [List.zip_cons_cons, dictGet]
    split
    · exact ⟨y, rfl⟩
    · rename_i hne
      rw [List.mem_cons] at hc
      rcases hc with rfl | hc
      · exact absurd rfl hne
      · exact dictGet_zip o new (by simpa using hl) c hc

theorem newName_map [DecidableEq κ] : ∀ (T : List (κ × τ)) (new : List κ), (dictKeys T).Nodup →
    new.length = T.length →
    T.map (fun e => (newName ((dictKeys T).zip new) e.1, e.2)) = new.zip (T.map (·.2)) := by
  intro T
  induction T with
  | nil => intro new _ hl; have : new = [] := List.length_eq_zero_iff.mp hl; subst this; rfl
  | cons e T ih =>
    intro new hn hl
    cases new with
    | nil => exact absurd hl (by simp)
    | cons c new =>
      rw [dictKeys, List.map_cons, List.nodup_cons] at hn
      have ih' := ih new hn.2 (by simpa using hl)
      simp only [dictKeys, List.map_cons, List.zip_cons_cons]
      congr 1
      · simp [newName, dictGet]
      · rw [← ih']
        apply List.map_congr_left
        intro x hx
        have : e.1 ≠ x.1 := fun h => hn.1 (h ▸ mem_dictKeys_of_mem hx)
        simp only [newName, dictGet]
        rw [if_neg this]
        rfl

theorem dictKeys_map_name {σ : Type} (f : κ → σ) (T : List (κ × τ)) :
    dictKeys (T.map fun e => (f e.1, e.2)) = (dictKeys T).map f := by
  simp [dictKeys, List.map_map, Function.comp_def]

theorem nodup_map_on {α β : Type} {f : α → β} : ∀ {l : List α}, l.Nodup →
    (∀ a ∈ l, ∀ b ∈ l, f a = f b → a = b) → (l.map f).Nodup
  | [], _, _ => by simp
  | x :: l, hn, hi => by
    rw [List.nodup_cons] at hn
    rw [List.map_cons, List.nodup_cons]
    refine ⟨?_, nodup_map_on hn.2 fun a ha b hb => hi a (List.mem_cons_of_mem _ ha) b (List.mem_cons_of_mem _ hb)⟩
    intro h
    obtain ⟨y, hy, hxy⟩ := List.mem_map.mp h
    have := hi y (List.mem_cons_of_mem _ hy) x (List.mem_cons_self ..) hxy
    subst this
    exact hn.1 hy

theorem inj_of_nodup_map {α β : Type} {f : α → β} : ∀ {l : List α}, (l.map f).Nodup →
    ∀ a ∈ l, ∀ b ∈ l, f a = f b → a = b
  | [], _, _, ha, _, _, _ => absurd ha (by simp)
  | x :: l, hn, a, ha, b, hb, hab => by
    rw [List.map_cons, List.nodup_cons] at hn
    rw [List.mem_cons] at ha hb
    rcases ha with rfl | ha <;> rcases hb with rfl | hb
    · rfl
    · exact absurd (List.mem_map.mpr ⟨b, hb, hab.symm⟩) hn.1
    · exact absurd (List.mem_map.mpr ⟨a, ha, hab⟩) hn.1
    · exact inj_of_nodup_map hn.2 a ha b hb hab

/-- a right description stays right when the columns get new distinct names -/
theorem DtKnows.rename {T known : List (κ × τ)} {unknown : List κ} {rem : Option τ} {all schema : Bool} (f : κ → κ)
    (h : DtKnows T known unknown rem all schema) (hinj : ((dictKeys T).map f).Nodup) :
    DtKnows (T.map fun e => (f e.1, e.2)) (known.map fun e => (f e.1, e.2)) (unknown.map f) rem all schema := by
  have inj := inj_of_nodup_map hinj
  have hkT : ∀ c ∈ dictKeys known, c ∈ dictKeys T := by
    intro c hc
    obtain ⟨v, hv⟩ := mem_dictKeys.mp hc
    exact mem_dictKeys_of_mem (h.kt _ hv)
  constructor
  · rw [dictKeys_map_name]
    exact nodup_map_on h.kn fun a ha b hb => inj a (hkT a ha) b (hkT b hb)
  · exact nodup_map_on h.un fun a ha b hb => inj a (h.uc a ha) b (h.uc b hb)
  · intro e he
    obtain ⟨x, hx, rfl⟩ := List.mem_map.mp he
    exact List.mem_map.mpr ⟨x, h.kt x hx, rfl⟩
  · intro c hc
    obtain ⟨x, hx, rfl⟩ := List.mem_map.mp hc
    rw [dictKeys_map_name]
    exact List.mem_map_of_mem (h.uc x hx)
  · intro c hc hk
    obtain ⟨x, hx, rfl⟩ := List.mem_map.mp hc
    rw [dictKeys_map_name] at hk
    obtain ⟨y, hy, hxy⟩ := List.mem_map.mp hk
    have := inj y (hkT y hy) x (h.uc x hx) hxy
    subst this
    exact h.dj y hx hy
  · intro ha e he h1 h2
    obtain ⟨x, hx, rfl⟩ := List.mem_map.mp he
    rw [dictKeys_map_name] at h1
    exact h.rest ha x hx (fun h' => h1 (List.mem_map_of_mem h')) (fun h' => h2 (List.mem_map_of_mem h'))
  · exact h.remAll
  · intro hs
    obtain ⟨f1, f2, f3⟩ := h.full hs
    refine ⟨by rw [f1]; rfl, f2, ?_⟩
    intro e he
    obtain ⟨x, hx, rfl⟩ := List.mem_map.mp he
    rw [dictKeys_map_name]
    exact List.mem_map_of_mem (f3 x hx)

theorem DDesc.setIndex_describes [DecidableEq κ] {d : DDesc κ τ} {T : List (κ × τ)} (hT : (dictKeys T).Nodup)
    (h : d.Describes T) (hp : ∀ p, d.parent = some p → d.order = none → p.colsKnown = true → p.schema = T)
    {new : List κ} {isIndex : Bool} (hl : new.length = T.length) {r : DDesc κ τ}
    (hr : d.setIndex new isIndex = .ok r) :
    r.Describes (new.zip (T.map (·.2))) ∧ r.order = some new := by
  have hkeys : dictKeys (new.zip (T.map (·.2))) = new := by
    rw [dictKeys, List.map_fst_zip (by simp [hl])]
  unfold DDesc.setIndex at hr
  split at hr
  · exact absurd hr (by simp)
  · rename_i hn
    have hn := Decidable.not_not.mp hn
    obtain ⟨hs, hsp⟩ := DDesc.sync_describes hT h hp
    cases ho : d.sync.order with
    | none =>
      rw [ho] at hr
      simp only at hr
      cases hm : DDesc.make ([] : List (κ × τ)) (some new) none d.parent (some new) true none with
      | error e => rw [hm] at hr; exact absurd hr (by simp [Except.map])
      | ok x =>
        rw [hm] at hr
        simp only [Except.map, Except.ok.injEq] at hr
        obtain ⟨-, -, -, -, h5⟩ := DDesc.make_ok hm
        obtain ⟨-, -, -, m4⟩ := h5 new rfl
        subst m4
        subst hr
        refine ⟨⟨?_, ?_, ?_⟩, rfl⟩
        · simp only [DDesc.raw, Option.getD_some, Option.getD_none, List.length_nil, Nat.lt_irrefl, decide_false,
            Bool.and_false, Bool.false_and]
          refine ⟨by simp [dictKeys], hn, by simp, by rw [hkeys]; exact fun _ h => h, by simp [dictKeys], ?_, by simp,
            by simp⟩
          intro _ e he _ h2
          exact absurd (hkeys ▸ mem_dictKeys_of_mem he) h2
        · intro o ho'
          simp only [Option.some.injEq] at ho'
          exact ⟨by rw [hkeys]; exact ho'.symm, rfl⟩
        · intro _; exact ⟨rfl, rfl⟩
    | some o =>
      rw [ho] at hr
      simp only at hr
      cases hc : d.sync.copy with
      | error e => rw [hc] at hr; exact absurd hr (by simp [Except.bind])
      | ok x =>
        have hx := DDesc.copy_ok hc
        rw [DDesc.sync_sync] at hx
        subst hx
        rw [hc] at hr
        simp only [Except.bind] at hr
        obtain ⟨ho', _⟩ := hs.order o ho
        subst ho'
        have hlen : ¬new.length < (dictKeys T).length := by simp [dictKeys, hl]
        rw [if_neg hlen] at hr
        have hget : ∀ c ∈ dictKeys T, dictGet ((dictKeys T).zip new) c = some (newName ((dictKeys T).zip new) c) := by
          intro c hc'
          obtain ⟨c', e⟩ := dictGet_zip (dictKeys T) new (by simp [dictKeys, hl]) c hc'
          simp [newName, e]
        have hmap := newName_map T new hT hl
        have hmapk : (dictKeys T).map (newName ((dictKeys T).zip new)) = new := by
          rw [← dictKeys_map_name, hmap, hkeys]
        rw [mapM_eq_map (g := fun e => (newName ((dictKeys T).zip new) e.1, e.2)) d.sync.known (by
              intro e he
              rw [hget e.1 (mem_dictKeys_of_mem (hs.knows.kt e he))]; rfl),
          mapM_eq_map (g := newName ((dictKeys T).zip new)) d.sync.unknown (by
              intro c hc'; exact hget c (hs.knows.uc c hc')),
          mapM_eq_map (g := newName ((dictKeys T).zip new)) (dictKeys T) hget] at hr
        simp only [Except.ok.injEq] at hr
        subst hr
        have hk := hs.knows.rename (newName ((dictKeys T).zip new)) (by rw [hmapk]; exact hn)
        rw [hmap] at hk
        refine ⟨⟨hk, ?_, by simp⟩, by simp only [hmapk]⟩
        intro o' ho'
        simp only [Option.some.injEq] at ho'
        rw [hkeys, ← ho', hmapk]
        exact ⟨rfl, (hs.order _ ho).2⟩

/-! ### materialization -/

theorem missingNames_eq [DecidableEq κ] (known : List (κ × τ)) : ∀ (cols unknown : List κ), cols.Nodup →
    missingNames known cols unknown =
      unknown ++ cols.filter fun c => decide (c ∉ dictKeys known) && decide (c ∉ unknown) := by
  intro cols
  induction cols with
  | nil => intro unknown _; simp [missingNames]
  | cons c cols ih =>
    intro unknown hn
    rw [List.nodup_cons] at hn
    simp only [missingNames]
    by_cases h : c ∉ dictKeys known ∧ c ∉ unknown
    · rw [if_pos h, ih _ hn.2, List.filter_cons_of_pos (by simp [h.1, h.2]), List.append_assoc]
      congr 1
      rw [List.singleton_append]
      congr 1
      apply List.filter_congr
      intro x hx
      have : x ≠ c := fun e => hn.1 (e ▸ hx)
      simp [this]
    · rw [if_neg h, ih _ hn.2, List.filter_cons_of_neg]
      intro h'
      apply h
      simpa using h'

/-- the unknown dtypes are computed -/
theorem DDesc.materializeUnknown_ok [DecidableEq κ] {d : DDesc κ τ} {T : List (κ × τ)} (hT : (dictKeys T).Nodup)
    (h : DtKnows T d.known d.unknown d.remaining d.allNames d.schemaKnown) (p : DParent κ τ) (hp : p.schema = T) :
    ∃ r, d.materializeUnknown p = .ok r ∧ DtKnows T r.known [] d.remaining true d.schemaKnown ∧
      r.remaining = d.remaining ∧ r.unknown = [] ∧ r.allNames = true ∧ r.order = d.order ∧ r.schemaKnown = d.schemaKnown ∧
      (r.parent = d.parent ∨ r.parent = d.touch.parent) ∧ r.unknownIsIndex = false := by
  subst hp
  unfold DDesc.materializeUnknown
  by_cases hA : (d.known.isEmpty && d.unknown.isEmpty && !d.allNames) = true
  · rw [if_pos hA]
    simp only [Bool.and_eq_true, List.isEmpty_iff, Bool.not_eq_eq_eq_not, Bool.not_true] at hA
    have hup : dictUpdate d.known p.schema = p.schema := by
      rw [hA.1.1, dictUpdate_new _ _ hT (by simp [dictKeys]), List.nil_append]
    refine ⟨_, rfl, ?_, rfl, rfl, rfl, rfl, rfl, Or.inr rfl, rfl⟩
    simp only [hup]
    have hr : d.remaining = none := by
      cases hr : d.remaining with
      | none => rfl
      | some t => have := h.remAll (by rw [hr]; rfl); rw [hA.2] at this; exact absurd this (by simp)
    refine ⟨hT, by simp, fun e he => he, by simp, by simp, ?_, fun _ => rfl, ?_⟩
    · intro _ e he h1; exact absurd (mem_dictKeys_of_mem he) h1
    · intro hs; exact ⟨rfl, hr, fun e he => mem_dictKeys_of_mem he⟩
  · rw [if_neg hA]
    simp only
    -- the columns computed
    generalize hu : (if d.allNames then d.unknown else missingNames d.known (dictKeys p.schema) d.unknown) = u
    have hku : DtKnows p.schema d.known u d.remaining true (d.schemaKnown && u.isEmpty) := by
      cases ha : d.allNames with
      | true =>
        rw [ha, if_pos rfl] at hu
        subst hu
        rw [ha] at h
        refine ⟨h.kn, h.un, h.kt, h.uc, h.dj, h.rest, h.remAll, ?_⟩
        intro hs
        rw [Bool.and_eq_true] at hs
        exact h.full hs.1
      | false =>
        rw [ha, if_neg (by simp), missingNames_eq _ _ _ hT] at hu
        have hr : d.remaining = none := by
          cases hr : d.remaining with
          | none => rfl
          | some t => have := h.remAll (by rw [hr]; rfl); rw [ha] at this; exact absurd this (by simp)
        have := (h.synced hT).2.1 hr
        rw [hu] at this
        rw [hr]
        refine ⟨this.kn, this.un, this.kt, this.uc, this.dj, this.rest, this.remAll, ?_⟩
        intro hs
        rw [Bool.and_eq_true, List.isEmpty_iff] at hs
        exact ⟨hs.2, rfl, (h.full hs.1).2.2⟩
    have hd : ∀ (f : DDesc κ τ → DDesc κ τ), True := fun _ => trivial
    by_cases he : u.isEmpty = true
    · rw [if_pos he]
      have hu0 := List.isEmpty_iff.mp he
      rw [hu0] at hku
      simp only [List.isEmpty_nil, Bool.and_true] at hku
      refine ⟨_, rfl, ?_, ?_, rfl, rfl, ?_, ?_, ?_, rfl⟩
      · cases d.allNames <;> exact hku
      · cases d.allNames <;> rfl
      · cases d.allNames <;> rfl
      · cases d.allNames <;> rfl
      · cases d.allNames
        · exact Or.inr rfl
        · exact Or.inl rfl
    · rw [if_neg he]
      have hcomp : p.compute u = .ok (p.schema.filter fun e => decide (e.1 ∈ u)) := by
        unfold DParent.compute
        rw [if_pos]
        rw [List.all_eq_true]
        intro c hc
        exact decide_eq_true (hku.uc c hc)
      rw [hcomp]
      have hnewk : ∀ c, c ∈ dictKeys (p.schema.filter fun e => decide (e.1 ∈ u)) ↔ c ∈ u := by
        intro c
        rw [mem_dictKeys]
        constructor
        · rintro ⟨v, hv⟩
          have := (List.mem_filter.mp hv).2
          simpa using this
        · intro hc
          obtain ⟨v, hv⟩ := mem_dictKeys.mp (hku.uc c hc)
          exact ⟨v, List.mem_filter.mpr ⟨hv, by simpa using hc⟩⟩
      have hup : dictUpdate d.known (p.schema.filter fun e => decide (e.1 ∈ u)) =
          d.known ++ p.schema.filter fun e => decide (e.1 ∈ u) := by
        apply dictUpdate_new
        · exact hT.sublist (List.filter_sublist.map _)
        · intro k hk
          exact hku.dj k ((hnewk k).mp hk)
      have hres : DtKnows p.schema (d.known ++ p.schema.filter fun e => decide (e.1 ∈ u)) [] d.remaining true
          d.schemaKnown := by
        constructor
        · rw [dictKeys_append, List.nodup_append]
          refine ⟨h.kn, hT.sublist (List.filter_sublist.map _), ?_⟩
          intro a ha b hb hab
          subst hab
          exact hku.dj a ((hnewk a).mp hb) ha
        · simp
        · intro e he'
          rw [List.mem_append] at he'
          rcases he' with he' | he'
          · exact h.kt e he'
          · exact (List.mem_filter.mp he').1
        · simp
        · simp
        · intro _ e he' h1 _
          rw [dictKeys_append, List.mem_append, not_or] at h1
          exact hku.rest rfl e he' h1.1 fun h' => h1.2 ((hnewk _).mpr h')
        · intro _; rfl
        · intro hs
          obtain ⟨_, f2, f3⟩ := h.full hs
          refine ⟨rfl, f2, ?_⟩
          intro e he'
          rw [dictKeys_append, List.mem_append]
          exact Or.inl (f3 e he')
      refine ⟨_, rfl, ?_, ?_, rfl, rfl, ?_, ?_, ?_, rfl⟩
      · cases d.allNames <;> (simp only [DDesc.touch, if_true, Bool.false_eq_true, if_false]; rw [hup]; exact hres)
      · cases d.allNames <;> rfl
      · cases d.allNames <;> rfl
      · cases d.allNames <;> rfl
      · right
        cases d.allNames
        · simp [DDesc.touch, Option.map_map, Function.comp_def]
        · rfl

theorem reorderKnown_ok [DecidableEq κ] {T known : List (κ × τ)} (hT : (dictKeys T).Nodup) (h : known.Perm T) :
    reorderKnown known (dictKeys T) = .ok T := by
  unfold reorderKnown
  rw [if_neg (by simp [dictKeys, h.length_eq])]
  have hk : (dictKeys known).Nodup := (List.Perm.map (fun e : κ × τ => e.1) h).nodup_iff.mpr hT
  have : ∀ l : List (κ × τ), (∀ e ∈ l, e ∈ T) → (dictKeys l).mapM (fun c => (dictGet known c).map fun t => (c, t)) = some l := by
    intro l
    induction l with
    | nil => intro _; rfl
    | cons e l ih =>
      intro hl
      have he := hl e (List.mem_cons_self ..)
      rw [dictKeys, List.map_cons, List.mapM_cons, (dictGet_some hk (v := e.2)).mpr (h.mem_iff.mpr he)]
      have := ih fun x hx => hl x (List.mem_cons_of_mem _ hx)
      rw [dictKeys] at this
      rw [this]
      rfl
  rw [this T fun _ h => h]

theorem DDesc.materialize_ok [DecidableEq κ] {d : DDesc κ τ} {T : List (κ × τ)} (hT : (dictKeys T).Nodup)
    (h : d.Describes T) {p : DParent κ τ} (hpar : d.parent = some p) (hp : p.schema = T) :
    ∃ r, d.materialize = .ok r ∧ r.known.Perm T ∧
      (d.schemaKnown = false → d.order.isSome = true ∨ p.colsKnown = true → r.known = T) := by
  unfold DDesc.materialize
  by_cases hs : d.schemaKnown = true
  · rw [if_pos hs]
    refine ⟨d, rfl, ?_, by rw [hs]; simp⟩
    have := h.knows
    rw [hs] at this
    exact this.full_perm hT
  · rw [if_neg hs, hpar]
    simp only
    obtain ⟨d1, e1, k1, k2, k3, k4, k5, k6, k7, k8⟩ := DDesc.materializeUnknown_ok hT h.knows p hp
    rw [e1]
    simp only [Except.bind]
    -- after the remaining dtype has been given its columns
    have hperm : (d1.spreadRemaining p).known.Perm T ∧ (d1.spreadRemaining p).order = d1.order ∧
        (d1.spreadRemaining p).unknown = [] ∧
        ((d1.spreadRemaining p).parent = d1.parent ∨ (d1.spreadRemaining p).parent = d1.touch.parent) := by
      unfold DDesc.spreadRemaining
      cases hr : d1.remaining with
      | none =>
        refine ⟨?_, rfl, k3, Or.inl rfl⟩
        rw [← k2, hr] at k1
        refine perm_of_keys k1.kn hT k1.kt fun e he => ?_
        by_cases h1 : e.1 ∈ dictKeys d1.known
        · exact h1
        · exact absurd (k1.rest rfl e he h1 (by simp)) (by simp)
      | some t =>
        refine ⟨?_, rfl, k3, Or.inr rfl⟩
        simp only
        rw [hp]
        have hkn : ∀ l : List κ, dictKeys (l.map fun c => (c, t)) = l := by
          intro l; simp [dictKeys, List.map_map, Function.comp_def]
        rw [dictUpdate_new _ _ (by rw [hkn]; exact hT.sublist List.filter_sublist)
          (by rw [hkn]; intro k hk; simpa using (List.mem_filter.mp hk).2)]
        refine perm_of_keys ?_ hT ?_ ?_
        · rw [dictKeys_append, hkn, List.nodup_append]
          refine ⟨k1.kn, hT.sublist List.filter_sublist, ?_⟩
          intro a ha b hb hab
          subst hab
          have := (List.mem_filter.mp hb).2
          simp only [decide_eq_true_eq] at this
          exact this ha
        · intro e he
          rw [List.mem_append] at he
          rcases he with he | he
          · exact k1.kt e he
          · obtain ⟨c, hc, rfl⟩ := List.mem_map.mp he
            obtain ⟨hc1, hc2⟩ := List.mem_filter.mp hc
            simp only [decide_eq_true_eq] at hc2
            obtain ⟨v, hv⟩ := mem_dictKeys.mp hc1
            have := k1.rest rfl _ hv hc2 (by simp)
            rw [← k2, hr, Option.some.injEq] at this
            rw [this]
            exact hv
        · intro e he
          rw [dictKeys_append, hkn, List.mem_append]
          by_cases h1 : e.1 ∈ dictKeys d1.known
          · exact Or.inl h1
          · exact Or.inr (List.mem_filter.mpr ⟨mem_dictKeys_of_mem he, by simpa using h1⟩)
    generalize hd2 : d1.spreadRemaining p = d2 at hperm
    obtain ⟨p1, p2, p3, p4⟩ := hperm
    have hd2p : ∃ q, d2.parent = some q ∧ q.schema = T ∧ (p.colsKnown = true → q.colsKnown = true) := by
      have h1 : d1.parent = some p ∨ d1.parent = some { p with colsKnown := true } := by
        rcases k7 with h7 | h7
        · left; rw [h7, hpar]
        · right; rw [h7, DDesc.touch, hpar]; rfl
      rcases p4 with h4 | h4
      · rcases h1 with h1 | h1
        · exact ⟨_, h4.trans h1, hp, id⟩
        · exact ⟨_, h4.trans h1, hp, fun _ => rfl⟩
      · rcases h1 with h1 | h1 <;> (rw [DDesc.touch, h1] at h4; exact ⟨_, h4, hp, fun _ => rfl⟩)
    obtain ⟨q, hq1, hq2, hq3⟩ := hd2p
    -- the order
    have hsync : d2.sync.known = d2.known ∧ ∀ o, d2.sync.order = some o → o = dictKeys T := by
      cases ho : d2.order with
      | some o =>
        rw [DDesc.sync_order ho]
        refine ⟨rfl, ?_⟩
        intro o' ho'
        rw [p2, k5] at ho'
        exact (h.order o' ho').1
      | none =>
        cases hc : q.colsKnown with
        | false => rw [DDesc.sync_unknown hq1 hc]; exact ⟨rfl, by rw [ho]; simp⟩
        | true =>
          rw [DDesc.sync_learn ho hq1 hc, hq2]
          refine ⟨?_, ?_⟩
          · unfold DDesc.learn
            simp only
            rw [if_neg]
            rw [p3, p1.length_eq]
            simp [dictKeys]
          · intro o ho'
            rw [(d2.learn_fields _).2.1, Option.some.injEq] at ho'
            exact ho'.symm
    obtain ⟨s1, s2⟩ := hsync
    cases ho : d2.sync.order with
    | none =>
      refine ⟨_, rfl, by rw [show DDesc.known _ = d2.sync.known from rfl, s1]; exact p1, ?_⟩
      rintro - (hor | hor)
      · obtain ⟨o, ho'⟩ := Option.isSome_iff_exists.mp hor
        have : d2.order = some o := by rw [p2, k5, ho']
        rw [DDesc.sync_order this, this] at ho
        exact absurd ho (by simp)
      · cases ho' : d2.order with
        | some o => rw [DDesc.sync_order ho', ho'] at ho; exact absurd ho (by simp)
        | none =>
          rw [DDesc.sync_learn ho' hq1 (hq3 hor), (d2.learn_fields _).2.1] at ho
          exact absurd ho (by simp)
    | some o =>
      simp only
      rw [s2 o ho, s1, reorderKnown_ok hT p1]
      exact ⟨_, rfl, List.Perm.refl _, fun _ _ => rfl⟩

/-! ### dtypes put after each other -/

/-- the value is right about the columns `T` -/
def DValue.Describes (v : DValue κ τ) (T : List (κ × τ)) : Prop :=
  match v with
  | .desc d => d.Describes T
  | .series l => l.Perm T
  | .none => True

/-- the variables of the loop are right about the columns `T` seen so far -/
structure DConcat.Right (st : DConcat κ τ) (T : List (κ × τ)) : Prop where
  knows : DtKnows T st.known st.unknown (st.remaining.getD none) st.allNames st.schemaKnown
  default : st.remaining = some none → st.allNames = false

theorem DtKnows.append {T1 T2 k1 k2 : List (κ × τ)} {u1 u2 : List κ} {r1 r2 r : Option τ} {a1 a2 a s1 s2 : Bool}
    (hn : (dictKeys (T1 ++ T2)).Nodup) (h1 : DtKnows T1 k1 u1 r1 a1 s1) (h2 : DtKnows T2 k2 u2 r2 a2 s2)
    (ha : a = true → a1 = true ∧ a2 = true ∧ (∀ t, r1 = some t → r = some t) ∧ (∀ t, r2 = some t → r = some t))
    (hr : r.isSome = true → a = true) (hnone : r1 = none → r2 = none → r = none) :
    DtKnows (T1 ++ T2) (k1 ++ k2) (u1 ++ u2) r a (s1 && s2) := by
  rw [dictKeys_append, List.nodup_append] at hn
  obtain ⟨n1, n2, n3⟩ := hn
  have key1 : ∀ c ∈ dictKeys k1, c ∈ dictKeys T1 := by
    intro c hc
    obtain ⟨v, hv⟩ := mem_dictKeys.mp hc
    exact mem_dictKeys_of_mem (h1.kt _ hv)
  have key2 : ∀ c ∈ dictKeys k2, c ∈ dictKeys T2 := by
    intro c hc
    obtain ⟨v, hv⟩ := mem_dictKeys.mp hc
    exact mem_dictKeys_of_mem (h2.kt _ hv)
  constructor
  · rw [dictKeys_append, List.nodup_append]
    exact ⟨h1.kn, h2.kn, fun a ha b hb => n3 a (key1 a ha) b (key2 b hb)⟩
  · rw [List.nodup_append]
    exact ⟨h1.un, h2.un, fun a ha b hb => n3 a (h1.uc a ha) b (h2.uc b hb)⟩
  · intro e he
    rw [List.mem_append] at he ⊢
    exact he.imp (h1.kt e) (h2.kt e)
  · intro c hc
    rw [dictKeys_append, List.mem_append]
    rw [List.mem_append] at hc
    exact hc.imp (h1.uc c) (h2.uc c)
  · intro c hc hk
    rw [dictKeys_append, List.mem_append] at hk
    rw [List.mem_append] at hc
    rcases hc with hc | hc <;> rcases hk with hk | hk
    · exact h1.dj c hc hk
    · exact n3 c (h1.uc c hc) c (key2 c hk) rfl
    · exact n3 c (key1 c hk) c (h2.uc c hc) rfl
    · exact h2.dj c hc hk
  · intro ht e he hk hu
    obtain ⟨b1, b2, b3, b4⟩ := ha ht
    rw [dictKeys_append, List.mem_append, not_or] at hk
    rw [List.mem_append, not_or] at hu
    rw [List.mem_append] at he
    rcases he with he | he
    · exact b3 _ (h1.rest b1 e he hk.1 hu.1)
    · exact b4 _ (h2.rest b2 e he hk.2 hu.2)
  · exact hr
  · intro hs
    rw [Bool.and_eq_true] at hs
    obtain ⟨f1, f2, f3⟩ := h1.full hs.1
    obtain ⟨g1, g2, g3⟩ := h2.full hs.2
    refine ⟨by rw [f1, g1]; rfl, hnone f2 g2, ?_⟩
    intro e he
    rw [dictKeys_append, List.mem_append]
    rw [List.mem_append] at he
    exact he.imp (f3 e) (g3 e)

theorem DtKnows.complete {T l : List (κ × τ)} (hT : (dictKeys T).Nodup) (h : l.Perm T) : DtKnows T l [] none true true := by
  refine ⟨(List.Perm.map (fun e : κ × τ => e.1) h).nodup_iff.mpr hT, by simp, fun e he => h.mem_iff.mp he, by simp, by simp,
    ?_, by simp, ?_⟩
  · intro _ e he h1; exact absurd (mem_dictKeys_of_mem (h.mem_iff.mpr he)) h1
  · intro _; exact ⟨rfl, rfl, fun e he => mem_dictKeys_of_mem (h.mem_iff.mpr he)⟩

theorem DConcat.step_right [DecidableEq κ] [DecidableEq τ] {st st' : DConcat κ τ} {v : DValue κ τ}
    {T1 T2 : List (κ × τ)} (hn : (dictKeys (T1 ++ T2)).Nodup) (h : st.Right T1) (hv : v.Describes T2)
    (hs : st.step v = .ok st') : st'.Right (T1 ++ T2) := by
  obtain ⟨hk, hd⟩ := h
  have hn' := hn
  rw [dictKeys_append, List.nodup_append] at hn'
  obtain ⟨n1, n2, n3⟩ := hn'
  have key1 : ∀ c ∈ dictKeys st.known, c ∈ dictKeys T1 := by
    intro c hc
    obtain ⟨v, hv⟩ := mem_dictKeys.mp hc
    exact mem_dictKeys_of_mem (hk.kt _ hv)
  cases v with
  | none =>
    simp only [DConcat.step, Except.ok.injEq] at hs
    subst hs
    refine ⟨?_, fun _ => rfl⟩
    have := DtKnows.append hn hk (DtKnows.nothing T2) (r := none) (a := false) (by simp) (by simp) (by simp)
    simpa using this
  | series l =>
    simp only [DConcat.step] at hs
    split at hs
    · exact absurd hs (by simp)
    · simp only [Except.ok.injEq] at hs
      subst hs
      refine ⟨?_, hd⟩
      have hl := DtKnows.complete n2 hv
      have hup : dictUpdate st.known l = st.known ++ l := by
        apply dictUpdate_new _ _ hl.kn
        intro k hk' hk''
        obtain ⟨v, hv'⟩ := mem_dictKeys.mp hk'
        exact n3 k (key1 k hk'') k (mem_dictKeys_of_mem (hl.kt _ hv')) rfl
      have := DtKnows.append hn hk hl (r := st.remaining.getD none) (a := st.allNames) (fun ha => ⟨ha, rfl, fun _ h => h, by simp⟩)
        hk.remAll (fun h _ => h)
      simpa only [hup, List.append_nil, Bool.and_true] using this
  | desc d =>
    have hv : d.Describes T2 := hv
    simp only [DConcat.step] at hs
    split at hs
    · exact absurd hs (by simp)
    · generalize (if d.unknownIsIndex = true then [] else dictKeys d.known ++ d.unknown) = newCols at hs
      split at hs
      · exact absurd hs (by simp)
      · simp only [Except.ok.injEq] at hs
        subst hs
        have hup : dictUpdate st.known d.known = st.known ++ d.known := by
          apply dictUpdate_new _ _ hv.knows.kn
          intro k hk' hk''
          obtain ⟨v, hv'⟩ := mem_dictKeys.mp hk'
          exact n3 k (key1 k hk'') k (mem_dictKeys_of_mem (hv.knows.kt _ hv')) rfl
        -- the remaining dtype
        have hrem : ((concatRemaining (st.allNames && d.allNames) st.remaining d.remaining).2 = true →
              st.allNames = true ∧ d.allNames = true ∧
              (∀ t, st.remaining.getD none = some t →
                (concatRemaining (st.allNames && d.allNames) st.remaining d.remaining).1.getD none = some t) ∧
              (∀ t, d.remaining = some t →
                (concatRemaining (st.allNames && d.allNames) st.remaining d.remaining).1.getD none = some t)) ∧
            (((concatRemaining (st.allNames && d.allNames) st.remaining d.remaining).1.getD none).isSome = true →
              (concatRemaining (st.allNames && d.allNames) st.remaining d.remaining).2 = true) ∧
            (st.remaining.getD none = none → d.remaining = none →
              (concatRemaining (st.allNames && d.allNames) st.remaining d.remaining).1.getD none = none) ∧
            ((concatRemaining (st.allNames && d.allNames) st.remaining d.remaining).1 = some none →
              (concatRemaining (st.allNames && d.allNames) st.remaining d.remaining).2 = false) := by
          unfold concatRemaining
          by_cases hall : (st.allNames && d.allNames) = true
          · rw [if_pos hall]
            rw [Bool.and_eq_true] at hall
            cases hc : st.remaining with
            | none =>
              cases d.remaining with
              | none => simp [hall.1, hall.2]
              | some t => simp [hall.1, hall.2]
            | some r =>
              cases r with
              | none => rw [hd hc] at hall; exact absurd hall.1 (by simp)
              | some r =>
                cases d.remaining with
                | none => simp [hall.1, hall.2]
                | some t =>
                  simp only
                  by_cases hrt : (some r : Option τ) = some t
                  · rw [if_pos hrt]; simp_all
                  · rw [if_neg hrt]; simp
          · rw [if_neg hall]; simp
        obtain ⟨q1, q2, q3, q4⟩ := hrem
        refine ⟨?_, q4⟩
        simp only [hup]
        exact DtKnows.append hn hk hv.knows q1 q2 q3

theorem DConcat.fold_right [DecidableEq κ] [DecidableEq τ] : ∀ (vs : List (DValue κ τ × List (κ × τ)))
    (st st' : DConcat κ τ) (T : List (κ × τ)), (dictKeys (T ++ vs.flatMap (·.2))).Nodup → st.Right T →
    (∀ v ∈ vs, v.1.Describes v.2) → (vs.map (·.1)).foldlM DConcat.step st = .ok st' →
    st'.Right (T ++ vs.flatMap (·.2))
  | [], st, st', T, _, h, _, hs => by
    simp only [List.map_nil, List.foldlM_nil, pure, Except.pure, Except.ok.injEq] at hs
    subst hs
    simpa using h
  | v :: vs, st, st', T, hn, h, hv, hs => by
    rw [List.flatMap_cons, ← List.append_assoc] at hn ⊢
    rw [List.map_cons, List.foldlM_cons] at hs
    cases hst : st.step v.1 with
    | error e => rw [hst] at hs; exact absurd hs (by simp [bind, Except.bind])
    | ok x =>
      rw [hst] at hs
      have hn1 : (dictKeys (T ++ v.2)).Nodup := by
        rw [dictKeys_append, List.nodup_append] at hn
        exact hn.1
      exact DConcat.fold_right vs x st' (T ++ v.2) hn
        (DConcat.step_right hn1 h (hv v (List.mem_cons_self ..)) hst)
        (fun w hw => hv w (List.mem_cons_of_mem _ hw)) hs

theorem DDesc.concat_describes [DecidableEq κ] [DecidableEq τ] (vs : List (DValue κ τ × List (κ × τ)))
    (hn : (dictKeys (vs.flatMap (·.2))).Nodup) (hv : ∀ v ∈ vs, v.1.Describes v.2) {r : DDesc κ τ}
    (hr : DDesc.concat (vs.map (·.1)) = .ok r) : r.Describes (vs.flatMap (·.2)) ∧ r.parent = none := by
  unfold DDesc.concat at hr
  cases hf : (vs.map (·.1)).foldlM DConcat.step
      ({ known := [], unknown := [], remaining := none, allNames := true, schemaKnown := true } : DConcat κ τ) with
  | error e => rw [hf] at hr; exact absurd hr (by simp [Except.bind])
  | ok st =>
    rw [hf] at hr
    simp only [Except.bind] at hr
    have h := DConcat.fold_right vs _ st [] (by simpa using hn)
      ⟨⟨by simp [dictKeys], by simp, by simp, by simp, by simp, by simp, by simp, by simp⟩, by simp⟩ hv hf
    rw [List.nil_append] at h
    obtain ⟨-, -, -, h4, -⟩ := DDesc.make_ok hr
    have := h4 rfl
    rw [DDesc.sync_orphan (by rfl)] at this
    subst this
    exact ⟨⟨h.knows, by simp [DDesc.raw], by simp [DDesc.raw]⟩, rfl⟩

/-! ### dtypes merged -/

/-- A column of the matrix is right about `T`; `free c`: no row is or will be for `c`. -/
def CellsRight [DecidableEq κ] (free : κ → Prop) (col : List (κ × Option τ)) (T : List (κ × τ)) : Prop :=
  ∀ c, (∀ t, dictGet col c = some (some t) → (c, t) ∈ T) ∧ (dictGet col c = none → c ∉ dictKeys T ∨ free c)

/-- the label is not a row, nor a column of a frame to come -/
def DMerge.Free (rows : List κ) (later : List (List (κ × τ))) (c : κ) : Prop := c ∉ rows ∧ ∀ R ∈ later, c ∉ dictKeys R

/-- the variables of the loop are right about the frames seen so far -/
structure DMerge.Right [DecidableEq κ] (st : DMerge κ τ) (Ts later : List (List (κ × τ))) : Prop where
  nodup : st.rows.Nodup
  rows : ∀ c ∈ st.rows, ∃ T ∈ Ts, c ∈ dictKeys T
  all : st.allNames = true → ∀ T ∈ Ts, ∀ c ∈ dictKeys T, c ∈ st.rows
  len : st.lost = false → st.cols.length = Ts.length
  cells : st.lost = false → ∀ p ∈ st.cols.zip Ts, CellsRight (DMerge.Free st.rows later) p.1 p.2

theorem mem_unionLabels [DecidableEq κ] {a b : List κ} {c : κ} : c ∈ unionLabels a b ↔ c ∈ a ∨ c ∈ b := by
  unfold unionLabels
  rw [List.mem_append, List.mem_filter]
  by_cases h : c ∈ a <;> simp [h]

theorem nodup_unionLabels [DecidableEq κ] {a b : List κ} (ha : a.Nodup) (hb : b.Nodup) : (unionLabels a b).Nodup := by
  unfold unionLabels
  rw [List.nodup_append]
  refine ⟨ha, hb.sublist List.filter_sublist, ?_⟩
  intro x hx y hy hxy
  subst hxy
  have := (List.mem_filter.mp hy).2
  simp only [decide_eq_true_eq] at this
  exact this hx

/-- the value names every column that a later frame has too -/
def DValue.Named (v : DValue κ τ) (T : List (κ × τ)) (later : List (List (κ × τ))) : Prop :=
  match v with
  | .desc d => ∀ c ∈ dictKeys T, ∀ R ∈ later, c ∈ dictKeys R → c ∈ dictKeys d.known ∨ c ∈ d.unknown
  | _ => True

/-- every value names the columns that later frames have too -/
def AllNamed : List (DValue κ τ × List (κ × τ)) → Prop
  | [] => True
  | v :: vs => v.1.Named v.2 (vs.map (·.2)) ∧ AllNamed vs

theorem dictGet_append [DecidableEq κ] : ∀ (a b : List (κ × τ)) (c : κ),
    dictGet (a ++ b) c = (dictGet a c).or (dictGet b c)
  | [], _, _ => by simp [dictGet]
  | e :: a, b, c => by
    simp only [List.cons_append, dictGet]
    split
    · rfl
    · exact dictGet_append a b c

theorem dictGet_map_val [DecidableEq κ] {σ : Type} (f : τ → σ) : ∀ (a : List (κ × τ)) (c : κ),
    dictGet (a.map fun e => (e.1, f e.2)) c = (dictGet a c).map f
  | [], _ => rfl
  | e :: a, c => by
    simp only [List.map_cons, dictGet]
    split
    · rfl
    · exact dictGet_map_val f a c

theorem dictGet_const [DecidableEq κ] (v : τ) : ∀ (l : List κ) (c : κ),
    dictGet (l.map fun c => (c, v)) c = if c ∈ l then some v else none
  | [], _ => by simp [dictGet]
  | x :: l, c => by
    simp only [List.map_cons, dictGet]
    by_cases h : x = c
    · simp [h]
    · rw [if_neg h, dictGet_const v l c]
      simp [Ne.symm h]

theorem CellsRight.series [DecidableEq κ] {free : κ → Prop} {l T : List (κ × τ)} (h : l.Perm T) :
    CellsRight free (l.map fun e => (e.1, some e.2)) T := by
  intro c
  rw [dictGet_map_val]
  constructor
  · intro t ht
    cases hg : dictGet l c with
    | none => rw [hg] at ht; exact absurd ht (by simp)
    | some v =>
      rw [hg] at ht
      simp only [Option.map_some, Option.some.injEq] at ht
      subst ht
      exact h.mem_iff.mp (dictGet_mem hg)
  · intro hg
    left
    intro hc
    simp only [Option.map_eq_none_iff] at hg
    obtain ⟨v, hv⟩ := mem_dictKeys.mp hc
    exact dictGet_none.mp hg (mem_dictKeys_of_mem (h.mem_iff.mpr hv))

theorem DMerge.step_right [DecidableEq κ] {st : DMerge κ τ} {v : DValue κ τ} {Ts later : List (List (κ × τ))}
    {T : List (κ × τ)} (hT : (dictKeys T).Nodup) (h : st.Right Ts (T :: later)) (hv : v.Describes T)
    (hc : v.Named T later) : (st.step v).Right (Ts ++ [T]) later := by
  have hmem : ∀ X : List (κ × τ), X ∈ Ts ++ [T] ↔ X ∈ Ts ∨ X = T := by simp
  have hzip : ∀ (col : List (κ × Option τ)) (names : List κ), (∀ c ∈ names, c ∈ dictKeys T) → st.lost = false →
      CellsRight (DMerge.Free (unionLabels st.rows names) later) col T →
      ∀ p ∈ (st.cols ++ [col]).zip (Ts ++ [T]), CellsRight (DMerge.Free (unionLabels st.rows names) later) p.1 p.2 := by
    intro col names hnames hl hcol p hp
    rw [List.zip_append (h.len hl), List.mem_append] at hp
    rcases hp with hp | hp
    · intro c
      obtain ⟨q1, q2⟩ := h.cells hl p hp c
      refine ⟨q1, fun hg => ?_⟩
      rcases q2 hg with q | ⟨q, q'⟩
      · exact Or.inl q
      · right
        refine ⟨?_, fun R hR => q' R (List.mem_cons_of_mem _ hR)⟩
        rw [mem_unionLabels, not_or]
        exact ⟨q, fun hn => q' T (List.mem_cons_self ..) (hnames c hn)⟩
    · simp only [List.zip_cons_cons, List.zip_nil_left, List.mem_singleton] at hp
      subst hp
      exact hcol
  cases v with
  | none =>
    refine ⟨h.nodup, ?_, by simp [DMerge.step], by simp [DMerge.step], by simp [DMerge.step]⟩
    intro c hcr
    obtain ⟨X, hX, hcX⟩ := h.rows c hcr
    exact ⟨X, (hmem X).mpr (Or.inl hX), hcX⟩
  | series l =>
    have hv : l.Perm T := hv
    have hkeys : ∀ c, c ∈ dictKeys l ↔ c ∈ dictKeys T := fun c => (List.Perm.map (fun e : κ × τ => e.1) hv).mem_iff
    refine ⟨nodup_unionLabels h.nodup ((List.Perm.map (fun e : κ × τ => e.1) hv).nodup_iff.mpr hT), ?_, ?_, ?_, ?_⟩
    · intro c hcr
      rcases mem_unionLabels.mp hcr with hcr | hcr
      · obtain ⟨X, hX, hcX⟩ := h.rows c hcr
        exact ⟨X, (hmem X).mpr (Or.inl hX), hcX⟩
      · exact ⟨T, (hmem T).mpr (Or.inr rfl), (hkeys c).mp hcr⟩
    · intro ha X hX c hcX
      rw [hmem] at hX
      apply mem_unionLabels.mpr
      rcases hX with hX | rfl
      · exact Or.inl (h.all ha X hX c hcX)
      · exact Or.inr ((hkeys c).mpr hcX)
    · intro hl; simp [DMerge.step, h.len hl]
    · intro hl; exact hzip _ _ (fun c hc => (hkeys c).mp hc) hl (CellsRight.series hv)
  | desc d =>
    have hv : d.Describes T := hv
    have hc : ∀ c ∈ dictKeys T, ∀ R ∈ later, c ∈ dictKeys R → c ∈ dictKeys d.known ∨ c ∈ d.unknown := hc
    have hkeys : dictKeys (d.known.map (fun e => (e.1, some e.2)) ++ d.unknown.map fun c => (c, (none : Option τ))) =
        dictKeys d.known ++ d.unknown := by
      simp [dictKeys, List.map_map, Function.comp_def]
    have hsub : ∀ c ∈ dictKeys d.known ++ d.unknown, c ∈ dictKeys T := by
      intro c hc
      rcases List.mem_append.mp hc with hc | hc
      · obtain ⟨v, hv'⟩ := mem_dictKeys.mp hc
        exact mem_dictKeys_of_mem (hv.knows.kt _ hv')
      · exact hv.knows.uc c hc
    have hcov : (d.allNames && d.remaining.isNone) = true → ∀ c ∈ dictKeys T, c ∈ dictKeys d.known ++ d.unknown := by
      intro hcomp c hc
      rw [Bool.and_eq_true] at hcomp
      obtain ⟨v, hv'⟩ := mem_dictKeys.mp hc
      rw [List.mem_append]
      apply Decidable.byContradiction
      rw [not_or]
      rintro ⟨h1, h2⟩
      have := hv.knows.rest hcomp.1 _ hv' h1 h2
      rw [this] at hcomp
      exact absurd hcomp.2 (by simp)
    simp only [DMerge.step, hkeys]
    generalize hfill : (if (d.allNames && d.remaining.isNone) = true then ([] : List (κ × Option τ))
      else ((unionLabels st.rows (dictKeys d.known ++ d.unknown)).filter
        fun c => decide (c ∉ dictKeys d.known ++ d.unknown)).map fun c => (c, (none : Option τ))) = fill
    refine ⟨nodup_unionLabels h.nodup ?_, ?_, ?_, ?_, ?_⟩
    · rw [List.nodup_append]
      refine ⟨hv.knows.kn, hv.knows.un, ?_⟩
      intro a ha b hb hab
      subst hab
      exact hv.knows.dj a hb ha
    · intro c hcr
      rcases mem_unionLabels.mp hcr with hcr | hcr
      · obtain ⟨X, hX, hcX⟩ := h.rows c hcr
        exact ⟨X, (hmem X).mpr (Or.inl hX), hcX⟩
      · exact ⟨T, (hmem T).mpr (Or.inr rfl), hsub c hcr⟩
    · intro ha X hX c hcX
      rw [Bool.and_assoc, Bool.and_eq_true] at ha
      rw [hmem] at hX
      apply mem_unionLabels.mpr
      rcases hX with hX | rfl
      · exact Or.inl (h.all ha.1 X hX c hcX)
      · exact Or.inr (hcov ha.2 c hcX)
    · intro hl; simp [h.len hl]
    · intro hl
      refine hzip _ _ hsub hl ?_
      intro c
      -- a cell filled in is unknown
      have hfg : ∀ x, dictGet fill c = some x → x = none := by
        intro x hx
        rw [← hfill] at hx
        split at hx
        · simp [dictGet] at hx
        · rw [dictGet_const] at hx
          split at hx
          · simpa using hx.symm
          · exact absurd hx (by simp)
      rw [dictGet_append, dictGet_append, dictGet_map_val, dictGet_const]
      constructor
      · intro t ht
        cases hg : dictGet d.known c with
        | none =>
          rw [hg] at ht
          simp only [Option.map_none, Option.none_or] at ht
          split at ht
          · simp at ht
          · rw [Option.none_or] at ht
            exact absurd (hfg _ ht) (by simp)
        | some v =>
          rw [hg] at ht
          simp only [Option.map_some, Option.some_or, Option.some.injEq] at ht
          subst ht
          exact hv.knows.kt _ (dictGet_mem hg)
      · intro hg
        rw [Option.or_eq_none_iff, Option.or_eq_none_iff] at hg
        obtain ⟨⟨hg1, hg2⟩, hg3⟩ := hg
        have n1 : c ∉ dictKeys d.known := by
          rw [Option.map_eq_none_iff] at hg1
          exact dictGet_none.mp hg1
        have n2 : c ∉ d.unknown := by
          intro h'
          rw [if_pos h'] at hg2
          exact absurd hg2 (by simp)
        have n3 : c ∉ dictKeys d.known ++ d.unknown := by
          rw [List.mem_append, not_or]; exact ⟨n1, n2⟩
        by_cases hcT : c ∈ dictKeys T
        · right
          refine ⟨?_, ?_⟩
          · intro hrow
            by_cases hcomp : (d.allNames && d.remaining.isNone) = true
            · exact n3 (hcov hcomp c hcT)
            · rw [if_neg hcomp] at hfill
              rw [← hfill, dictGet_const, if_pos (List.mem_filter.mpr ⟨hrow, decide_eq_true n3⟩)] at hg3
              exact absurd hg3 (by simp)
          · intro R hR hcR
            rcases hc c hcT R hR hcR with h' | h'
            · exact n1 h'
            · exact n2 h'
        · exact Or.inl hcT

theorem DMerge.fold_right [DecidableEq κ] : ∀ (vs : List (DValue κ τ × List (κ × τ))) (st : DMerge κ τ)
    (Ts : List (List (κ × τ))), st.Right Ts (vs.map (·.2)) → (∀ v ∈ vs, (dictKeys v.2).Nodup ∧ v.1.Describes v.2) →
    AllNamed vs → ((vs.map (·.1)).foldl DMerge.step st).Right (Ts ++ vs.map (·.2)) []
  | [], _, _, h, _, _ => by simpa using h
  | v :: vs, st, Ts, h, hv, hn => by
    obtain ⟨h1, h2⟩ := hv v (List.mem_cons_self ..)
    have := DMerge.fold_right vs (st.step v.1) (Ts ++ [v.2]) (DMerge.step_right h1 h h2 hn.1)
      (fun w hw => hv w (List.mem_cons_of_mem _ hw)) hn.2
    simpa using this

theorem cells_eq [DecidableEq κ] (float : τ) (c : κ) {rows : List κ} : ∀ (cols : List (List (κ × Option τ))) (Ts : List (List (κ × τ))),
    cols.length = Ts.length → (∀ T ∈ Ts, (dictKeys T).Nodup) →
    (∀ p ∈ cols.zip Ts, CellsRight (DMerge.Free rows ([] : List (List (κ × τ)))) p.1 p.2) → c ∈ rows →
    (cols.map fun col => dictGet col c).any (fun x => decide (x.isSome = true ∧ x.getD none = none)) = false →
    (cols.map fun col => dictGet col c).map (fun x => (x.getD none).getD float) =
      Ts.map fun T => (dictGet T c).getD float
  | [], [], _, _, _, _, _ => rfl
  | [], _ :: _, hl, _, _, _, _ => absurd hl (by simp)
  | _ :: _, [], hl, _, _, _, _ => absurd hl (by simp)
  | col :: cols, T :: Ts, hl, hT, hz, hrow, hany => by
    rw [List.map_cons, List.any_cons, Bool.or_eq_false_iff] at hany
    have ih := cells_eq float c cols Ts (by simpa using hl) (fun X hX => hT X (List.mem_cons_of_mem _ hX))
      (fun p hp => hz p (by rw [List.zip_cons_cons]; exact List.mem_cons_of_mem _ hp)) hrow hany.2
    simp only [List.map_cons]
    rw [ih]
    congr 1
    obtain ⟨q1, q2⟩ := hz (col, T) (by rw [List.zip_cons_cons]; exact List.mem_cons_self ..) c
    cases hg : dictGet col c with
    | none =>
      rcases q2 hg with q | ⟨q, -⟩
      · rw [dictGet_none.mpr q]
        rfl
      · exact absurd hrow q
    | some x =>
      cases x with
      | none => rw [hg] at hany; simp at hany
      | some t => rw [(dictGet_some (hT T (List.mem_cons_self ..))).mpr (q1 t hg)]; rfl

theorem DDesc.merge_describes [DecidableEq κ] (common : List τ → τ) (float : τ)
    (vs : List (DValue κ τ × List (κ × τ)))
    (hv : ∀ v ∈ vs, (dictKeys v.2).Nodup ∧ v.1.Describes v.2) (hnm : AllNamed vs) (cols : List κ)
    (hc : ∀ c, c ∈ cols ↔ ∃ v ∈ vs, c ∈ dictKeys v.2) {r : DDesc κ τ}
    (hr : DDesc.merge common float (vs.map (·.1)) = .ok r) :
    r.Describes (cols.map fun c => (c, stackedDtype common float (vs.map (·.2)) c)) ∧ r.parent = none := by
  have hR := DMerge.fold_right vs ({ rows := [], cols := [], allNames := true, lost := false } : DMerge κ τ) []
    ⟨by simp, by simp, by simp, by simp, by simp⟩ hv hnm
  rw [List.nil_append] at hR
  unfold DDesc.merge at hr
  simp only at hr
  generalize (vs.map (·.1)).foldl DMerge.step
    ({ rows := [], cols := [], allNames := true, lost := false } : DMerge κ τ) = st at hR hr
  have hkeys : dictKeys (cols.map fun c => (c, stackedDtype common float (vs.map (·.2)) c)) = cols := by
    simp [dictKeys, List.map_map, Function.comp_def]
  have hrow : ∀ c ∈ st.rows, c ∈ cols := by
    intro c hcr
    obtain ⟨T, hT, hcT⟩ := hR.rows c hcr
    obtain ⟨v, hv', rfl⟩ := List.mem_map.mp hT
    exact (hc c).mpr ⟨v, hv', hcT⟩
  have hcol : st.allNames = true → ∀ c ∈ cols, c ∈ st.rows := by
    intro ha c hcc
    obtain ⟨v, hv', hcv⟩ := (hc c).mp hcc
    exact hR.all ha v.2 (List.mem_map_of_mem hv') c hcv
  split at hr
  · obtain ⟨-, -, -, h4, -⟩ := DDesc.make_ok hr
    have := h4 rfl
    rw [DDesc.sync_orphan (by rfl)] at this
    subst this
    refine ⟨⟨?_, by simp [DDesc.raw], by simp [DDesc.raw]⟩, rfl⟩
    simp only [DDesc.raw, Option.getD_some, Option.getD_none, List.length_nil, Nat.lt_irrefl, decide_false, Bool.and_false,
      Bool.false_and]
    refine ⟨by simp [dictKeys], hR.nodup, by simp, by rw [hkeys]; exact hrow, by simp [dictKeys], ?_, by simp, by simp⟩
    intro ha e he _ h2
    exact absurd (hcol ha e.1 (hkeys ▸ mem_dictKeys_of_mem he)) h2
  · rename_i hl
    have hl : st.lost = false := by simpa using hl
    obtain ⟨-, h2, h3, h4, -⟩ := DDesc.make_ok hr
    have := h4 rfl
    rw [DDesc.sync_orphan (by rfl)] at this
    subst this
    refine ⟨⟨?_, by simp [DDesc.raw], by simp [DDesc.raw]⟩, rfl⟩
    simp only [Option.getD_some] at h2 h3
    simp only [DDesc.raw, Option.getD_some, Option.getD_none]
    obtain ⟨dt, hdtc⟩ : ∃ dt : κ → Option τ, ∀ c, combineCells common float (st.cols.map fun col => dictGet col c) = dt c :=
      ⟨_, fun _ => rfl⟩
    simp only [hdtc] at h2 h3 ⊢
    have hright : ∀ c t, c ∈ st.rows → dt c = some t → t = stackedDtype common float (vs.map (·.2)) c := by
      intro c t hrc ht
      rw [← hdtc] at ht
      unfold combineCells at ht
      split at ht
      · exact absurd ht (by simp)
      · rename_i hany
        rw [Option.some.injEq] at ht
        rw [← ht]
        unfold stackedDtype
        congr 1
        refine cells_eq float c st.cols (vs.map (·.2)) (hR.len hl) ?_ (hR.cells hl) hrc (by simpa only [Bool.not_eq_true] using hany)
        intro T hT
        obtain ⟨v, hv', rfl⟩ := List.mem_map.mp hT
        exact (hv v hv').1
    have hcov : ∀ c ∈ st.rows, c ∉ dictKeys (st.rows.filterMap fun c => (dt c).map fun t => (c, t)) →
        c ∈ st.rows.filter fun c => (dt c).isNone := by
      intro c hcr hk
      rw [List.mem_filter]
      refine ⟨hcr, ?_⟩
      cases hd : dt c with
      | none => rfl
      | some t =>
        exact absurd (mem_dictKeys.mpr ⟨t, List.mem_filterMap.mpr ⟨c, hcr, by rw [hd]; rfl⟩⟩) hk
    refine ⟨h2, h3, ?_, ?_, ?_, ?_, by simp, ?_⟩
    · intro e he
      obtain ⟨c, hcr, hce⟩ := List.mem_filterMap.mp he
      cases hd : dt c with
      | none => rw [hd] at hce; exact absurd hce (by simp)
      | some t =>
        rw [hd] at hce
        simp only [Option.map_some, Option.some.injEq] at hce
        subst hce
        rw [hright c t hcr hd]
        exact List.mem_map_of_mem (hrow c hcr)
    · intro c hcu
      rw [hkeys]
      exact hrow c (List.mem_filter.mp hcu).1
    · intro c hcu hck
      obtain ⟨v, hv'⟩ := mem_dictKeys.mp hck
      obtain ⟨c', _, hce⟩ := List.mem_filterMap.mp hv'
      cases hd : dt c' with
      | none => rw [hd] at hce; exact absurd hce (by simp)
      | some t =>
        rw [hd] at hce
        simp only [Option.map_some, Option.some.injEq, Prod.mk.injEq] at hce
        have := (List.mem_filter.mp hcu).2
        rw [← hce.1, hd] at this
        exact absurd this (by simp)
    · intro ha e he h1' h2'
      exact absurd (hcov e.1 (hcol ha e.1 (hkeys ▸ mem_dictKeys_of_mem he)) h1') h2'
    · intro hs
      simp only [Option.isSome_some, Option.isNone_none, Bool.true_and, Bool.and_true, Bool.and_eq_true,
        List.isEmpty_iff] at hs
      refine ⟨hs.2, rfl, ?_⟩
      intro e he
      apply Decidable.byContradiction
      intro hk
      have := hcov e.1 (hcol hs.1.1 e.1 (hkeys ▸ mem_dictKeys_of_mem he)) hk
      rw [hs.2] at this
      exact absurd this (by simp)

/-! ### cached dtypes -/

/-- the dtypes are right about the columns `T` -/
def MDtypes.Fits (m : MDtypes κ τ) (T : List (κ × τ)) : Prop :=
  match m with
  | .series l => l.Perm T
  | .desc d => d.Describes T ∧ ∀ p, d.parent = some p → d.order = none → p.schema = T

/-- The frame's columns are distinct, and its cached dtypes are right and refer to the frame. -/
structure DFrame.Described (f : DFrame κ τ) : Prop where
  nodup : (dictKeys f.schema).Nodup
  series : ∀ l, f.cache = some (.series l) → l.Perm f.schema
  desc : ∀ d, f.cache = some (.desc d) → d.Describes f.schema ∧ ∃ p, d.parent = some p ∧ p.schema = f.schema

theorem DFrame.Described.fits {f : DFrame κ τ} (h : f.Described) {m : MDtypes κ τ} (hm : f.cache = some m) :
    m.Fits f.schema := by
  cases m with
  | series l => exact h.series l hm
  | desc d =>
    obtain ⟨h1, p, h2, h3⟩ := h.desc d hm
    refine ⟨h1, ?_⟩
    intro q hq _
    rw [h2, Option.some.injEq] at hq
    rw [← hq, h3]

theorem MDtypes.Fits.ofDesc {d : DDesc κ τ} {T : List (κ × τ)} (hT : (dictKeys T).Nodup) (h : d.Describes T)
    (hp : ∀ p, d.parent = some p → d.order = none → p.schema = T) : (MDtypes.ofDesc d).Fits T := by
  unfold MDtypes.ofDesc
  split
  · rename_i hs
    have := h.knows
    rw [hs] at this
    exact this.full_perm hT
  · exact ⟨h, hp⟩

/-- learning the columns keeps the parent -/
theorem DDesc.sync_fits [DecidableEq κ] {d : DDesc κ τ} {T : List (κ × τ)} (hT : (dictKeys T).Nodup) (h : d.Describes T)
    (hp : ∀ p, d.parent = some p → d.order = none → p.schema = T) :
    d.sync.Describes T ∧ d.sync.parent = d.parent ∧ (∀ p, d.sync.parent = some p → d.sync.order = none → p.schema = T) := by
  obtain ⟨h1, h2⟩ := DDesc.sync_describes hT h fun p a b _ => hp p a b
  refine ⟨h1, h2, ?_⟩
  intro p hpar ho
  rw [h2] at hpar
  refine hp p hpar ?_
  cases hd : d.order with
  | none => rfl
  | some o => rw [DDesc.sync_order hd, hd] at ho; exact absurd ho (by simp)

theorem MDtypes.copy_fits [DecidableEq κ] {m r : MDtypes κ τ} {T : List (κ × τ)} (hT : (dictKeys T).Nodup)
    (h : m.Fits T) (hr : m.copy = .ok r) : r.Fits T := by
  cases m with
  | series l =>
    simp only [MDtypes.copy, Except.ok.injEq] at hr
    subst hr
    exact h
  | desc d =>
    simp only [MDtypes.copy] at hr
    cases hc : d.copy with
    | error e => rw [hc] at hr; exact absurd hr (by simp [Except.map])
    | ok x =>
      rw [hc] at hr
      simp only [Except.map, Except.ok.injEq] at hr
      subst hr
      rw [DDesc.copy_ok hc]
      obtain ⟨h1, -, h3⟩ := DDesc.sync_fits hT h.1 h.2
      exact MDtypes.Fits.ofDesc hT h1 h3

theorem DFrame.copyCache_fits [DecidableEq κ] {f : DFrame κ τ} (h : f.Described) {c : Option (MDtypes κ τ)}
    (hc : f.copyCache = .ok c) : ∀ m, c = some m → m.Fits f.schema := by
  intro m hm
  unfold DFrame.copyCache at hc
  cases hca : f.cache with
  | none => rw [hca] at hc; simp only [Except.ok.injEq] at hc; subst hc; exact absurd hm (by simp)
  | some x =>
    rw [hca] at hc
    simp only at hc
    cases hcp : x.copy with
    | error e => rw [hcp] at hc; exact absurd hc (by simp [Except.map])
    | ok y =>
      rw [hcp] at hc
      simp only [Except.map, Except.ok.injEq] at hc
      rw [← hc, Option.some.injEq] at hm
      subst hm
      exact MDtypes.copy_fits h.nodup (h.fits hca) hcp

/-- a frame made with right dtypes -/
theorem DFrame.build_described [DecidableEq κ] {schema : List (κ × τ)} (hn : (dictKeys schema).Nodup) {colsKnown : Bool}
    {m : Option (MDtypes κ τ)} (hm : ∀ x, m = some x → x.Fits schema) {f : DFrame κ τ}
    (hf : DFrame.build schema colsKnown m = .ok f) : f.Described ∧ f.schema = schema ∧ f.colsKnown = colsKnown := by
  unfold DFrame.build at hf
  cases m with
  | some x =>
    simp only at hf
    cases hs : x.specify { schema := schema, colsKnown := colsKnown } with
    | error e => rw [hs] at hf; exact absurd hf (by simp [Except.map])
    | ok y =>
      rw [hs] at hf
      simp only [Except.map, Except.ok.injEq] at hf
      subst hf
      refine ⟨?_, rfl, rfl⟩
      have hx := hm x rfl
      cases x with
      | series l =>
        simp only [MDtypes.specify, Except.ok.injEq] at hs
        subst hs
        refine ⟨hn, ?_, by simp⟩
        intro l' hl'
        simp only [Option.some.injEq, MDtypes.series.injEq] at hl'
        subst hl'
        exact hx
      | desc d =>
        simp only [MDtypes.specify] at hs
        cases hc : d.copy with
        | error e => rw [hc] at hs; exact absurd hs (by simp [Except.map])
        | ok r =>
          rw [hc] at hs
          simp only [Except.map, Except.ok.injEq] at hs
          rw [DDesc.copy_ok hc] at hs
          obtain ⟨h1, -, h3⟩ := DDesc.sync_fits hn hx.1 hx.2
          split at hs
          · rename_i hsk
            subst hs
            refine ⟨hn, ?_, by simp⟩
            intro l hl
            simp only [Option.some.injEq, MDtypes.series.injEq] at hl
            subst hl
            have := h1.knows
            rw [hsk] at this
            exact this.full_perm hn
          · subst hs
            refine ⟨hn, by simp, ?_⟩
            intro d' hd'
            simp only [Option.some.injEq, MDtypes.desc.injEq] at hd'
            subst hd'
            unfold DDesc.updateParent
            obtain ⟨g1, g2, -⟩ := DDesc.sync_fits (d := { d.sync with
                parent := some { schema := schema, colsKnown := colsKnown } }) hn
              ⟨h1.knows, h1.order, h1.index⟩ (by
                intro p hp _
                simp only [Option.some.injEq] at hp
                rw [← hp])
            exact ⟨g1, _, g2, rfl⟩
  | none =>
    simp only at hf
    split at hf
    · cases hmk : DDesc.make ([] : List (κ × τ)) (some (dictKeys schema)) none
          (some { schema := schema, colsKnown := colsKnown }) none true none with
      | error e =>
        rw [hmk] at hf
        cases e <;> simp only [catchNotImplemented, Except.map, Except.ok.injEq, reduceCtorEq] at hf
        subst hf
        exact ⟨⟨hn, by simp, by simp⟩, rfl, rfl⟩
      | ok d =>
        rw [hmk] at hf
        simp only [catchNotImplemented, Except.map, Except.ok.injEq, Option.map_some] at hf
        subst hf
        refine ⟨?_, rfl, rfl⟩
        obtain ⟨-, -, -, h4, -⟩ := DDesc.make_ok hmk
        have := h4 rfl
        subst this
        simp only [Option.getD_some, Option.getD_none, List.length_nil, Nat.lt_irrefl, decide_false, Bool.and_false,
          Bool.false_and]
        obtain ⟨g1, g2, -⟩ := DDesc.sync_fits (d := DDesc.raw ([] : List (κ × τ)) (dictKeys schema) none
            (some { schema := schema, colsKnown := colsKnown }) true false) hn
          ⟨⟨by simp [DDesc.raw, dictKeys], hn, by simp [DDesc.raw], fun c hc => hc, by simp [DDesc.raw, dictKeys], by
              intro _ e he _ h2
              exact absurd (mem_dictKeys_of_mem he) h2, by simp [DDesc.raw], by simp [DDesc.raw]⟩,
            by simp [DDesc.raw], by simp [DDesc.raw]⟩ (by
            intro p hp _
            simp only [DDesc.raw, Option.some.injEq] at hp
            rw [← hp])
        refine ⟨hn, ?_, ?_⟩
        · intro l hl
          simp only [Option.some.injEq] at hl
          unfold MDtypes.ofDesc at hl
          split at hl
          · rename_i hs
            simp only [MDtypes.series.injEq] at hl
            subst hl
            have := g1.knows
            rw [hs] at this
            exact this.full_perm hn
          · exact absurd hl (by simp)
        · intro d' hd'
          simp only [Option.some.injEq] at hd'
          unfold MDtypes.ofDesc at hd'
          split at hd'
          · exact absurd hd' (by simp)
          · simp only [MDtypes.desc.injEq] at hd'
            subst hd'
            exact ⟨g1, _, g2, rfl⟩
    · simp only [Except.ok.injEq] at hf
      subst hf
      exact ⟨⟨hn, by simp, by simp⟩, rfl, rfl⟩

theorem DFrame.readColumns_described {f : DFrame κ τ} (h : f.Described) :
    f.readColumns.Described ∧ f.readColumns.schema = f.schema := by
  refine ⟨⟨h.nodup, ?_, ?_⟩, rfl⟩
  · intro l hl
    cases hc : f.cache with
    | none => simp [DFrame.readColumns, hc] at hl
    | some m =>
      cases m with
      | series l' =>
        simp only [DFrame.readColumns, hc, Option.map_some, Option.some.injEq, MDtypes.series.injEq] at hl
        subst hl
        exact h.series _ hc
      | desc d => simp [DFrame.readColumns, hc] at hl
  · intro d hd
    cases hc : f.cache with
    | none => simp [DFrame.readColumns, hc] at hd
    | some m =>
      cases m with
      | series l' => simp [DFrame.readColumns, hc] at hd
      | desc d' =>
        simp only [DFrame.readColumns, hc, Option.map_some, Option.some.injEq, MDtypes.desc.injEq] at hd
        subst hd
        obtain ⟨h1, p, h2, h3⟩ := h.desc _ hc
        exact ⟨⟨h1.knows, h1.order, h1.index⟩, { p with colsKnown := true }, by simp [DDesc.touch, h2], h3⟩

/-- what is reported is right -/
theorem DFrame.readDtypes_described [DecidableEq κ] {f : DFrame κ τ} (h : f.Described) :
    ∃ l f', f.readDtypes = .ok (l, f') ∧ l.Perm f.schema ∧ f'.Described ∧ f'.schema = f.schema := by
  have hser : ∀ l : List (κ × τ), l.Perm f.schema → ∀ b, ({ f with colsKnown := b, cache := some (.series l) } :
      DFrame κ τ).Described := by
    intro l hl b
    refine ⟨h.nodup, ?_, by simp⟩
    intro l' hl'
    simp only [Option.some.injEq, MDtypes.series.injEq] at hl'
    subst hl'
    exact hl
  unfold DFrame.readDtypes
  cases hc : f.cache with
  | none => exact ⟨f.schema, _, rfl, List.Perm.refl _, hser _ (List.Perm.refl _) _, rfl⟩
  | some m =>
    cases m with
    | series l => exact ⟨l, _, rfl, h.series l hc, hser l (h.series l hc) _, rfl⟩
    | desc d =>
      obtain ⟨h1, p, h2, h3⟩ := h.desc d hc
      obtain ⟨r, e, hr, -⟩ := DDesc.materialize_ok h.nodup h1 h2 h3
      refine ⟨r.known, { f with cache := some (.series r.known) }, ?_, hr, hser _ hr _, rfl⟩
      simp only [MDtypes.get, e, Except.map]

theorem DFrame.same_described [DecidableEq κ] {f r : DFrame κ τ} (h : f.Described) (hr : f.same = .ok r) :
    r.Described ∧ r.schema = f.schema := by
  unfold DFrame.same at hr
  cases hc : f.copyCache with
  | error e => rw [hc] at hr; exact absurd hr (by simp [Except.bind])
  | ok c =>
    rw [hc] at hr
    obtain ⟨h1, h2, -⟩ := DFrame.build_described h.nodup (DFrame.copyCache_fits h hc) hr
    exact ⟨h1, h2⟩

theorem DFrame.uniform_described [DecidableEq κ] {cols : List κ} (hn : cols.Nodup) {t : τ} {r : DFrame κ τ}
    (hr : DFrame.uniform cols t = .ok r) : r.Described ∧ r.schema = cols.map fun c => (c, t) := by
  have hk : dictKeys (cols.map fun c => (c, t)) = cols := by simp [dictKeys, List.map_map, Function.comp_def]
  unfold DFrame.uniform at hr
  cases hm : DDesc.make ([] : List (κ × τ)) none (some t) none none true none with
  | error e => rw [hm] at hr; exact absurd hr (by simp [Except.bind])
  | ok d =>
    rw [hm] at hr
    obtain ⟨-, -, -, h4, -⟩ := DDesc.make_ok hm
    have := h4 rfl
    rw [DDesc.sync_orphan (by rfl)] at this
    have hdd : d.Describes (cols.map fun c => (c, t)) := by
      rw [this]
      refine ⟨⟨by simp [DDesc.raw, dictKeys], by simp [DDesc.raw], by simp [DDesc.raw], by simp [DDesc.raw],
        by simp [DDesc.raw], ?_, by simp [DDesc.raw], by simp [DDesc.raw]⟩, by simp [DDesc.raw], by simp [DDesc.raw]⟩
      intro _ e he _ _
      obtain ⟨c, _, rfl⟩ := List.mem_map.mp he
      rfl
    have hdp : d.parent = none := by rw [this]; rfl
    simp only [Except.bind] at hr
    obtain ⟨h1, h2, -⟩ := DFrame.build_described (by rw [hk]; exact hn) (by
      intro x hx
      rw [Option.some.injEq] at hx
      subst hx
      exact MDtypes.Fits.ofDesc (by rw [hk]; exact hn) hdd (by rw [hdp]; simp)) hr
    exact ⟨h1, h2⟩

/-! ### selection by position -/

theorem mapM_keys [DecidableEq κ] (T : List (κ × τ)) : ∀ (pos : List Nat) (ids : List κ),
    pos.mapM (fun i => (dictKeys T)[i]?) = some ids → ids = dictKeys (pos.filterMap fun i => T[i]?)
  | [], ids, h => by simp at h; subst h; rfl
  | i :: pos, ids, h => by
    rw [List.mapM_cons] at h
    cases hi : T[i]? with
    | none => simp [dictKeys, hi] at h
    | some e =>
      have hi' : (dictKeys T)[i]? = some e.1 := by simp [dictKeys, hi]
      rw [hi'] at h
      cases hm : pos.mapM (fun i => (dictKeys T)[i]?) with
      | none => rw [hm] at h; simp at h
      | some l =>
        rw [hm] at h
        simp at h
        subst h
        rw [List.filterMap_cons_some hi, mapM_keys T pos l hm]
        rfl

theorem keys_filterMap (T : List (κ × τ)) (pos : List Nat) :
    dictKeys (pos.filterMap fun i => T[i]?) = pos.filterMap fun i => (dictKeys T)[i]? := by
  unfold dictKeys
  rw [List.map_filterMap]
  apply congrFun
  apply congrArg
  funext i
  simp

theorem filterMap_mem {T : List (κ × τ)} {pos : List Nat} : ∀ e ∈ pos.filterMap (fun i => T[i]?), e ∈ T := by
  intro e he
  obtain ⟨i, _, hi⟩ := List.mem_filterMap.mp he
  exact List.mem_of_getElem? hi

theorem nodup_get_inj {l : List κ} (h : l.Nodup) {i j : Nat} (hi : i < l.length) (hj : j < l.length)
    (hij : l[i] = l[j]) : i = j := by
  have h := List.pairwise_iff_getElem.mp h
  rcases Nat.lt_trichotomy i j with hl | hl | hl
  · exact absurd hij (h i j hi hj hl)
  · exact hl
  · exact absurd hij.symm (h j i hj hi hl)

theorem nodup_filterMap_get : ∀ (pos : List Nat) {l : List κ}, l.Nodup → pos.Nodup →
    (pos.filterMap fun i => l[i]?).Nodup
  | [], _, _, _ => by simp
  | i :: pos, l, hl, hp => by
    rw [List.nodup_cons] at hp
    have ih := nodup_filterMap_get pos hl hp.2
    cases hi : l[i]? with
    | none => rw [List.filterMap_cons_none hi]; exact ih
    | some x =>
      rw [List.filterMap_cons_some hi, List.nodup_cons]
      refine ⟨?_, ih⟩
      intro hx
      obtain ⟨j, hj, hjx⟩ := List.mem_filterMap.mp hx
      obtain ⟨hi1, hi2⟩ := List.getElem?_eq_some_iff.mp hi
      obtain ⟨hj1, hj2⟩ := List.getElem?_eq_some_iff.mp hjx
      have := nodup_get_inj hl hi1 hj1 (hi2.trans hj2.symm)
      subst this
      exact hp.1 hj

/-- selecting by label from right dtypes -/
theorem MDtypes.lazyGet_fits [DecidableEq κ] {m r : MDtypes κ τ} {T T' : List (κ × τ)} (hT : (dictKeys T).Nodup)
    (h : m.Fits T) (hsub : ∀ e ∈ T', e ∈ T) (hr : m.lazyGet (dictKeys T') = .ok r) : r.Fits T' := by
  cases m with
  | series l =>
    have h : l.Perm T := h
    have hl : (dictKeys l).Nodup := (List.Perm.map (fun e : κ × τ => e.1) h).nodup_iff.mpr hT
    have : ∀ X : List (κ × τ), (∀ e ∈ X, e ∈ T) →
        (dictKeys X).mapM (fun c => (dictGet l c).map fun t => (c, t)) = some X := by
      intro X
      induction X with
      | nil => intro _; rfl
      | cons e X ih =>
        intro hX
        rw [dictKeys, List.map_cons, List.mapM_cons,
          (dictGet_some hl (v := e.2)).mpr (h.mem_iff.mpr (hX e (List.mem_cons_self ..)))]
        have := ih fun x hx => hX x (List.mem_cons_of_mem _ hx)
        rw [dictKeys] at this
        rw [this]
        rfl
    simp only [MDtypes.lazyGet] at hr
    simp only [this T' hsub, Except.ok.injEq] at hr
    subst hr
    exact List.Perm.refl _
  | desc d =>
    simp only [MDtypes.lazyGet] at hr
    cases hg : d.lazyGet (dictKeys T') with
    | error e => rw [hg] at hr; exact absurd hr (by simp [Except.map])
    | ok x =>
      rw [hg] at hr
      simp only [Except.map, Except.ok.injEq] at hr
      subst hr
      obtain ⟨h1, h2, h3, h4, h5⟩ := DDesc.lazyGet_describes hT h.1 hsub hg
      unfold MDtypes.ofDesc
      split
      · rename_i hs
        rw [h5 hs]
        exact List.Perm.refl _
      · refine ⟨h1, ?_⟩
        intro p _ ho
        rw [h2] at ho
        exact absurd ho (by simp)

/-- The dtypes cached as a `Series` are in the order of the columns. -/
def DFrame.InOrder (f : DFrame κ τ) : Prop := ∀ l, f.cache = some (.series l) → l = f.schema

theorem DFrame.readColumns_inOrder {f : DFrame κ τ} (h : f.InOrder) : f.readColumns.InOrder := by
  intro l hl
  cases hc : f.cache with
  | none => simp [DFrame.readColumns, hc] at hl
  | some m =>
    cases m with
    | series l' =>
      simp only [DFrame.readColumns, hc, Option.map_some, Option.some.injEq, MDtypes.series.injEq] at hl
      subst hl
      exact h _ hc
    | desc d => simp [DFrame.readColumns, hc] at hl

theorem DFrame.take_described [DecidableEq κ] {f r : DFrame κ τ} (h : f.Described) (ho : f.InOrder) {pos : List Nat}
    (hp : pos.Nodup) (hr : f.take pos = .ok r) :
    r.Described ∧ r.schema = pos.filterMap fun i => f.schema[i]? := by
  obtain ⟨g, gs⟩ := DFrame.readColumns_described h
  have go := DFrame.readColumns_inOrder ho
  unfold DFrame.take at hr
  simp only at hr
  generalize f.readColumns = f' at *
  rw [← gs]
  have hn : (dictKeys (pos.filterMap fun i => f'.schema[i]?)).Nodup := by
    rw [keys_filterMap]; exact nodup_filterMap_get pos g.nodup hp
  cases hc : f'.cache with
  | none =>
    rw [hc] at hr
    simp only [Except.bind] at hr
    obtain ⟨h1, h2, -⟩ := DFrame.build_described hn (by simp) hr
    exact ⟨h1, h2⟩
  | some m =>
    cases m with
    | series l =>
      rw [hc, go l hc] at hr
      simp only [Except.bind] at hr
      obtain ⟨h1, h2, -⟩ := DFrame.build_described hn (by
        intro x hx
        rw [Option.some.injEq] at hx
        subst hx
        exact List.Perm.refl _) hr
      exact ⟨h1, h2⟩
    | desc d =>
      rw [hc] at hr
      simp only at hr
      obtain ⟨d1, p, d2, d3⟩ := g.desc d hc
      cases hg : d.lazyGetAt pos with
      | error e =>
        rw [hg] at hr
        cases e <;> simp only [Except.bind, reduceCtorEq] at hr
        all_goals (obtain ⟨h1, h2, -⟩ := DFrame.build_described hn (by simp) hr; exact ⟨h1, h2⟩)
      | ok x =>
        rw [hg] at hr
        simp only [Except.bind] at hr
        unfold DDesc.lazyGetAt at hg
        split at hg
        · exact absurd hg (by simp)
        · obtain ⟨s1, s2, s3⟩ := DDesc.sync_fits g.nodup d1 (by
            intro q hq _
            rw [d2, Option.some.injEq] at hq
            rw [← hq, d3])
          cases hso : d.sync.order with
          | none => rw [hso] at hg; exact absurd hg (by simp)
          | some o =>
            rw [hso] at hg
            simp only at hg
            rw [(s1.order o hso).1] at hg
            cases hm : pos.mapM (fun i => (dictKeys f'.schema)[i]?) with
            | none => rw [hm] at hg; exact absurd hg (by simp)
            | some ids =>
              rw [hm] at hg
              simp only at hg
              rw [mapM_keys f'.schema pos ids hm] at hg
              have hfit := MDtypes.lazyGet_fits (m := .desc d.sync) (r := .ofDesc x) g.nodup ⟨s1, s3⟩
                (T' := pos.filterMap fun i => f'.schema[i]?)
                filterMap_mem (by simp only [MDtypes.lazyGet, hg, Except.map])
              obtain ⟨h1, h2, -⟩ := DFrame.build_described hn (by
                intro y hy
                rw [Option.some.injEq] at hy
                subst hy
                exact hfit) hr
              exact ⟨h1, h2⟩

theorem DFrame.syncCache_described [DecidableEq κ] {f : DFrame κ τ} (h : f.Described) :
    f.syncCache.Described ∧ f.syncCache.schema = f.schema := by
  refine ⟨⟨h.nodup, ?_, ?_⟩, rfl⟩
  · intro l hl
    cases hc : f.cache with
    | none => simp [DFrame.syncCache, hc] at hl
    | some m =>
      cases m with
      | series l' =>
        simp only [DFrame.syncCache, hc, Option.map_some, Option.some.injEq, MDtypes.series.injEq] at hl
        subst hl
        exact h.series _ hc
      | desc d => simp [DFrame.syncCache, hc] at hl
  · intro d hd
    cases hc : f.cache with
    | none => simp [DFrame.syncCache, hc] at hd
    | some m =>
      cases m with
      | series l' => simp [DFrame.syncCache, hc] at hd
      | desc d' =>
        simp only [DFrame.syncCache, hc, Option.map_some, Option.some.injEq, MDtypes.desc.injEq] at hd
        subst hd
        obtain ⟨h1, p, h2, h3⟩ := h.desc _ hc
        have hf := h.fits hc
        obtain ⟨g1, g2, -⟩ := DDesc.sync_fits h.nodup hf.1 hf.2
        exact ⟨g1, p, g2.trans h2, h3⟩

theorem DFrame.syncCache_inOrder [DecidableEq κ] {f : DFrame κ τ} (h : f.InOrder) : f.syncCache.InOrder := by
  intro l hl
  cases hc : f.cache with
  | none => simp [DFrame.syncCache, hc] at hl
  | some m =>
    cases m with
    | series l' =>
      simp only [DFrame.syncCache, hc, Option.map_some, Option.some.injEq, MDtypes.series.injEq] at hl
      subst hl
      exact h _ hc
    | desc d => simp [DFrame.syncCache, hc] at hl

theorem DFrame.reorder_described [DecidableEq κ] {f r : DFrame κ τ} (h : f.Described) (ho : f.InOrder) {pos : List Nat}
    (hp : pos.Nodup) (hr : f.reorder pos = .ok r) :
    r.Described ∧ r.schema = pos.filterMap fun i => f.schema[i]? := by
  obtain ⟨g0, gs0⟩ := DFrame.syncCache_described h
  obtain ⟨g, gs⟩ := DFrame.readColumns_described g0
  have go := DFrame.readColumns_inOrder (DFrame.syncCache_inOrder ho)
  unfold DFrame.reorder at hr
  cases hcc : f.copyCache with
  | error e => rw [hcc] at hr; exact absurd hr (by simp [Except.bind])
  | ok c =>
    rw [hcc] at hr
    simp only [Except.bind] at hr
    have hcn : f.syncCache.readColumns.cache = none → c = none := by
      intro hn
      unfold DFrame.copyCache at hcc
      cases hfc : f.cache with
      | none => rw [hfc] at hcc; simp only [Except.ok.injEq] at hcc; exact hcc.symm
      | some m => simp [DFrame.readColumns, DFrame.syncCache, hfc] at hn
    rw [gs0] at gs
    generalize f.syncCache.readColumns = f' at *
    rw [← gs]
    have hn : (dictKeys (pos.filterMap fun i => f'.schema[i]?)).Nodup := by
      rw [keys_filterMap]; exact nodup_filterMap_get pos g.nodup hp
    cases hc : f'.cache with
    | none =>
      rw [hc] at hr
      have := hcn hc
      subst this
      obtain ⟨h1, h2, -⟩ := DFrame.build_described hn (by simp) hr
      exact ⟨h1, h2⟩
    | some m =>
      cases m with
      | series l =>
        rw [hc, go l hc] at hr
        obtain ⟨h1, h2, -⟩ := DFrame.build_described hn (by
          intro x hx
          rw [Option.some.injEq] at hx
          subst hx
          exact List.Perm.refl _) hr
        exact ⟨h1, h2⟩
      | desc d =>
        rw [hc] at hr
        simp only at hr
        rw [← keys_filterMap] at hr
        cases hg : (MDtypes.desc d).lazyGet (dictKeys (pos.filterMap fun i => f'.schema[i]?)) with
        | error e =>
          rw [hg] at hr
          cases e <;> simp only [catchNotImplemented, reduceCtorEq] at hr
          obtain ⟨h1, h2, -⟩ := DFrame.build_described hn (by simp) hr
          exact ⟨h1, h2⟩
        | ok x =>
          rw [hg] at hr
          simp only [catchNotImplemented] at hr
          obtain ⟨h1, h2, -⟩ := DFrame.build_described hn (by
            intro y hy
            rw [Option.some.injEq] at hy
            subst hy
            exact MDtypes.lazyGet_fits g.nodup (g.fits hc) filterMap_mem hg) hr
          exact ⟨h1, h2⟩

theorem DFrame.rename_described [DecidableEq κ] {f r : DFrame κ τ} (h : f.Described) (ho : f.InOrder) {new : List κ}
    {isIndex : Bool} (hn : new.Nodup) (hl : new.length = f.schema.length) (hr : f.rename new isIndex = .ok r) :
    r.Described ∧ r.schema = new.zip (f.schema.map (·.2)) := by
  have hk : dictKeys (new.zip (f.schema.map (·.2))) = new := by
    rw [dictKeys, List.map_fst_zip (by simp [hl])]
  unfold DFrame.rename at hr
  rw [if_neg (by rintro ⟨_, h'⟩; exact h' hl)] at hr
  cases hc : f.cache with
  | none =>
    rw [hc] at hr
    simp only [Except.bind] at hr
    obtain ⟨h1, h2, -⟩ := DFrame.build_described (by rw [hk]; exact hn) (by simp) hr
    exact ⟨h1, h2⟩
  | some m =>
    rw [hc] at hr
    simp only at hr
    cases hs : m.setIndex new isIndex with
    | error e =>
      rw [hs] at hr
      cases e <;> simp only [catchNotImplemented, Except.bind, reduceCtorEq] at hr
      obtain ⟨h1, h2, -⟩ := DFrame.build_described (by rw [hk]; exact hn) (by simp) hr
      exact ⟨h1, h2⟩
    | ok x =>
      rw [hs] at hr
      simp only [catchNotImplemented, Except.bind] at hr
      have hx : x.Fits (new.zip (f.schema.map (·.2))) := by
        cases m with
        | series l =>
          simp only [MDtypes.setIndex] at hs
          simp only [ho l hc] at hs
          rw [if_pos hl] at hs
          simp only [Except.ok.injEq] at hs
          subst hs
          exact List.Perm.refl _
        | desc d =>
          simp only [MDtypes.setIndex] at hs
          cases hcp : d.copy with
          | error e => rw [hcp] at hs; exact absurd hs (by simp [Except.bind])
          | ok y =>
            rw [hcp] at hs
            simp only [Except.bind] at hs
            rw [DDesc.copy_ok hcp] at hs
            split at hs
            · exact absurd hs (by simp)
            · cases hsi : d.sync.setIndex new isIndex with
              | error e => rw [hsi] at hs; exact absurd hs (by simp [Except.map])
              | ok z =>
                rw [hsi] at hs
                simp only [Except.map, Except.ok.injEq] at hs
                subst hs
                obtain ⟨s1, -, s3⟩ := DDesc.sync_fits h.nodup (h.fits hc).1 (h.fits hc).2
                obtain ⟨g1, g2⟩ := DDesc.setIndex_describes h.nodup s1 (fun p a b _ => s3 p a b) hl hsi
                refine ⟨g1, ?_⟩
                intro p _ ho'
                rw [g2] at ho'
                exact absurd ho' (by simp)
      obtain ⟨h1, h2, -⟩ := DFrame.build_described (by rw [hk]; exact hn) (by
        intro y hy
        rw [Option.some.injEq] at hy
        subst hy
        exact hx) hr
      exact ⟨h1, h2⟩

/-! ### frames together -/

theorem DValue.of_describes {m : Option (MDtypes κ τ)} {T : List (κ × τ)} (h : ∀ x, m = some x → x.Fits T) :
    (DValue.of m).Describes T := by
  cases m with
  | none => trivial
  | some x =>
    have := h x rfl
    cases x with
    | series l => exact this
    | desc d => exact this.1

theorem copyCaches_fit [DecidableEq κ] : ∀ (fs : List (DFrame κ τ)) (cs : List (Option (MDtypes κ τ))),
    (∀ f ∈ fs, f.Described) → fs.mapM DFrame.copyCache = .ok cs →
    ∃ vs : List (DValue κ τ × List (κ × τ)), cs.map DValue.of = vs.map (·.1) ∧ vs.map (·.2) = fs.map (·.schema) ∧
      ∀ v ∈ vs, v.1.Describes v.2
  | [], cs, _, h => by
    simp only [List.mapM_nil, pure, Except.pure, Except.ok.injEq] at h
    subst h
    exact ⟨[], rfl, rfl, by simp⟩
  | f :: fs, cs, hf, h => by
    rw [List.mapM_cons] at h
    cases hc : f.copyCache with
    | error e => rw [hc] at h; exact absurd h (by simp [bind, Except.bind])
    | ok c =>
      rw [hc] at h
      cases hm : fs.mapM DFrame.copyCache with
      | error e => rw [hm] at h; exact absurd h (by simp [bind, Except.bind])
      | ok cs' =>
        rw [hm] at h
        simp only [bind, Except.bind, pure, Except.pure, Except.ok.injEq] at h
        subst h
        obtain ⟨vs, v1, v2, v3⟩ := copyCaches_fit fs cs' (fun g hg => hf g (List.mem_cons_of_mem _ hg)) hm
        refine ⟨(DValue.of c, f.schema) :: vs, by simp [v1], by simp [v2], ?_⟩
        intro v hv
        rw [List.mem_cons] at hv
        rcases hv with rfl | hv
        · exact DValue.of_describes (DFrame.copyCache_fits (hf f (List.mem_cons_self ..)) hc)
        · exact v3 v hv

theorem DFrame.beside_described [DecidableEq κ] [DecidableEq τ] {fs : List (DFrame κ τ)} (h : ∀ f ∈ fs, f.Described)
    (hn : (dictKeys (fs.flatMap (·.schema))).Nodup) {r : DFrame κ τ} (hr : DFrame.beside fs = .ok r) :
    r.Described ∧ r.schema = fs.flatMap (·.schema) := by
  unfold DFrame.beside at hr
  cases hm : fs.mapM DFrame.copyCache with
  | error e => rw [hm] at hr; exact absurd hr (by simp [Except.bind])
  | ok cs =>
    rw [hm] at hr
    simp only [Except.bind] at hr
    obtain ⟨vs, v1, v2, v3⟩ := copyCaches_fit fs cs h hm
    have hfl : vs.flatMap (·.2) = fs.flatMap (·.schema) := by rw [List.flatMap_def, v2, ← List.flatMap_def]
    unfold MDtypes.concat at hr
    rw [v1] at hr
    cases hd : DDesc.concat (vs.map (·.1)) with
    | error e =>
      rw [hd] at hr
      cases e <;> simp only [catchNotImplemented, Except.map, reduceCtorEq] at hr
      obtain ⟨h1, h2, -⟩ := DFrame.build_described hn (by simp) hr
      exact ⟨h1, h2⟩
    | ok d =>
      rw [hd] at hr
      simp only [catchNotImplemented, Except.map] at hr
      obtain ⟨d1, d2⟩ := DDesc.concat_describes vs (by rw [hfl]; exact hn) v3 hd
      rw [hfl] at d1
      obtain ⟨h1, h2, -⟩ := DFrame.build_described hn (by
        intro y hy
        rw [Option.some.injEq] at hy
        subst hy
        exact MDtypes.Fits.ofDesc hn d1 (by rw [d2]; simp)) hr
      exact ⟨h1, h2⟩

/-- the cached dtypes of a frame name every column that a later frame has too -/
def FramesNamed (fs : List (DFrame κ τ)) : Prop :=
  ∀ (i j : Nat) (f g : DFrame κ τ), i < j → fs[i]? = some f → fs[j]? = some g → ∀ c ∈ dictKeys f.schema,
    c ∈ dictKeys g.schema → ∀ d, f.cache = some (.desc d) → c ∈ dictKeys d.known ∨ c ∈ d.unknown

theorem FramesNamed.allNamed : ∀ (fs : List (DFrame κ τ)), FramesNamed fs →
    AllNamed (fs.map fun f => (DValue.of f.cache, f.schema))
  | [], _ => trivial
  | f :: fs, h => by
    refine ⟨?_, FramesNamed.allNamed fs fun i j a b hij ha hb => h (i + 1) (j + 1) a b (by omega) (by simpa using ha)
      (by simpa using hb)⟩
    show DValue.Named (DValue.of f.cache) f.schema _
    cases hca : f.cache with
    | none => trivial
    | some m =>
      cases m with
      | series l => trivial
      | desc d =>
        intro c hc R hR hcR
        rw [List.map_map] at hR
        obtain ⟨g, hg, rfl⟩ := List.mem_map.mp hR
        obtain ⟨k, hk, rfl⟩ := List.getElem_of_mem hg
        exact h 0 (k + 1) f fs[k] (by omega) rfl (by simp) c hc hcR d hca

theorem DFrame.stack_described [DecidableEq κ] (common : List τ → τ) (float : τ) {fs : List (DFrame κ τ)}
    (h : ∀ f ∈ fs, f.Described) (hnm : FramesNamed fs) {cols : List κ} (hn : cols.Nodup)
    (hc : ∀ c, c ∈ cols ↔ ∃ f ∈ fs, c ∈ dictKeys f.schema) {r : DFrame κ τ}
    (hr : DFrame.stack common float fs cols = .ok r) :
    r.Described ∧ r.schema = cols.map fun c => (c, stackedDtype common float (fs.map (·.schema)) c) := by
  have hk : dictKeys (cols.map fun c => (c, stackedDtype common float (fs.map (·.schema)) c)) = cols := by
    simp [dictKeys, List.map_map, Function.comp_def]
  unfold DFrame.stack MDtypes.merge at hr
  have e1 : (fs.map (·.cache)).map DValue.of = (fs.map fun f => (DValue.of f.cache, f.schema)).map (·.1) := by
    simp [List.map_map, Function.comp_def]
  have e2 : (fs.map fun f => (DValue.of f.cache, f.schema)).map (·.2) = fs.map (·.schema) := by
    simp [List.map_map, Function.comp_def]
  rw [e1] at hr
  cases hd : DDesc.merge common float ((fs.map fun f => (DValue.of f.cache, f.schema)).map (·.1)) with
  | error e => rw [hd] at hr; exact absurd hr (by simp [Except.bind, Except.map])
  | ok d =>
    rw [hd] at hr
    simp only [Except.bind, Except.map] at hr
    obtain ⟨d1, d2⟩ := DDesc.merge_describes common float (fs.map fun f => (DValue.of f.cache, f.schema)) (by
      intro v hv
      obtain ⟨f, hf, rfl⟩ := List.mem_map.mp hv
      exact ⟨(h f hf).nodup, DValue.of_describes fun x hx => (h f hf).fits hx⟩) hnm.allNamed cols (by
      intro c
      rw [hc]
      constructor
      · rintro ⟨f, hf, hcf⟩
        exact ⟨_, List.mem_map_of_mem hf, hcf⟩
      · rintro ⟨v, hv, hcv⟩
        obtain ⟨f, hf, rfl⟩ := List.mem_map.mp hv
        exact ⟨f, hf, hcv⟩) hd
    rw [e2] at d1
    obtain ⟨h1, h2, -⟩ := DFrame.build_described (by rw [hk]; exact hn) (by
      intro y hy
      rw [Option.some.injEq] at hy
      subst hy
      exact MDtypes.Fits.ofDesc (by rw [hk]; exact hn) d1 (by rw [d2]; simp)) hr
    exact ⟨h1, h2⟩

/-- a column with a known dtype put after the others, then all put in order -/
theorem concat_column [DecidableEq κ] [DecidableEq τ] {m : Option (MDtypes κ τ)} {T T' : List (κ × τ)} {c : κ} {t : τ}
    (hn : (dictKeys (T ++ [(c, t)])).Nodup) (h : ∀ x, m = some x → x.Fits T) (hsub : ∀ e ∈ T', e ∈ T ++ [(c, t)])
    {d r : DDesc κ τ} {y : MDtypes κ τ} (hd : DDesc.make [(c, t)] (some []) none none none true none = .ok d)
    (hr : DDesc.concat [DValue.of m, .desc d] = .ok r) (hy : (MDtypes.ofDesc r).lazyGet (dictKeys T') = .ok y) :
    y.Fits T' := by
  obtain ⟨-, -, -, h4, -⟩ := DDesc.make_ok hd
  have := h4 rfl
  rw [DDesc.sync_orphan (by rfl)] at this
  have hdd : d.Describes [(c, t)] := by
    rw [this]
    refine ⟨?_, by simp [DDesc.raw], by simp [DDesc.raw]⟩
    simp only [DDesc.raw, Option.getD_some, Option.getD_none]
    have := DtKnows.complete (T := [(c, t)]) (by simp [dictKeys]) (List.Perm.refl _)
    simpa using this
  obtain ⟨g1, g2⟩ := DDesc.concat_describes [(DValue.of m, T), (.desc d, [(c, t)])] (by simpa using hn) (by
    intro v hv
    simp only [List.mem_cons, List.not_mem_nil, or_false] at hv
    rcases hv with rfl | rfl
    · exact DValue.of_describes h
    · exact hdd) hr
  have e : ([(DValue.of m, T), (DValue.desc d, [(c, t)])] : List _).flatMap (·.2) = T ++ [(c, t)] := by simp
  rw [e] at g1
  exact MDtypes.lazyGet_fits hn (MDtypes.Fits.ofDesc hn g1 (by rw [g2]; simp)) hsub hy

theorem DFrame.insert_described [DecidableEq κ] [DecidableEq τ] {f r : DFrame κ τ} (h : f.Described) {loc : Nat} {c : κ}
    {t : τ} (hc : c ∉ dictKeys f.schema) (hr : f.insert loc c t t = .ok r) :
    r.Described ∧ r.schema = f.schema.take loc ++ (c, t) :: f.schema.drop loc := by
  obtain ⟨g, gs⟩ := DFrame.readColumns_described h
  unfold DFrame.insert at hr
  simp only at hr
  generalize f.readColumns = f' at *
  rw [← gs] at hc ⊢
  have hperm : (f'.schema.take loc ++ (c, t) :: f'.schema.drop loc).Perm (f'.schema ++ [(c, t)]) := by
    refine List.perm_middle.trans ?_
    rw [List.take_append_drop]
    exact (List.perm_append_comm (l₁ := [(c, t)]) (l₂ := f'.schema))
  have hn : (dictKeys (f'.schema ++ [(c, t)])).Nodup := by
    rw [dictKeys_append, List.nodup_append]
    refine ⟨g.nodup, by simp [dictKeys], ?_⟩
    intro a ha b hb hab
    simp only [dictKeys, List.map_cons, List.map_nil, List.mem_singleton] at hb
    subst hab
    subst hb
    exact hc ha
  have hn' : (dictKeys (f'.schema.take loc ++ (c, t) :: f'.schema.drop loc)).Nodup :=
    (List.Perm.map (fun e : κ × τ => e.1) hperm).nodup_iff.mpr hn
  cases hd : DDesc.make [(c, t)] (some []) none none none true none with
  | error e => rw [hd] at hr; exact absurd hr (by simp [Except.bind])
  | ok d =>
    rw [hd] at hr
    simp only [Except.bind] at hr
    cases hcat : DDesc.concat [DValue.of f'.cache, .desc d] with
    | error e => rw [hcat] at hr; exact absurd hr (by simp)
    | ok x =>
      rw [hcat] at hr
      simp only at hr
      cases hl : (MDtypes.ofDesc x).lazyGet (dictKeys (f'.schema.take loc ++ (c, t) :: f'.schema.drop loc)) with
      | error e => rw [hl] at hr; exact absurd hr (by simp)
      | ok y =>
        rw [hl] at hr
        simp only at hr
        have hy := concat_column hn (fun z hz => g.fits hz) (fun e he => hperm.mem_iff.mp he) hd hcat hl
        obtain ⟨h1, h2, -⟩ := DFrame.build_described hn' (by
          intro z hz
          rw [Option.some.injEq] at hz
          subst hz
          exact hy) hr
        exact ⟨h1, h2⟩

theorem DFrame.setItem_described [DecidableEq κ] [DecidableEq τ] {f r : DFrame κ τ} (h : f.Described) {c : κ}
    {t : τ} (hc : c ∈ dictKeys f.schema) (hr : f.setItem c t t = .ok r) :
    r.Described ∧ r.schema = f.schema.map fun e => if e.1 = c then (c, t) else e := by
  obtain ⟨g, gs⟩ := DFrame.readColumns_described h
  unfold DFrame.setItem at hr
  simp only at hr
  generalize f.readColumns = f' at *
  rw [← gs] at hc ⊢
  -- the other columns
  have hkeysR : dictKeys (f'.schema.filter fun e => decide (e.1 ≠ c)) =
      (dictKeys f'.schema).filter fun k => decide (k ≠ c) := by
    simp only [dictKeys, List.filter_map, Function.comp_def]
  have hkeysS : dictKeys (f'.schema.map fun e => if e.1 = c then (c, t) else e) = dictKeys f'.schema := by
    simp only [dictKeys, List.map_map]
    apply List.map_congr_left
    intro e _
    simp only [Function.comp_apply]
    split
    · rename_i he; exact he.symm
    · rfl
  have hsub : ∀ e ∈ (f'.schema.map fun e => if e.1 = c then (c, t) else e),
      e ∈ (f'.schema.filter fun e => decide (e.1 ≠ c)) ++ [(c, t)] := by
    intro e he
    obtain ⟨x, hx, rfl⟩ := List.mem_map.mp he
    rw [List.mem_append]
    by_cases hxc : x.1 = c
    · rw [if_pos hxc]; right; simp
    · rw [if_neg hxc]; left; exact List.mem_filter.mpr ⟨hx, by simpa using hxc⟩
  have hn : (dictKeys ((f'.schema.filter fun e => decide (e.1 ≠ c)) ++ [(c, t)])).Nodup := by
    rw [dictKeys_append, List.nodup_append, hkeysR]
    refine ⟨g.nodup.sublist List.filter_sublist, by simp [dictKeys], ?_⟩
    intro a ha b hb hab
    simp only [dictKeys, List.map_cons, List.map_nil, List.mem_singleton] at hb
    subst hab
    subst hb
    have := (List.mem_filter.mp ha).2
    simp at this
  cases hca : f'.cache with
  | none => rw [hca] at hr; exact absurd hr (by simp)
  | some m =>
    rw [hca] at hr
    simp only at hr
    cases hcp : m.copy with
    | error e => rw [hcp] at hr; exact absurd hr (by simp [Except.bind])
    | ok m0 =>
      rw [hcp] at hr
      simp only [Except.bind] at hr
      rw [← hkeysR] at hr
      cases hl0 : m0.lazyGet (dictKeys (f'.schema.filter fun e => decide (e.1 ≠ c))) with
      | error e => rw [hl0] at hr; exact absurd hr (by simp)
      | ok old =>
        rw [hl0] at hr
        simp only at hr
        have hold : old.Fits (f'.schema.filter fun e => decide (e.1 ≠ c)) :=
          MDtypes.lazyGet_fits g.nodup (MDtypes.copy_fits g.nodup (g.fits hca) hcp)
            (fun e he => (List.mem_filter.mp he).1) hl0
        cases hd : DDesc.make [(c, t)] (some []) none none none true none with
        | error e => rw [hd] at hr; exact absurd hr (by simp)
        | ok d =>
          rw [hd] at hr
          simp only at hr
          cases hcat : DDesc.concat [DValue.of (some old), .desc d] with
          | error e => rw [hcat] at hr; exact absurd hr (by simp)
          | ok x =>
            rw [hcat] at hr
            simp only at hr
            rw [← hkeysS] at hr
            cases hl : (MDtypes.ofDesc x).lazyGet
                (dictKeys (f'.schema.map fun e => if e.1 = c then (c, t) else e)) with
            | error e => rw [hl] at hr; exact absurd hr (by simp)
            | ok y =>
              rw [hl] at hr
              simp only at hr
              have hy := concat_column hn (fun z hz => by rw [Option.some.injEq] at hz; subst hz; exact hold) hsub hd hcat hl
              obtain ⟨h1, h2, -⟩ := DFrame.build_described (by rw [hkeysS]; exact g.nodup) (by
                intro z hz
                rw [Option.some.injEq] at hz
                subst hz
                exact hy) hr
              exact ⟨h1, h2⟩

/-- the set of dtypes -/
theorem DDesc.dtypesSet_right [DecidableEq κ] {d : DDesc κ τ} {T : List (κ × τ)} (hT : (dictKeys T).Nodup)
    (h : d.Describes T) {p : DParent κ τ} (hp : d.parent = some p) (hs : p.schema = T) :
    ∃ l, d.dtypesSet = .ok l ∧ (∀ e ∈ T, e.2 ∈ l) ∧ ∀ t ∈ l, d.remaining = some t ∨ ∃ e ∈ T, e.2 = t := by
  have main : ∀ x : DDesc κ τ, DtKnows T x.known [] d.remaining true d.schemaKnown → x.remaining = d.remaining →
      (∀ e ∈ T, e.2 ∈ x.known.map (·.2) ++ x.remaining.toList) ∧
      ∀ t ∈ x.known.map (·.2) ++ x.remaining.toList, d.remaining = some t ∨ ∃ e ∈ T, e.2 = t := by
    intro x hx hr
    rw [hr]
    constructor
    · intro e he
      rw [List.mem_append]
      by_cases hk : e.1 ∈ dictKeys x.known
      · obtain ⟨v, hv⟩ := mem_dictKeys.mp hk
        have := nodup_unique hT (hx.kt _ hv) he
        subst this
        exact Or.inl (List.mem_map_of_mem hv)
      · right
        rw [hx.rest rfl e he hk (by simp)]
        simp
    · intro t ht
      rw [List.mem_append] at ht
      rcases ht with ht | ht
      · obtain ⟨e, he, rfl⟩ := List.mem_map.mp ht
        exact Or.inr ⟨e, hx.kt e he, rfl⟩
      · left
        rwa [Option.mem_toList] at ht
  unfold DDesc.dtypesSet
  simp only
  split
  · rename_i hc
    rw [Bool.and_eq_true, List.isEmpty_iff] at hc
    have hk := h.knows
    rw [hc.1, hc.2] at hk
    obtain ⟨m1, m2⟩ := main d hk rfl
    exact ⟨_, rfl, m1, m2⟩
  · rw [hp]
    simp only
    obtain ⟨r, e, k1, k2, -⟩ := DDesc.materializeUnknown_ok hT h.knows p hs
    rw [e]
    obtain ⟨m1, m2⟩ := main r k1 k2
    exact ⟨_, rfl, m1, m2⟩
