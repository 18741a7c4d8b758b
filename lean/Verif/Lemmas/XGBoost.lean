import Verif.Pandas.XGBoost
import Verif.Lemmas.Partitions
/-
Lemmas about sharing out row partitions to actors.
-/

variable {ι κ α β A P V : Type}

/-- everything in a dict of lists -/
def ddAll (d : List (A × List V)) : List V := (d.map (·.2)).flatten

theorem ddAll_set [DecidableEq A] (d : List (A × List V)) (k : A) (l t : List V) (h : (ddGet d k).Perm (t ++ l)) :
    (ddAll d).Perm (t ++ ddAll (ddSet d k l)) := by
  induction d with
  | nil =>
    have h : ([] : List V).Perm (t ++ l) := h
    have := List.nil_perm.1 h
    simp [List.append_eq_nil_iff.1 this, ddAll, ddSet]
  | cons e es ih =>
    unfold ddGet at h
    unfold ddSet
    split
    · rename_i he
      rw [if_pos he] at h
      simp only [ddAll, List.map_cons, List.flatten_cons]
      rw [← List.append_assoc]
      exact h.append_right _
    · rename_i he
      rw [if_neg he] at h
      have := ih h
      simp only [ddAll, List.map_cons, List.flatten_cons] at this ⊢
      refine (this.append_left e.2).trans ?_
      rw [← List.append_assoc, ← List.append_assoc]
      exact List.perm_append_comm.append_right _

theorem ddAll_append [DecidableEq A] (d : List (A × List V)) (k : A) (v : V) :
    (ddAll (ddAppend d k v)).Perm (ddAll d ++ [v]) := by
  induction d with
  | nil => exact List.Perm.refl _
  | cons e es ih =>
    unfold ddAppend ddSet ddGet
    by_cases he : e.1 = k
    · simp only [he, ↓reduceIte, ddAll, List.map_cons, List.flatten_cons, List.append_assoc]
      exact List.perm_append_comm.append_left _
    · simp only [he, ↓reduceIte, ddAll, List.map_cons, List.flatten_cons, List.append_assoc]
      exact ih.append_left _

theorem ddAll_of [DecidableEq A] (l : List (A × V)) : (ddAll (ddOf l)).Perm (l.map (·.2)) := by
  suffices h : ∀ (d : List (A × List V)), (ddAll (l.foldl (fun d e => ddAppend d e.1 e.2) d)).Perm (ddAll d ++ l.map (·.2)) by
    simpa [ddAll, ddOf] using h []
  induction l with
  | nil => intro d; simp
  | cons e es ih =>
    intro d
    rw [List.foldl_cons]
    refine (ih _).trans ?_
    refine ((ddAll_append d e.1 e.2).append_right _).trans ?_
    rw [List.append_assoc]
    exact List.Perm.refl _

theorem ddAll_filter (d : List (A × List V)) : ((d.filter fun e => e.2.length ≠ 0).map (·.2)).flatten = ddAll d := by
  induction d with
  | nil => rfl
  | cons e es ih =>
    unfold ddAll at ih ⊢
    cases he : e.2 with
    | nil => simp [he]; simpa using ih
    | cons x xs => simp [he]; simpa using ih

/-- the sum of what the lists have beyond `mn` items -/
def excess (mn : Nat) (given : List (List V)) : Nat := (given.map fun l => l.length - mn).sum

/-- an actor with nothing gets something -/
theorem modify_empty {given : List (List V)} {r : Nat} (h : given[r]? = some []) (t : List V) :
    ∃ a b, given = a ++ [] :: b ∧ given.modify r (· ++ t) = a ++ t :: b := by
  refine ⟨given.take r, given.drop (r + 1), ?_, ?_⟩
  · obtain ⟨hr, hg⟩ := List.getElem?_eq_some_iff.1 h
    rw [← hg, List.getElem_cons_drop, List.take_append_drop]
  · obtain ⟨hr, hg⟩ := List.getElem?_eq_some_iff.1 h
    rw [List.modify_eq_take_cons_drop hr, hg]
    rfl

/-- what holds while partitions are shared out: `todo` are the ranks still to come, `left` the partitions not yet given -/
structure Sharing (all : List V) (n mn mx M : Nat) (todo : List Nat) (left : List V) (given : List (List V)) (w : Nat) : Prop where
  len : given.length = n
  empty : ∀ r ∈ todo, given[r]? = some []
  le : ∀ l ∈ given, l.length ≤ mx
  exc : excess mn given + w = M
  perm : all.Perm (given.flatten ++ left)

theorem Sharing.give {all : List V} {n mn mx M : Nat} {r : Nat} {todo : List Nat} {left left' t : List V} {given : List (List V)} {w w' : Nat}
    (h : Sharing all n mn mx M (r :: todo) left given w) (hr : r ∉ todo) (ht : t.length ≤ mx) (hw : t.length - mn + w' = w)
    (hl : left.Perm (t ++ left')) : Sharing all n mn mx M todo left' (given.modify r (· ++ t)) w' := by
  obtain ⟨a, b, e1, e2⟩ := modify_empty (h.empty r (by simp)) t
  refine ⟨by rw [List.length_modify]; exact h.len, ?_, ?_, ?_, ?_⟩
  · intro r' hr'
    have hne : r ≠ r' := fun he => hr (he ▸ hr')
    have := h.empty r' (by simp [hr'])
    rw [List.getElem?_modify, this]
    simp [hne]
  · intro l hl'
    rw [e2] at hl'
    rcases List.mem_append.1 hl' with hl' | hl'
    · exact h.le l (by rw [e1]; simp [hl'])
    · rcases List.mem_cons.1 hl' with rfl | hl'
      · exact ht
      · exact h.le l (by rw [e1]; simp [hl'])
  · have := h.exc
    rw [e1] at this
    rw [e2]
    simp only [excess, List.map_append, List.map_cons, List.sum_append, List.sum_cons, List.length_nil, Nat.zero_sub] at this ⊢
    omega
  · refine h.perm.trans ?_
    rw [e2]
    conv => lhs; rw [e1]
    simp only [List.flatten_append, List.flatten_cons, List.nil_append, List.append_assoc]
    refine List.Perm.append_left _ ?_
    refine (hl.append_left _).trans ?_
    rw [← List.append_assoc, ← List.append_assoc]
    exact List.perm_append_comm.append_right _

theorem Sharing.skip {all : List V} {n mn mx M : Nat} {todo todo' : List Nat} {left : List V} {given : List (List V)} {w : Nat}
    (h : Sharing all n mn mx M todo left given w) (ht : ∀ r ∈ todo', r ∈ todo) : Sharing all n mn mx M todo' left given w :=
  ⟨h.len, fun r hr => h.empty r (ht r hr), h.le, h.exc, h.perm⟩

theorem Sharing.perm' {all : List V} {n mn mx M : Nat} {todo : List Nat} {left left' : List V} {given : List (List V)} {w : Nat}
    (h : Sharing all n mn mx M todo left given w) (hl : left.Perm left') : Sharing all n mn mx M todo left' given w :=
  ⟨h.len, h.empty, h.le, h.exc, h.perm.trans (hl.append_left _)⟩

theorem fillNode_sharing {all : List V} {n mn mx M : Nat} (h1 : mn ≤ mx) (h2 : 0 < M → mx = mn + 1) (rest : List V) (later : List Nat) :
    ∀ (ranks : List Nat) (pool : List V) (given : List (List V)) (w : Nat), (ranks ++ later).Nodup →
    Sharing all n mn mx M (ranks ++ later) (pool ++ rest) given w →
    Sharing all n mn mx M later ((fillNode mn mx ranks pool given w).1 ++ rest) (fillNode mn mx ranks pool given w).2.1
      (fillNode mn mx ranks pool given w).2.2 := by
  intro ranks
  induction ranks with
  | nil => intro pool given w _ h; exact h
  | cons r rs ih =>
    intro pool given w hnd h
    rw [List.cons_append, List.nodup_cons] at hnd
    rw [List.cons_append] at h
    unfold fillNode
    have hperm : ∀ k, (pool ++ rest).Perm (pool.take k ++ (pool.drop k ++ rest)) := by
      intro k
      rw [← List.append_assoc, List.take_append_drop]
    split
    · exact h.skip (by intro x hx; simp [hx])
    · split
      · split
        · rename_i hne hmn hmx
          apply ih _ _ _ hnd.2
          refine h.give hnd.1 (by simp; omega) ?_ (hperm mx)
          have hM : 0 < M := by have := h.exc; omega
          rw [List.length_take, Nat.min_eq_left hmx.1, h2 hM]
          omega
        · rename_i hne hmn hmx
          apply ih _ _ _ hnd.2
          refine h.give hnd.1 (by simp; omega) ?_ (hperm mn)
          rw [List.length_take, Nat.min_eq_left hmn]
          omega
      · rename_i hne hmn
        apply ih _ _ _ hnd.2
        refine h.give hnd.1 (by omega) (by omega) ?_
        simp

theorem fillNodes_sharing [DecidableEq A] {all : List V} {n mn mx M : Nat} (h1 : mn ≤ mx) (h2 : 0 < M → mx = mn + 1) :
    ∀ (es : List (A × List Nat)) (dist : List (A × List V)) (given : List (List V)) (w : Nat), (ddAll es).Nodup →
    Sharing all n mn mx M (ddAll es) (ddAll dist) given w →
    Sharing all n mn mx M [] (ddAll (fillNodes mn mx es dist given w).1) (fillNodes mn mx es dist given w).2.1
      (fillNodes mn mx es dist given w).2.2 := by
  intro es
  induction es with
  | nil => intro dist given w _ h; exact h
  | cons e es ih =>
    intro dist given w hnd h
    obtain ⟨ip, ranks⟩ := e
    have hall : ddAll ((ip, ranks) :: es) = ranks ++ ddAll es := rfl
    rw [hall] at hnd h
    unfold fillNodes
    have hp : (ddAll dist).Perm (ddGet dist ip ++ ddAll (ddSet dist ip [])) :=
      ddAll_set dist ip [] (ddGet dist ip) (by simp)
    have hf := fillNode_sharing h1 h2 (ddAll (ddSet dist ip [])) (ddAll es) ranks _ given w hnd (h.perm' hp)
    apply ih _ _ _ (List.nodup_append.1 hnd).2.1
    refine hf.perm' ?_
    generalize (fillNode mn mx ranks (ddGet dist ip) given w).1 = pool'
    clear hf h hp hall hnd
    induction dist with
    | nil => simp [ddAll, ddSet]
    | cons x xs ih2 =>
      unfold ddSet
      split
      · simp [ddAll]
      · simp only [ddAll, List.map_cons, List.flatten_cons] at ih2 ⊢
        refine List.Perm.trans ?_ (ih2.append_left x.2)
        rw [← List.append_assoc, ← List.append_assoc]
        exact List.perm_append_comm.append_right _

/-- The second round: everything left is used up, and every actor ends with one of the two sizes. -/
theorem topUp_spec {mn mx : Nat} (h1 : mn ≤ mx) :
    ∀ (given : List (List V)) (pool : List V) (w : Nat), (∀ l ∈ given, l.length ≤ mx) → (0 < excess mn given + w → mx = mn + 1) →
    (given.map List.length).sum + pool.length = given.length * mn + excess mn given + w → excess mn given + w ≤ given.length →
    (topUp mn mx given pool w).2 = [] ∧ (topUp mn mx given pool w).1.length = given.length ∧
    (topUp mn mx given pool w).1.flatten.Perm (given.flatten ++ pool) ∧
    ∀ l ∈ (topUp mn mx given pool w).1, l.length = mn ∨ l.length = mx := by
  intro given
  induction given with
  | nil =>
    intro pool w _ _ hs hw
    simp only [excess, List.map_nil, List.sum_nil, List.length_nil, Nat.zero_mul, Nat.zero_add] at hs hw
    have : pool = [] := List.length_eq_zero_iff.1 (by omega)
    subst this
    simp [topUp]
  | cons l ls ih =>
    intro pool w hle hmx hs hw
    have hl := hle l (by simp)
    have hle' : ∀ x ∈ ls, x.length ≤ mx := fun x hx => hle x (by simp [hx])
    have hex : excess mn (l :: ls) = (l.length - mn) + excess mn ls := by simp [excess]
    rw [hex] at hmx hs hw
    simp only [List.map_cons, List.sum_cons, List.length_cons, Nat.add_mul, Nat.one_mul] at hs hw
    have hexls : ∀ (ls : List (List V)), (∀ x ∈ ls, x.length ≤ mx) → ls.length * mn + excess mn ls ≥ (ls.map List.length).sum := by
      intro ls _
      induction ls with
      | nil => simp
      | cons x xs ih => 
        have := ih (by intro y hy; rename_i h; exact h y (by simp [hy]))
        simp only [excess, List.map_cons, List.sum_cons, List.length_cons, Nat.add_mul, Nat.one_mul] at this ⊢
        omega
    have hels := hexls ls hle'
    have h1ls : mx ≤ mn + 1 → excess mn ls ≤ ls.length := by
      intro hm
      clear hs hw hels hmx ih hexls hex hle
      induction ls with
      | nil => simp [excess]
      | cons x xs ih2 =>
        have := ih2 (fun y hy => hle' y (by simp [hy]))
        have hx := hle' x (by simp)
        simp only [excess, List.map_cons, List.sum_cons, List.length_cons] at this ⊢
        omega
    unfold topUp
    split
    · rename_i hc
      have := ih pool w hle' (by intro hp; exact hmx (by omega)) (by omega) (by omega)
      obtain ⟨a1, a2, a3, a4⟩ := this
      refine ⟨a1, by simp [a2], ?_, ?_⟩
      · simp only [List.flatten_cons, List.append_assoc]
        exact a3.append_left _
      · intro x hx
        rcases List.mem_cons.1 hx with rfl | hx
        · rcases hc with hc | hc
          · exact Or.inr hc
          · exact Or.inl hc.1
        · exact a4 x hx
    · rename_i hc
      split
      · rename_i hw0
        have hm := hmx (by omega)
        have hlen : l.length ≤ mn := by omega
        have htake : mx - l.length ≤ pool.length := by omega
        have := ih (pool.drop (mx - l.length)) (w - 1) hle' (by intro _; exact hm)
          (by rw [List.length_drop]; omega) (by omega)
        obtain ⟨a1, a2, a3, a4⟩ := this
        refine ⟨a1, by simp [a2], ?_, ?_⟩
        · simp only [List.flatten_cons, List.append_assoc]
          refine List.Perm.append_left _ ?_
          refine (a3.append_left _).trans ?_
          rw [← List.append_assoc]
          refine (List.perm_append_comm.append_right _).trans ?_
          rw [List.append_assoc, List.take_append_drop]
        · intro x hx
          rcases List.mem_cons.1 hx with rfl | hx
          · right
            simp only [List.length_append, List.length_take]
            omega
          · exact a4 x hx
      · rename_i hw0
        have hlen : l.length < mn := by
          by_cases hgt : mn < l.length
          · have := hmx (by omega); omega
          · omega
        have htake : mn - l.length ≤ pool.length := by omega
        have := ih (pool.drop (mn - l.length)) w hle' (by intro hp; exact hmx (by omega))
          (by rw [List.length_drop]; omega) (by
            by_cases hp : 0 < excess mn ls + w
            · exact Nat.le_trans (by omega) (h1ls (by have := hmx (by omega); omega))
            · omega)
        obtain ⟨a1, a2, a3, a4⟩ := this
        refine ⟨a1, by simp [a2], ?_, ?_⟩
        · simp only [List.flatten_cons, List.append_assoc]
          refine List.Perm.append_left _ ?_
          refine (a3.append_left _).trans ?_
          rw [← List.append_assoc]
          refine (List.perm_append_comm.append_right _).trans ?_
          rw [List.append_assoc, List.take_append_drop]
        · intro x hx
          rcases List.mem_cons.1 hx with rfl | hx
          · left
            simp only [List.length_append, List.length_take]
            omega
          · exact a4 x hx

/-- sizes: `n` actors, `N` partitions -/
theorem share_sizes (N n : Nat) (hn : 0 < n) :
    N / n ≤ (N + n - 1) / n ∧ (0 < N % n → (N + n - 1) / n = N / n + 1) ∧ N = n * (N / n) + N % n ∧ N % n < n := by
  have hd := Nat.div_add_mod N n
  have hm := Nat.mod_lt N hn
  refine ⟨Nat.div_le_div_right (by omega), ?_, hd.symm, hm⟩
  intro h
  generalize N / n = q at hd ⊢
  generalize N % n = r at hd hm h
  have e : N + n - 1 = n * (q + 1) + (r - 1) := by rw [Nat.mul_add]; omega
  have h0 : (r - 1) / n = 0 := Nat.div_eq_of_lt (by omega)
  rw [e, Nat.mul_add_div hn, h0, Nat.add_zero]

theorem flatten_length_sum (l : List (List V)) : l.flatten.length = (l.map List.length).sum := by
  rw [List.length_flatten]

/-- What the two rounds give, whatever the numbers of actors and partitions. -/
theorem rounds_spec [DecidableEq A] (actors : List A) (parts : List (A × P)) (hn : 0 < actors.length) :
    let s := fillNodes (parts.length / actors.length) ((parts.length + actors.length - 1) / actors.length) (ddOf actors.zipIdx)
      (ddOf (parts.zipIdx.map fun e => (e.1.1, (e.1.2, e.2)))) (List.replicate actors.length []) (parts.length % actors.length)
    let r := topUp (parts.length / actors.length) ((parts.length + actors.length - 1) / actors.length) s.2.1
      ((s.1.filter fun e => e.2.length ≠ 0).map (·.2)).flatten s.2.2
    r.2 = [] ∧ r.1.length = actors.length ∧ r.1.flatten.Perm ((parts.map (·.2)).zipIdx) ∧
      ∀ l ∈ r.1, l.length = parts.length / actors.length ∨ l.length = (parts.length + actors.length - 1) / actors.length := by
  intro s r
  obtain ⟨h1, h2, h3, h4⟩ := share_sizes parts.length actors.length hn
  have hall : (ddAll (ddOf (parts.zipIdx.map fun e => (e.1.1, (e.1.2, e.2))))).Perm ((parts.map (·.2)).zipIdx) := by
    refine (ddAll_of _).trans ?_
    rw [List.map_map, List.zipIdx_map]
    exact List.Perm.refl _
  have hranks : (ddAll (ddOf actors.zipIdx)).Perm (List.range actors.length) := by
    refine (ddAll_of _).trans ?_
    rw [show (actors.zipIdx.map (·.2)) = List.range actors.length by
      rw [List.zipIdx_map_snd, List.range_eq_range']]
  have h0 : Sharing ((parts.map (·.2)).zipIdx) actors.length (parts.length / actors.length)
      ((parts.length + actors.length - 1) / actors.length) (parts.length % actors.length) (ddAll (ddOf actors.zipIdx))
      (ddAll (ddOf (parts.zipIdx.map fun e => (e.1.1, (e.1.2, e.2))))) (List.replicate actors.length [])
      (parts.length % actors.length) := by
    refine ⟨by simp, ?_, ?_, ?_, ?_⟩
    · intro x hx
      have := List.mem_range.1 (hranks.mem_iff.1 hx)
      simp [this]
    · intro l hl
      rw [(List.mem_replicate.1 hl).2]
      simp
    · simp [excess]
    · simpa using hall.symm
  have hs := fillNodes_sharing h1 h2 (ddOf actors.zipIdx) _ _ _ (hranks.nodup_iff.2 List.nodup_range) h0
  have hleft : ((s.1.filter fun e => e.2.length ≠ 0).map (·.2)).flatten = ddAll s.1 := ddAll_filter s.1
  have hsum : (s.2.1.map List.length).sum + (ddAll s.1).length = parts.length := by
    have := hs.perm.length_eq
    simp only [List.length_zipIdx, List.length_map, List.length_append, List.length_flatten] at this
    exact this.symm
  have hexc : excess (parts.length / actors.length) s.2.1 + s.2.2 = parts.length % actors.length := hs.exc
  have hlen : s.2.1.length = actors.length := hs.len
  have := topUp_spec h1 s.2.1 (ddAll s.1) s.2.2 hs.le (by rw [hexc]; exact h2)
    (by rw [hsum, hlen, Nat.add_assoc, hexc]; exact h3) (by rw [hexc, hlen]; omega)
  show (topUp _ _ s.2.1 ((s.1.filter fun e => e.2.length ≠ 0).map (·.2)).flatten s.2.2).2 = [] ∧
    (topUp _ _ s.2.1 ((s.1.filter fun e => e.2.length ≠ 0).map (·.2)).flatten s.2.2).1.length = _ ∧
    (topUp _ _ s.2.1 ((s.1.filter fun e => e.2.length ≠ 0).map (·.2)).flatten s.2.2).1.flatten.Perm _ ∧
    ∀ l ∈ (topUp _ _ s.2.1 ((s.1.filter fun e => e.2.length ≠ 0).map (·.2)).flatten s.2.2).1, _
  rw [hleft]
  obtain ⟨a1, a2, a3, a4⟩ := this
  exact ⟨a1, a2.trans hlen, a3.trans hs.perm.symm, a4⟩

theorem exists_short (l : List (List V)) (h : l.flatten.length < l.length) : l.any (·.isEmpty) = true := by
  induction l with
  | nil => simp at h
  | cons x xs ih =>
    cases x with
    | nil => simp
    | cons a as =>
      simp only [List.flatten_cons, List.length_append, List.length_cons] at h
      simp only [List.any_cons, List.isEmpty_cons, Bool.false_or]
      exact ih (by omega)

/-- **Sharing out.** It succeeds exactly if there are at least as many partitions as actors; then every partition goes to one actor, and
    no two actors differ by more than one partition. -/
theorem assign_spec [DecidableEq A] (actors : List A) (parts : List (A × P)) (hn : 0 < actors.length) :
    (actors.length ≤ parts.length → ∃ R, assignRowPartitions actors parts = some R ∧ R.length = actors.length ∧
      R.flatten.Perm ((parts.map (·.2)).zipIdx) ∧ (∀ l ∈ R, l ≠ []) ∧
      ∀ l ∈ R, l.length = parts.length / actors.length ∨ l.length = (parts.length + actors.length - 1) / actors.length) ∧
    (parts.length < actors.length → assignRowPartitions actors parts = none) := by
  obtain ⟨a1, a2, a3, a4⟩ := rounds_spec actors parts hn
  have hl := a3.length_eq
  rw [List.length_zipIdx, List.length_map] at hl
  constructor
  · intro hle
    unfold assignRowPartitions
    rw [if_neg (by omega)]
    simp only
    rw [if_neg (by rw [a1]; simp)]
    have hpos : 0 < parts.length / actors.length := Nat.div_pos hle hn
    have hne : ∀ l ∈ (topUp (parts.length / actors.length) ((parts.length + actors.length - 1) / actors.length)
        (fillNodes (parts.length / actors.length) ((parts.length + actors.length - 1) / actors.length) (ddOf actors.zipIdx)
          (ddOf (parts.zipIdx.map fun e => (e.1.1, (e.1.2, e.2)))) (List.replicate actors.length []) (parts.length % actors.length)).2.1
        (((fillNodes (parts.length / actors.length) ((parts.length + actors.length - 1) / actors.length) (ddOf actors.zipIdx)
          (ddOf (parts.zipIdx.map fun e => (e.1.1, (e.1.2, e.2)))) (List.replicate actors.length []) (parts.length % actors.length)).1.filter
            fun e => e.2.length ≠ 0).map (·.2)).flatten
        (fillNodes (parts.length / actors.length) ((parts.length + actors.length - 1) / actors.length) (ddOf actors.zipIdx)
          (ddOf (parts.zipIdx.map fun e => (e.1.1, (e.1.2, e.2)))) (List.replicate actors.length [])
            (parts.length % actors.length)).2.2).1, l ≠ [] := by
      intro l hm he
      subst he
      have hge : parts.length / actors.length ≤ (parts.length + actors.length - 1) / actors.length := (share_sizes _ _ hn).1
      rcases a4 [] hm with h | h
      · simp at h; omega
      · simp only [List.length_nil] at h; omega
    rw [if_neg]
    · exact ⟨_, rfl, a2, a3, hne, a4⟩
    · simp only [List.any_eq_true, not_exists, not_and]
      intro l hm
      simpa using hne l hm
  · intro hlt
    unfold assignRowPartitions
    split
    · rfl
    · simp only
      rw [if_neg (by rw [a1]; simp), if_pos (exists_short _ (by rw [hl, a2]; exact hlt))]

theorem zip_flatMap {E X Y : Type} (l : List E) (f : E → List X) (g : E → List Y) (h : ∀ e ∈ l, (f e).length = (g e).length) :
    (l.flatMap f).zip (l.flatMap g) = l.flatMap fun e => (f e).zip (g e) := by
  induction l with
  | nil => rfl
  | cons e es ih =>
    simp only [List.flatMap_cons]
    rw [List.zip_append (h e (by simp)), ih (fun x hx => h x (by simp [hx]))]

theorem zip_map_self {X Y : Type} (l : List X) (f : X → Y) : l.zip (l.map f) = l.map fun x => (x, f x) := by
  induction l with
  | nil => rfl
  | cons a as ih => simp only [List.map_cons, List.zip_cons_cons, ih]

theorem flatten_flatMap' {X Y : Type} (l : List (List X)) (f : X → List Y) :
    (l.map fun x => x.flatMap f).flatten = l.flatten.flatMap f := by
  induction l with
  | nil => rfl
  | cons a as ih => simp only [List.map_cons, List.flatten_cons, List.flatMap_append, ih]

/-- the second halves of the pieces an actor gets -/
def labelAt (ys : List (Frame ι κ α)) (i : Nat) : Frame ι κ α := ys[i]?.getD ⟨[], [], []⟩

theorem actorDMatrix_spec [DecidableEq κ] (l : List (Frame ι κ α × Nat)) (g : Nat → Frame ι κ α) (c c' : List κ) (hne : l ≠ [])
    (hx : ∀ e ∈ l, e.1.columns = c) (hy : ∀ e ∈ l, (g e.2).columns = c') (hl : ∀ e ∈ l, e.1.rows.length = (g e.2).rows.length) :
    actorDMatrix (l.map (·.1) ++ l.map fun e => g e.2) = some (l.flatMap fun e => e.1.rows.zip (g e.2).rows) := by
  unfold actorDMatrix
  have h1 : (l.map (·.1) ++ l.map fun e => g e.2).length / 2 = (l.map (·.1)).length := by simp; omega
  have hlen : 0 < l.length := List.length_pos_iff.2 hne
  simp only
  rw [h1, List.take_left', List.drop_left', if_pos (by simp; omega), Frame.vcat_eq (c := c) (by simpa using hne),
    Option.bind_some, Frame.vcat_eq (c := c') (by simpa using hne), Option.bind_some]
  · have e1 : ((l.map (·.1)).map (·.rows)).flatten = l.flatMap fun e => e.1.rows := by
      rw [List.map_map]; rfl
    have e2 : ((l.map fun e => g e.2).map (·.rows)).flatten = l.flatMap fun e => (g e.2).rows := by
      rw [List.map_map]; rfl
    simp only [e1, e2]
    rw [if_pos, zip_flatMap l _ _ hl]
    simp only [List.length_flatMap]
    congr 1
    exact List.map_congr_left hl
  · intro x hx'
    obtain ⟨e, he, rfl⟩ := List.mem_map.1 hx'
    exact hy e he
  · intro x hx'
    obtain ⟨e, he, rfl⟩ := List.mem_map.1 hx'
    exact hx e he
  · rfl
  · rfl

theorem map_labelAt (xs ys : List (Frame ι κ α)) (h : xs.length = ys.length) : xs.zipIdx.map (fun e => labelAt ys e.2) = ys := by
  apply List.ext_getElem
  · simp [h]
  · intro i h1 h2
    simp [labelAt, h2]

/-- **The data of the actors.** All of them together hold the training set. -/
theorem splitData_spec [DecidableEq A] [DecidableEq κ] {d : DMat ι κ α A} {x y : Frame ι κ α} (h : d.Of x y) (actors : List A)
    (hn : 0 < actors.length) (hle : actors.length ≤ d.data.length) :
    ∃ D, splitData actors d = some D ∧ D.length = actors.length ∧ D.flatten.Perm (trainingSet x y) := by
  obtain ⟨ys, hlab, hywf, hyv, hh⟩ := h.label
  obtain ⟨hxwf, hxv⟩ := h.data
  obtain ⟨_, hxc, hxs⟩ := vcat_parts hxv
  obtain ⟨_, hyc, hys⟩ := vcat_parts hyv
  obtain ⟨R, hR, hRl, hRp, hRne, _⟩ := (assign_spec actors d.data hn).1 hle
  have hlen : d.xs.length = ys.length := by simpa using (congrArg List.length hh).symm
  have hmem : ∀ l ∈ R, ∀ e ∈ l, e ∈ d.xs.zipIdx := by
    intro l hl e he
    exact hRp.mem_iff.1 (List.mem_flatten.2 ⟨l, hl, he⟩)
  have hget : ∀ e ∈ d.xs.zipIdx, e.2 < d.xs.length ∧ d.xs[e.2]? = some e.1 := by
    intro e he
    obtain ⟨h1, h2⟩ := List.mem_zipIdx' (x := e.1) (i := e.2) he
    exact ⟨h1, by rw [List.getElem?_eq_getElem h1, h2]⟩
  have hlabel : ∀ e ∈ d.xs.zipIdx, ys[e.2]? = some (labelAt ys e.2) ∧ labelAt ys e.2 ∈ ys ∧
      e.1.rows.length = (labelAt ys e.2).rows.length := by
    intro e he
    obtain ⟨h1, h2⟩ := hget e he
    have h3 : e.2 < ys.length := by omega
    have h4 : labelAt ys e.2 = ys[e.2] := by simp [labelAt, h3]
    have h5 : labelAt ys e.2 ∈ ys := by rw [h4]; exact List.getElem_mem h3
    refine ⟨by rw [h4, List.getElem?_eq_getElem h3], h5, ?_⟩
    have hm : e.1 ∈ d.xs := List.mem_of_getElem? h2
    rw [(hxwf e.1 hm).rows_len, (hywf _ h5).rows_len]
    have := congrArg (fun (l : List Nat) => l[e.2]?) hh
    simp only [List.getElem?_map] at this
    rw [h2, List.getElem?_eq_getElem h3, ← h4] at this
    simpa [Frame.nrows] using this.symm
  have hal : alignRowPartitions R ys = some (R.map fun l => l.map fun e => labelAt ys e.2) := by
    unfold alignRowPartitions
    have : R.mapM (fun l => l.mapM fun e => ys[e.2]?) = some (R.map fun l => l.map fun e => labelAt ys e.2) := by
      apply mapM_congr_some
      intro l hl
      apply mapM_congr_some
      intro e he
      exact (hlabel e (hmem l hl e he)).1
    exact this
  refine ⟨R.map fun l => l.flatMap fun e => e.1.rows.zip (labelAt ys e.2).rows, ?_, by simpa using hRl, ?_⟩
  · unfold splitData
    rw [hlab]
    simp only [Option.bind_some]
    rw [hR, Option.bind_some, hal, Option.bind_some]
    have hz := zip_map_self R fun l => l.map fun e => labelAt ys e.2
    rw [hz]
    apply mapM_map_some
    intro l hl
    apply actorDMatrix_spec l (labelAt ys) x.columns y.columns (hRne l hl)
    · intro e he
      exact hxc e.1 (List.mem_of_getElem? (hget e (hmem l hl e he)).2)
    · intro e he
      exact hyc _ (hlabel e (hmem l hl e he)).2.1
    · intro e he
      exact (hlabel e (hmem l hl e he)).2.2
  · have hfl : (R.map fun l => l.flatMap fun e => e.1.rows.zip (labelAt ys e.2).rows).flatten =
        R.flatten.flatMap fun e => e.1.rows.zip (labelAt ys e.2).rows := by
      exact flatten_flatMap' R _
    rw [hfl]
    refine (hRp.flatMap_right _).trans ?_
    have hz := zip_flatMap d.xs.zipIdx (fun e => e.1.rows) (fun e => (labelAt ys e.2).rows) (fun e he => (hlabel e he).2.2)
    have e1 : (d.xs.zipIdx.flatMap fun e => e.1.rows) = x.rows := by
      rw [hxs]
      simp only [Frame.stackRows]
      rw [show (d.xs.zipIdx.flatMap fun e => e.1.rows) = ((d.xs.zipIdx.map (·.1)).map (·.rows)).flatten by rw [List.map_map]; rfl,
        List.zipIdx_map_fst]
    have e2 : (d.xs.zipIdx.flatMap fun e => (labelAt ys e.2).rows) = y.rows := by
      conv => rhs; rw [hys]
      simp only [Frame.stackRows]
      rw [show (d.xs.zipIdx.flatMap fun e => (labelAt ys e.2).rows) =
        ((d.xs.zipIdx.map fun e => labelAt ys e.2).map (·.rows)).flatten by rw [List.map_map]; rfl, map_labelAt _ _ hlen]
    rw [e1, e2] at hz
    rw [trainingSet, hz]
    exact List.Perm.refl _

theorem createActors_length (nodes : List A) (k : Nat) : (createActors nodes k).length = nodes.length * max (k / nodes.length) 1 := by
  unfold createActors
  generalize max (k / nodes.length) 1 = j
  induction nodes with
  | nil => simp
  | cons n ns ih => simp [ih, Nat.add_mul, Nat.add_comm]

theorem createActors_le (nodes : List A) {k N : Nat} (h1 : k ≤ N) (h2 : nodes.length ≤ N) : (createActors nodes k).length ≤ N := by
  rw [createActors_length]
  have := Nat.mul_div_le k nodes.length
  rcases Nat.le_total (k / nodes.length) 1 with h | h
  · rw [Nat.max_eq_right h]; omega
  · rw [Nat.max_eq_left h]; omega

theorem createActors_pos {nodes : List A} (h : nodes ≠ []) (k : Nat) : 0 < (createActors nodes k).length := by
  rw [createActors_length]
  exact Nat.mul_pos (List.length_pos_iff.2 h) (by omega)

theorem foldl_min_le {E : Type} (f : E → Nat) (l : List E) (k : Nat) :
    l.foldl (fun k e => min k (f e)) k ≤ k ∧ ∀ e ∈ l, l.foldl (fun k e => min k (f e)) k ≤ f e := by
  induction l generalizing k with
  | nil => simp
  | cons e es ih =>
    rw [List.foldl_cons]
    obtain ⟨h1, h2⟩ := ih (min k (f e))
    refine ⟨by omega, ?_⟩
    intro x hx
    rcases List.mem_cons.1 hx with rfl | hx
    · omega
    · exact h2 x hx

/-- **What a `DMatrix` holds.** -/
theorem mkDMat_spec [DecidableEq ι] [DecidableEq κ] (node : Nat → A) {x : LFrame ι κ α} {dfx : Frame ι κ α} (hx : x.Shows dfx)
    {y : Option (LFrame ι κ α)} {dfy : Frame ι κ α} (hy : ∀ m ∈ y, m.Shows dfy) :
    ∃ d, mkDMat node x y = some d ∧ (∀ f ∈ d.xs, f.WF) ∧ Frame.vcat d.xs = some dfx ∧ d.index = dfx.index ∧ d.columns = dfx.columns ∧
      d.rowLens = d.xs.map (·.nrows) ∧ d.label.isSome = y.isSome ∧
      (∀ l, d.label = some l → (∀ f ∈ l, f.WF) ∧ Frame.vcat l = some dfy) := by
  obtain ⟨x1, e1, hx1⟩ := propagate_represents hx
  obtain ⟨rl, cw, hc, hp, hrl, hcw⟩ := hx1.blocks
  have hun : x.unwrapPartitions .rows = some (.rows (bandsOf rl dfx)) := by
    unfold LFrame.unwrapPartitions
    rw [e1]
    simp only [Option.bind_some]
    rw [hp, show (dfx.cut rl cw).mapM (axisConcat false) = some (bandsOf rl dfx) from hcat_rows_cut hx.wf hc]
    rfl
  have hxs : ∀ (lab : Option (List (Frame ι κ α))) (i c r), (DMat.mk ((bandsOf rl dfx).zipIdx.map fun (e : Frame ι κ α × Nat) => (node e.2, e.1))
      lab i c r : DMat ι κ α A).xs = bandsOf rl dfx := by
    intro lab i c r
    simp only [DMat.xs, List.map_map]
    exact List.zipIdx_map_fst 0 _
  have key : ∀ lab : Option (List (Frame ι κ α)), (∀ l, lab = some l → (∀ f ∈ l, f.WF) ∧ Frame.vcat l = some dfy) → lab.isSome = y.isSome →
      ∃ d : DMat ι κ α A, ((some lab).bind fun label => (x.propagate true true).bind fun x1 =>
        ((x.unwrapPartitions .rows).bind Parts.toRows).map fun (rows : List (Frame ι κ α)) =>
        (⟨rows.zipIdx.map fun (e : Frame ι κ α × Nat) => (node e.2, e.1), label, x1.getIndex, x1.getColumns, x1.getRowLens⟩ : DMat ι κ α A))
          = some d ∧ (∀ f ∈ d.xs, f.WF) ∧ Frame.vcat d.xs = some dfx ∧ d.index = dfx.index ∧ d.columns = dfx.columns ∧
      d.rowLens = d.xs.map (·.nrows) ∧ d.label.isSome = y.isSome ∧
      (∀ l, d.label = some l → (∀ f ∈ l, f.WF) ∧ Frame.vcat l = some dfy) := by
    intro lab hl hs
    rw [e1, hun]
    refine ⟨_, rfl, ?_⟩
    rw [hxs]
    refine ⟨fun f hf => (bandsOf_wf hx.wf rl f hf).1, vcat_rows_cut hx.wf hc, ?_, ?_, ?_, hs, hl⟩
    · rcases hx1.index with h | h
      · simp only [MFrame.getIndex, h]; rw [hp, gridIndex_cut hc]
      · simp only [MFrame.getIndex, h]
    · rcases hx1.columns with h | h
      · simp only [MFrame.getColumns, h]; rw [hp, gridColumns_cut hc]
      · simp only [MFrame.getColumns, h]
    · rw [show x1.getRowLens = rl from getRowLens_cut hc hp hrl]
      exact (bandsOf_nrows hc).symm
  cases y with
  | none => exact key none (by simp) rfl
  | some y =>
    obtain ⟨p, e, hf, hmk⟩ := unwrap_spec (hy y rfl) .rows
    cases p with
    | rows l =>
      unfold mkDMat
      simp only
      rw [e]
      exact key (some l) (by intro l' hl'; cases hl'; exact hmk) rfl
    | blocks g => exact hf.elim
    | cols l => exact hf.elim
