import Verif.Lemmas.Dispatch
/-
C29: the backend chosen is the cheapest.  C50: operations on objects of several backends.
-/

variable {β δ : Type}

/-! ### C29 -/

/-- **C29, the choice among several operands.**  The backend chosen is a candidate.  If some candidate's total (what it
    costs to stay for the operands already there, plus what it costs to move the others) is within its maximum, so is
    that of the chosen one, which is least among those; otherwise it is least among all.  Of several it is the first
    in the order of the candidates. -/
theorem C29_cheapest [DecidableEq β] (costs : Costs β δ) (os : List (Obj β δ)) (others : List β) (b : β)
    (h2 : 2 ≤ os.length) (h : calculate costs os others = some b) :
    let cands := candidates os others
    let total := totalCost costs os
    b ∈ cands ∧
    (if ∃ c ∈ cands, total c ≤ costs.max c then
      total b ≤ costs.max b ∧ ∃ before after, cands = before ++ b :: after ∧
        (∀ c ∈ before, total c ≤ costs.max c → total b < total c) ∧ ∀ c ∈ after, total c ≤ costs.max c → total b ≤ total c
    else ∃ before after, cands = before ++ b :: after ∧ (∀ c ∈ before, total b < total c) ∧ ∀ c ∈ after, total b ≤ total c) := by
  intro cands total
  unfold calculate at h
  split at h
  · exact absurd h2 (by simp)
  · exact absurd h2 (by simp)
  · cases ht : chargeAll costs os ((candidates os others).map fun b => (b, (0 : Int))) with
    | none => rw [ht] at h; exact absurd h (by simp)
    | some totals =>
      rw [ht, Option.bind_some] at h
      have hk : ((candidates os others).map fun b => (b, (0 : Int))).map (·.1) = candidates os others := by
        rw [List.map_map]; simp [Function.comp_def]
      have e := chargeAll_spec costs os (by rw [hk]; exact candidates_nodup _ _)
        (fun o ho => by rw [hk]; exact (mem_candidates _ _ _).mpr (Or.inl ⟨o, ho, rfl⟩)) ht
      rw [List.map_map] at e
      simp only [Function.comp_def, Int.zero_add] at e
      -- what a first least entry of the totals says
      have key : ∀ (ok : β × Int → Bool) (x : β × Int), FirstLeast ok totals x →
          ∃ before after, cands = before ++ x.1 :: after ∧ x.2 = total x.1 ∧ ok x = true ∧
            (∀ c ∈ before, ok (c, total c) = true → total x.1 < total c) ∧
            ∀ c ∈ after, ok (c, total c) = true → total x.1 ≤ total c := by
        intro ok x ⟨pre, post, p1, p2, p3, p4⟩
        rw [e] at p1
        have hx : x ∈ (candidates os others).map fun c => (c, totalCost costs os c) := by rw [p1]; simp
        have hpre : ∀ y ∈ pre, y = (y.1, total y.1) := by
          intro y hy
          have : y ∈ (candidates os others).map fun c => (c, totalCost costs os c) := by rw [p1]; simp [hy]
          obtain ⟨c, _, rfl⟩ := List.mem_map.mp this
          rfl
        have hpost : ∀ y ∈ post, y = (y.1, total y.1) := by
          intro y hy
          have : y ∈ (candidates os others).map fun c => (c, totalCost costs os c) := by rw [p1]; simp [hy]
          obtain ⟨c, _, rfl⟩ := List.mem_map.mp this
          rfl
        have hx2 : x.2 = total x.1 := by
          obtain ⟨c, _, rfl⟩ := List.mem_map.mp hx
          rfl
        refine ⟨pre.map (·.1), post.map (·.1), ?_, hx2, p2, ?_, ?_⟩
        · have := congrArg (List.map (·.1)) p1
          rw [List.map_map] at this
          simpa [Function.comp_def] using this
        · intro c hc hok
          obtain ⟨y, hy, rfl⟩ := List.mem_map.mp hc
          rw [← hpre y hy] at hok
          have h3 := p3 y hy hok
          have h4 := hpre y hy
          rw [hx2] at h3
          rw [h4] at h3
          exact h3
        · intro c hc hok
          obtain ⟨y, hy, rfl⟩ := List.mem_map.mp hc
          rw [← hpost y hy] at hok
          have h3 := p4 y hy hok
          have h4 := hpost y hy
          rw [hx2] at h3
          rw [h4] at h3
          exact h3
      rcases minCostBackend_spec (some costs.max) (fun e => !(decide (costs.max e.1 < e.2))) (fun _ => rfl) totals []
          (by simp) with ⟨h1, h3⟩ | ⟨x, h1, h3⟩
      · -- every total exceeds its maximum
        rw [h1] at h
        have hno : ¬∃ c ∈ cands, total c ≤ costs.max c := by
          rintro ⟨c, hc, hle⟩
          have : (c, total c) ∈ [] ++ totals := by
            rw [e, List.nil_append]; exact List.mem_map.mpr ⟨c, hc, rfl⟩
          have := h3 _ this
          simp only [Bool.not_eq_eq_eq_not, Bool.not_false, decide_eq_true_eq] at this
          omega
        rw [if_neg hno]
        rcases minCostBackend_spec none (fun _ => true) (fun _ => rfl) totals [] (by simp) with ⟨h4, _⟩ | ⟨x, h4, h5⟩
        · simp only [h4, Option.map_none] at h; exact absurd h (by simp)
        · simp only [h4, Option.map_some, Option.some.injEq] at h
          obtain ⟨before, after, k1, k2, _, k4, k5⟩ := key _ x h5
          subst h
          exact ⟨by rw [k1]; simp, before, after, k1, fun c hc => k4 c hc rfl, fun c hc => k5 c hc rfl⟩
      · rw [h1] at h
        simp only [Option.some.injEq] at h
        obtain ⟨before, after, k1, k2, k3, k4, k5⟩ := key _ x h3
        subst h
        have hle : total x.1 ≤ costs.max x.1 := by
          simp only [Bool.not_eq_eq_eq_not, Bool.not_true, decide_eq_false_iff_not, Int.not_lt] at k3
          rw [← k2]; exact k3
        have hm : x.1 ∈ cands := by rw [k1]; simp
        rw [if_pos ⟨x.1, hm, hle⟩]
        refine ⟨hm, hle, before, after, k1, fun c hc hcl => k4 c hc ?_, fun c hc hcl => k5 c hc ?_⟩
        · simpa using hcl
        · simpa using hcl

/-- **C29: there is always a choice.**  With two operands or more a backend is chosen exactly if every cost reported
    lies between 0 and 1000. -/
theorem C29_defined [DecidableEq β] (costs : Costs β δ) (os : List (Obj β δ)) (others : List β) (h2 : 2 ≤ os.length) :
    (∃ b, calculate costs os others = some b) ↔ CostsInRange costs os (candidates os others) := by
  have hk : ((candidates os others).map fun b => (b, (0 : Int))).map (·.1) = candidates os others := by
    rw [List.map_map]; simp [Function.comp_def]
  have hs := chargeAll_isSome costs os ((candidates os others).map fun b => (b, (0 : Int)))
    (by rw [hk]; exact candidates_nodup _ _)
  rw [hk] at hs
  rw [← hs]
  unfold calculate
  split
  · exact absurd h2 (by simp)
  · exact absurd h2 (by simp)
  · cases ht : chargeAll costs os ((candidates os others).map fun b => (b, (0 : Int))) with
    | none => simp
    | some totals =>
      simp only [Option.bind_some, Option.isSome_some, iff_true]
      have hne : totals ≠ [] := by
        have e := chargeAll_spec costs os (by rw [hk]; exact candidates_nodup _ _)
          (fun o ho => by rw [hk]; exact (mem_candidates _ _ _).mpr (Or.inl ⟨o, ho, rfl⟩)) ht
        rw [e]
        cases os with
        | nil => exact absurd h2 (by simp)
        | cons o os =>
          have hm : o.backend ∈ candidates (o :: os) others := (mem_candidates _ _ _).mpr (Or.inl ⟨o, by simp, rfl⟩)
          intro h0
          rw [List.map_map, List.map_eq_nil_iff] at h0
          rw [h0] at hm
          exact absurd hm (by simp)
      cases h1 : minCostBackend (some costs.max) totals none with
      | some x => exact ⟨x.1, rfl⟩
      | none =>
        rcases minCostBackend_spec none (fun _ => true) (fun _ => rfl) totals [] (by simp) with ⟨_, h3⟩ | ⟨x, h3, _⟩
        · exfalso
          cases totals with
          | nil => exact hne rfl
          | cons y ys => exact absurd (h3 y (by simp)) (by simp)
        · exact ⟨x.1, by simp [h3]⟩

/-- **C29, the candidates.**  They are the backends of the operands and the others to be considered, each once. -/
theorem C29_candidates [DecidableEq β] (os : List (Obj β δ)) (others : List β) :
    (candidates os others).Nodup ∧
    ∀ b, b ∈ candidates os others ↔ (∃ o ∈ os, o.backend = b) ∨ b ∈ others :=
  ⟨candidates_nodup _ _, mem_candidates _ _⟩

/-- **C29, one operand.**  The data is moved only to a backend whose known move-plus-run cost is below the cost of
    staying, and then to the best of them. -/
theorem C29_auto_switch [DecidableEq β] (costs : Costs β δ) (switchable : List β) (o : Obj β δ) :
    let b := autoSwitch costs switchable o
    (b = o.backend ∧ ∀ c ∈ switchable, c ≠ o.backend → ∀ d, moveStayDelta costs o c = some d → 0 ≤ d) ∨
    (b ∈ switchable ∧ b ≠ o.backend ∧ ∃ d, moveStayDelta costs o b = some d ∧ d < 0 ∧
      ∀ c ∈ switchable, c ≠ o.backend → ∀ d', moveStayDelta costs o c = some d' → d ≤ d') := by
  rcases autoSwitchLoop_spec costs o switchable none o.backend (Or.inl ⟨rfl, rfl⟩) with h | ⟨h1, h2, d, h3, h4, _, h6⟩
  · exact Or.inl h
  · exact Or.inr ⟨h1, h2, d, h3, h4, h6⟩

/-- **C29, the difference.**  Moving is compared with staying by what moving and running there costs, or, if the
    operation is impossible where the data is, by what running there costs. -/
theorem C29_delta (costs : Costs β δ) (o : Obj β δ) (b : β) (mv stay exec : Int)
    (h1 : costs.move o.backend o.data b = some mv) (h2 : costs.stay o.backend o.data = some stay)
    (h3 : costs.me b o.backend o.data = some exec) :
    moveStayDelta costs o b = some (if 1000 ≤ stay then exec - stay else (mv + exec) - stay) := by
  unfold moveStayDelta
  rw [h1, h2, h3]
  rfl

/-- **C29, the default costs** are in the range the calculator accepts, for every number of rows (with overheads that
    are not negative, and a positive size limit). -/
theorem C29_default_costs_in_range (rows : Nat) (threshold perRow maxSize init : Int) (hp : 0 ≤ perRow) (hi : 0 ≤ init)
    (hm : 0 < maxSize) :
    (0 ≤ defaultMoveCost rows threshold ∧ defaultMoveCost rows threshold ≤ 1000) ∧
    ∃ c, stayCostRows rows perRow maxSize init = some c ∧ 0 ≤ c ∧ c ≤ 1000 := by
  constructor
  · unfold defaultMoveCost costImpossible
    split
    · omega
    · rename_i ht
      have h0 : 0 ≤ 1000 * (rows : Int) / threshold := Int.ediv_nonneg (by omega) (by omega)
      show 0 ≤ (if 1000 < 1000 * (rows : Int) / threshold then (1000 : Int) else 1000 * (rows : Int) / threshold) ∧
        (if 1000 < 1000 * (rows : Int) / threshold then (1000 : Int) else 1000 * (rows : Int) / threshold) ≤ 1000
      split <;> omega
  · unfold stayCostRows costImpossible
    split
    · exact ⟨1000, rfl, by omega, by omega⟩
    · rw [if_neg (by omega)]
      have hnum : 0 ≤ (rows : Int) * perRow * 1000 + init * maxSize := by
        have h1 : 0 ≤ (rows : Int) * perRow := Int.mul_nonneg (by omega) hp
        have h2 : 0 ≤ init * maxSize := Int.mul_nonneg hi (by omega)
        omega
      show ∃ c, (if 1000 * maxSize < (rows : Int) * perRow * 1000 + init * maxSize then some (1000 : Int)
        else some (((rows : Int) * perRow * 1000 + init * maxSize) / maxSize)) = some c ∧ 0 ≤ c ∧ c ≤ 1000
      split
      · exact ⟨1000, rfl, by omega, by omega⟩
      · rename_i hc
        refine ⟨_, rfl, Int.ediv_nonneg hnum (by omega), ?_⟩
        have : (rows : Int) * perRow * 1000 + init * maxSize ≤ 1000 * maxSize := by omega
        calc ((rows : Int) * perRow * 1000 + init * maxSize) / maxSize ≤ 1000 * maxSize / maxSize :=
              Int.ediv_le_ediv hm this
          _ = 1000 := Int.mul_ediv_cancel _ (by omega)

/-- backends 0, 1, 2; staying costs nothing, moving to 0 costs the data, moving to 1 or 2 costs 100 -/
def demoCosts : Costs Nat Int where
  stay _ _ := some 0
  move _ d c := if c = 0 then some d else some 100
  me _ _ _ := none
  max _ := 1000

-- a large frame on 1 and a small one on 0: the small one is moved
example : calculate demoCosts [⟨0, 7, false, 0⟩, ⟨1, 900, false, 0⟩] [2] = some 1 := by decide
-- the other way round
example : calculate demoCosts [⟨0, 900, false, 0⟩, ⟨1, 7, false, 0⟩] [2] = some 0 := by decide
-- equal totals: the first operand's backend
example : calculate demoCosts [⟨1, 100, false, 0⟩, ⟨0, 100, false, 0⟩] [] = some 1 := by decide

/-! ### C50 -/

theorem pinTarget_some [DecidableEq β] : ∀ (os : List (Obj β δ)) (pin pin' : Option β), pinTarget os pin = some pin' →
    (∀ b, pin = some b → pin' = some b) ∧ (∀ o ∈ os, o.pinned = true → pin' = some o.backend) ∧
    (pin = none → (∀ o ∈ os, o.pinned = false) → pin' = none) := by
  intro os
  induction os with
  | nil =>
    intro pin pin' h
    simp only [pinTarget, Option.some.injEq] at h
    subst h
    exact ⟨fun _ h => h, by simp, fun h _ => h⟩
  | cons o os ih =>
    intro pin pin' h
    cases pin with
    | none =>
      simp only [pinTarget] at h
      obtain ⟨h1, h2, h3⟩ := ih _ _ h
      refine ⟨by simp, ?_, ?_⟩
      · intro x hx hp
        rw [List.mem_cons] at hx
        rcases hx with rfl | hx
        · exact h1 _ (by rw [if_pos hp])
        · exact h2 x hx hp
      · intro _ hall
        apply h3
        · rw [if_neg (by rw [hall o (List.mem_cons_self ..)]; simp)]
        · intro x hx; exact hall x (List.mem_cons_of_mem _ hx)
    | some b =>
      simp only [pinTarget] at h
      split at h
      · exact absurd h (by simp)
      · rename_i hc
        obtain ⟨h1, h2, _⟩ := ih _ _ h
        refine ⟨fun b' hb' => h1 b' hb', ?_, by simp⟩
        intro x hx hp
        rw [List.mem_cons] at hx
        rcases hx with rfl | hx
        · rw [h1 b rfl]
          congr 1
          exact Decidable.byContradiction fun hne => hc ⟨hp, fun h => hne h.symm⟩
        · exact h2 x hx hp

theorem pinTarget_isSome [DecidableEq β] : ∀ (os : List (Obj β δ)) (pin : Option β),
    (∀ o ∈ os, o.pinned = true → ∀ b, pin = some b → o.backend = b) →
    (∀ o ∈ os, ∀ o' ∈ os, o.pinned = true → o'.pinned = true → o.backend = o'.backend) →
    ∃ pin', pinTarget os pin = some pin' := by
  intro os
  induction os with
  | nil => intro pin _ _; exact ⟨pin, by cases pin <;> rfl⟩
  | cons o os ih =>
    intro pin h1 h2
    have h2' : ∀ a ∈ os, ∀ a' ∈ os, a.pinned = true → a'.pinned = true → a.backend = a'.backend :=
      fun a ha a' ha' => h2 a (List.mem_cons_of_mem _ ha) a' (List.mem_cons_of_mem _ ha')
    cases pin with
    | none =>
      simp only [pinTarget]
      apply ih _ _ h2'
      intro a ha hap b hb
      split at hb
      · rename_i hop
        simp only [Option.some.injEq] at hb
        rw [← hb]
        exact h2 a (List.mem_cons_of_mem _ ha) o (List.mem_cons_self ..) hap hop
      · exact absurd hb (by simp)
    | some b =>
      simp only [pinTarget]
      rw [if_neg]
      · apply ih _ _ h2'
        intro a ha hap
        exact h1 a (List.mem_cons_of_mem _ ha) hap
      · rintro ⟨hp, hne⟩
        exact hne (h1 o (List.mem_cons_self ..) hp b rfl)

theorem one_backend [DecidableEq β] {os : List (Obj β δ)} (h : (candidates os []).length < 2) :
    ∀ o ∈ os, ∀ o' ∈ os, o.backend = o'.backend := by
  intro o ho o' ho'
  have h1 : o.backend ∈ candidates os [] := (mem_candidates _ _ _).mpr (Or.inl ⟨o, ho, rfl⟩)
  have h2 : o'.backend ∈ candidates os [] := (mem_candidates _ _ _).mpr (Or.inl ⟨o', ho', rfl⟩)
  match hc : candidates os [], h with
  | [], _ => rw [hc] at h1; exact absurd h1 (by simp)
  | [b], _ =>
    rw [hc, List.mem_singleton] at h1 h2
    rw [h1, h2]

theorem postOpSwitch_data [DecidableEq β] (env : DispatchEnv β δ) (pin : Option β) (os : List (Obj β δ)) (b : β)
    (r : Obj β δ) : (postOpSwitch env pin os b r).data = r.data ∧
    (pin.isSome = true → (postOpSwitch env pin os b r).pinned = true ∧ (postOpSwitch env pin os b r).backend = r.backend) ∧
    (pin = none → r.pinned = false → (postOpSwitch env pin os b r).pinned = false) := by
  unfold postOpSwitch
  cases pin with
  | some p => simp
  | none =>
    simp only [Option.isSome_none, Bool.false_eq_true, if_false]
    split
    · split <;> simp
    · simp

/-- **C50** (partial).  A method or function is called on objects that may be on several backends and may be pinned.
    If no two operands are pinned to different backends, the costs are in range and there is an implementation for
    every backend, the call succeeds and, for some backend `b`:
    * the result is that of the implementation for `b` on the data of the operands;
    * every object has the data that running the implementation on the objects themselves would leave (updates in
      place reach the caller's objects, nothing else changes);
    * objects that are not operands are not touched at all, pinned objects stay where they are and pinned;
    * if an operand is pinned, `b` is its backend, and the result is on `b` and pinned; otherwise it is not pinned.
    Partial: with `BackendMergeCastInPlace` off and two operands or more, no operand may be in a nested tuple (see
    `C50_nested_tuple_wrong`). -/
theorem C50_operands_of_several_backends_partial [DecidableEq β] (env : DispatchEnv β δ)
    (ext : Option β → Option (Impl δ)) (args : CallArgs) (s : Objects β δ)
    (hids : ∀ i ∈ args.ids, i < s.next) (himpl : ∀ b, ∃ f, findImpl ext b = some f)
    (hcost : CostsInRange env.costs (args.ids.map s.objs) (candidates (args.ids.map s.objs) env.switchable))
    (hpins : ∀ i ∈ args.ids, ∀ j ∈ args.ids, (s.objs i).pinned = true → (s.objs j).pinned = true →
      (s.objs i).backend = (s.objs j).backend)
    (hmode : env.inPlace = true ∨ args.ids.length < 2 ∨ args.flatTuples = true) :
    ∃ r b f, callWrapped env ext args s = some r ∧ findImpl ext b = some f ∧
      r.result.data = f.result (args.ids.map fun i => (s.objs i).data) ∧
      (∀ j, j < s.next → (r.store.objs j).data =
        updatedData j (args.ids.zip (f.updates (args.ids.map fun i => (s.objs i).data))) (s.objs j).data) ∧
      (∀ j, j < s.next → j ∉ args.ids → r.store.objs j = s.objs j) ∧
      (∀ j, j < s.next → (s.objs j).pinned = true →
        (r.store.objs j).pinned = true ∧ (r.store.objs j).backend = (s.objs j).backend) ∧
      (∀ i ∈ args.ids, (s.objs i).pinned = true →
        b = (s.objs i).backend ∧ r.result.pinned = true ∧ r.result.backend = b) ∧
      ((∀ i ∈ args.ids, (s.objs i).pinned = false) → r.result.pinned = false) := by
  obtain ⟨pin, hpin⟩ := pinTarget_isSome (args.ids.map s.objs) none (by simp) (by
    intro o ho o' ho'
    obtain ⟨i, hi, rfl⟩ := List.mem_map.mp ho
    obtain ⟨j, hj, rfl⟩ := List.mem_map.mp ho'
    exact hpins i hi j hj)
  obtain ⟨_, hp2, hp3⟩ := pinTarget_some _ _ _ hpin
  have hpp : ∀ i ∈ args.ids, (s.objs i).pinned = true → pin = some (s.objs i).backend :=
    fun i hi => hp2 _ (List.mem_map_of_mem hi)
  have hpn : (∀ i ∈ args.ids, (s.objs i).pinned = false) → pin = none := by
    intro h
    apply hp3 rfl
    intro o ho
    obtain ⟨i, hi, rfl⟩ := List.mem_map.mp ho
    exact h i hi
  -- what is left to do once the call has run on `b`
  have finish : ∀ (inPlace : Bool) (b : β) (f : Impl δ) (r : CallResult β δ), callWrapped env ext args s = some r →
      findImpl ext b = some f → (∀ p, pin = some p → b = p) →
      Dispatched inPlace b f args.ids s r.store →
      r.result.data = f.result (args.ids.map fun i => (s.objs i).data) →
      (pin.isSome = true → r.result.pinned = true ∧ r.result.backend = b) → (pin = none → r.result.pinned = false) →
      ∃ r b f, callWrapped env ext args s = some r ∧ findImpl ext b = some f ∧
      r.result.data = f.result (args.ids.map fun i => (s.objs i).data) ∧
      (∀ j, j < s.next → (r.store.objs j).data =
        updatedData j (args.ids.zip (f.updates (args.ids.map fun i => (s.objs i).data))) (s.objs j).data) ∧
      (∀ j, j < s.next → j ∉ args.ids → r.store.objs j = s.objs j) ∧
      (∀ j, j < s.next → (s.objs j).pinned = true →
        (r.store.objs j).pinned = true ∧ (r.store.objs j).backend = (s.objs j).backend) ∧
      (∀ i ∈ args.ids, (s.objs i).pinned = true →
        b = (s.objs i).backend ∧ r.result.pinned = true ∧ r.result.backend = b) ∧
      ((∀ i ∈ args.ids, (s.objs i).pinned = false) → r.result.pinned = false) := by
    intro inPlace b f r h1 h2 h3 h4 h5 h6 h7
    refine ⟨r, b, f, h1, h2, h5, h4.data, h4.others, ?_, ?_, fun h => h7 (hpn h)⟩
    · intro j hj hjp
      by_cases hm : j ∈ args.ids
      · have hb := h3 _ (hpp j hm hjp)
        obtain ⟨k1, k2⟩ := h4.stays j hj hb.symm
        exact ⟨k2.trans hjp, k1.trans hb⟩
      · rw [h4.others j hj hm]
        exact ⟨hjp, rfl⟩
    · intro i hi hip
      have hsome := hpp i hi hip
      obtain ⟨k1, k2⟩ := h6 (by rw [hsome]; rfl)
      exact ⟨h3 _ hsome, k1, k2⟩
  have hunfold : callWrapped env ext args s =
      (if (candidates (args.ids.map s.objs) []).length < 2 ∧ (env.auto = false ∨ pin.isSome = true) then
        callDirect ext (pin.getD (inputBackend env (args.ids.map s.objs))) pin args s
      else
        (findImpl ext (inputBackend env (args.ids.map s.objs))).bind fun _ =>
        (chooseBackend env (args.ids.map s.objs) pin).bind fun b =>
        callOn env ext (env.inPlace || decide ((args.ids.map s.objs).length < 2)) b pin args s) := by
    unfold callWrapped
    simp only [hpin, Option.bind_some]
  by_cases hdir : (candidates (args.ids.map s.objs) []).length < 2 ∧ (env.auto = false ∨ pin.isSome = true)
  · rw [if_pos hdir] at hunfold
    have hone := one_backend hdir.1
    have hib : ∀ i ∈ args.ids, inputBackend env (args.ids.map s.objs) = (s.objs i).backend := by
      intro i hi
      unfold inputBackend
      cases hids' : args.ids with
      | nil => rw [hids'] at hi; exact absurd hi (by simp)
      | cons k ks =>
        simp only [List.map_cons, List.head?_cons, Option.map_some, Option.getD_some]
        exact hone _ (by rw [hids']; simp) _ (List.mem_map_of_mem hi)
    have hexp : ∀ p, pin = some p → ∃ i ∈ args.ids, (s.objs i).backend = p := by
      intro p hp
      refine Decidable.byContradiction fun hno => ?_
      have : ∀ i ∈ args.ids, (s.objs i).pinned = false := by
        intro i hi
        cases hpd : (s.objs i).pinned with
        | false => rfl
        | true =>
          have := hpp i hi hpd
          rw [hp, Option.some.injEq] at this
          exact absurd ⟨i, hi, this.symm⟩ hno
      rw [hpn this] at hp
      exact absurd hp (by simp)
    let b := pin.getD (inputBackend env (args.ids.map s.objs))
    have hb : ∀ i ∈ args.ids, (s.objs i).backend = b := by
      intro i hi
      show _ = pin.getD _
      cases hp : pin with
      | none => exact (hib i hi).symm
      | some p =>
        obtain ⟨k, hk, rfl⟩ := hexp p hp
        rw [Option.getD_some]
        exact (hib i hi).symm.trans (hib k hk)
    obtain ⟨f, hf⟩ := himpl b
    obtain ⟨s', e1, e2⟩ := run_same f b args s hb true
    have hcall : callWrapped env ext args s = some
        { store := s', result := if pin.isSome then
            { backend := b, data := f.result (args.ids.map fun i => (s.objs i).data), pinned := true, version := 0 }
            else { backend := b, data := f.result (args.ids.map fun i => (s.objs i).data), pinned := false, version := 0 }
          callerArgs := args } := by
      rw [hunfold]
      unfold callDirect
      show ((findImpl ext b).bind _) = _
      rw [hf, Option.bind_some]
      show (f.run b args s).map _ = _
      rw [e1, Option.map_some]
    refine finish true b f _ hcall hf ?_ e2 ?_ ?_ ?_
    · intro p hp
      show pin.getD _ = p
      rw [hp]; rfl
    · simp only; split <;> rfl
    · intro hs; simp [hs]
    · intro hs; simp [hs]
  · rw [if_neg hdir] at hunfold
    obtain ⟨f0, hf0⟩ := himpl (inputBackend env (args.ids.map s.objs))
    rw [hf0, Option.bind_some] at hunfold
    have hch : ∃ b, chooseBackend env (args.ids.map s.objs) pin = some b ∧ ∀ p, pin = some p → b = p := by
      unfold chooseBackend
      by_cases hl : (args.ids.map s.objs).length < 2
      · rw [if_pos hl]
        refine ⟨_, rfl, ?_⟩
        intro p hp
        exfalso
        apply hdir
        refine ⟨?_, Or.inr (by rw [hp]; rfl)⟩
        match hm : args.ids.map s.objs, hl with
        | [], _ => simp [candidates]
        | [o], _ => simp [candidates]
      · rw [if_neg hl]
        cases hp : pin with
        | some p => exact ⟨p, rfl, fun q hq => by simpa using hq⟩
        | none =>
          simp only
          have hsub : CostsInRange env.costs (args.ids.map s.objs) (candidates (args.ids.map s.objs)
              (if env.preOp (inputBackend env (args.ids.map s.objs)) && env.considerAll then env.switchable else [])) := by
            intro o ho
            refine ⟨(hcost o ho).1, fun b hb => (hcost o ho).2 b ?_⟩
            rw [mem_candidates] at hb ⊢
            rcases hb with hb | hb
            · exact Or.inl hb
            · right
              split at hb
              · exact hb
              · exact absurd hb (by simp)
          obtain ⟨b, hb⟩ := (C29_defined env.costs (args.ids.map s.objs) _ (by omega)).mpr hsub
          exact ⟨b, hb, fun q hq => absurd hq (by simp)⟩
    obtain ⟨b, hb, hbp⟩ := hch
    rw [hb, Option.bind_some] at hunfold
    obtain ⟨f, hf⟩ := himpl b
    have hok : (env.inPlace || decide ((args.ids.map s.objs).length < 2)) = true ∨ args.flatTuples = true := by
      rcases hmode with h | h | h
      · left; simp [h]
      · left; simp [h]
      · exact Or.inr h
    obtain ⟨r, e1, e2, e3, _⟩ := callOn_spec env ext (env.inPlace || decide ((args.ids.map s.objs).length < 2)) b pin args s
      hids hok f hf
    obtain ⟨d1, d2, d3⟩ := postOpSwitch_data env pin (args.ids.map s.objs) b
      { backend := b, data := f.result (args.ids.map fun i => (s.objs i).data), pinned := false, version := 0 }
    refine finish _ b f r (hunfold.trans e1) hf hbp e3 ?_ ?_ ?_
    · rw [e2, d1]
    · intro hs; rw [e2]; exact d2 hs
    · intro hs; rw [e2]; exact d3 hs rfl

/-- **C50, conflicting pins.**  If two operands are pinned to different backends the call raises, and only then does the
    pin check raise. -/
theorem C50_conflict [DecidableEq β] (env : DispatchEnv β δ) (ext : Option β → Option (Impl δ)) (args : CallArgs)
    (s : Objects β δ) (i j : Nat) (hi : i ∈ args.ids) (hj : j ∈ args.ids) (hip : (s.objs i).pinned = true)
    (hjp : (s.objs j).pinned = true) (hne : (s.objs i).backend ≠ (s.objs j).backend) :
    callWrapped env ext args s = none := by
  have : pinTarget (args.ids.map s.objs) none = none := by
    cases h : pinTarget (args.ids.map s.objs) none with
    | none => rfl
    | some pin =>
      obtain ⟨_, h2, _⟩ := pinTarget_some _ _ _ h
      have e1 := h2 _ (List.mem_map_of_mem hi) hip
      have e2 := h2 _ (List.mem_map_of_mem hj) hjp
      rw [e1, Option.some.injEq] at e2
      exact absurd e2 hne
  unfold callWrapped
  simp only [this, Option.bind_none]

/-- **C50, nothing moves by itself.**  With `AutoSwitchBackend` off, a call on objects that are all on one backend runs
    there: every object stays on its backend, pinned or not, and so does the result. -/
theorem C50_one_backend [DecidableEq β] (env : DispatchEnv β δ) (ext : Option β → Option (Impl δ)) (args : CallArgs)
    (s : Objects β δ) (hauto : env.auto = false) (b : β) (hb : ∀ i ∈ args.ids, (s.objs i).backend = b)
    (hne : args.ids ≠ []) (r : CallResult β δ) (h : callWrapped env ext args s = some r) :
    r.result.backend = b ∧ r.callerArgs = args ∧
    ∀ j, j < s.next → (r.store.objs j).backend = (s.objs j).backend ∧ (r.store.objs j).pinned = (s.objs j).pinned := by
  unfold callWrapped at h
  simp only at h
  cases hpin : pinTarget (args.ids.map s.objs) none with
  | none => rw [hpin] at h; exact absurd h (by simp)
  | some pin =>
    rw [hpin, Option.bind_some] at h
    have hc : (candidates (args.ids.map s.objs) []).length < 2 := by
      have hnd := candidates_nodup (args.ids.map s.objs) []
      have hall : ∀ c ∈ candidates (args.ids.map s.objs) [], c = b := by
        intro c hc
        rw [mem_candidates] at hc
        rcases hc with ⟨o, ho, rfl⟩ | hc
        · obtain ⟨i, hi, rfl⟩ := List.mem_map.mp ho
          exact hb i hi
        · exact absurd hc (by simp)
      match hm : candidates (args.ids.map s.objs) [] with
      | [] => simp
      | [_] => simp
      | x :: y :: zs =>
        rw [hm] at hnd hall
        have e1 := hall x (by simp)
        have e2 := hall y (by simp)
        rw [e1, e2] at hnd
        exact absurd hnd (by simp)
    rw [if_pos ⟨hc, Or.inl hauto⟩] at h
    have hib : inputBackend env (args.ids.map s.objs) = b := by
      unfold inputBackend
      cases hi : args.ids with
      | nil => exact absurd hi hne
      | cons k ks =>
        simp only [List.map_cons, List.head?_cons, Option.map_some, Option.getD_some]
        exact hb k (by rw [hi]; simp)
    have hpb : pin.getD (inputBackend env (args.ids.map s.objs)) = b := by
      rw [hib]
      cases hp : pin with
      | none => rfl
      | some p =>
        rw [Option.getD_some]
        refine Decidable.byContradiction fun hno => ?_
        obtain ⟨_, h2, h3⟩ := pinTarget_some _ _ _ hpin
        have : pin = none := by
          apply h3 rfl
          intro o ho
          obtain ⟨i, hi, rfl⟩ := List.mem_map.mp ho
          cases hpd : (s.objs i).pinned with
          | false => rfl
          | true =>
            have := h2 _ (List.mem_map_of_mem hi) hpd
            rw [hp, Option.some.injEq, hb i hi] at this
            exact absurd this hno
        rw [hp] at this
        exact absurd this (by simp)
    rw [hpb] at h
    unfold callDirect at h
    cases hf : findImpl ext b with
    | none => rw [hf] at h; exact absurd h (by simp)
    | some f =>
      obtain ⟨s', e1, e2⟩ := run_same f b args s hb true
      rw [hf, Option.bind_some, e1, Option.map_some, Option.some.injEq] at h
      subst h
      refine ⟨by simp only; split <;> rfl, rfl, ?_⟩
      intro j hj
      by_cases hm : j ∈ args.ids
      · obtain ⟨k1, k2⟩ := e2.stays j hj (hb j hm)
        exact ⟨k1.trans (hb j hm).symm, k2⟩
      · show (s'.objs j).backend = _ ∧ (s'.objs j).pinned = _
        rw [e2.others j hj hm]
        exact ⟨rfl, rfl⟩

/-- **C50, copies.**  With `BackendMergeCastInPlace` off and two operands or more, an operand that the implementation
    does not update keeps its backend, data and pin. -/
theorem C50_copies_leave_originals_partial [DecidableEq β] (env : DispatchEnv β δ) (ext : Option β → Option (Impl δ))
    (args : CallArgs) (s : Objects β δ) (hids : ∀ i ∈ args.ids, i < s.next)
    (hflat : args.flatTuples = true) (hcopy : env.inPlace = false) (h2 : 2 ≤ args.ids.length)
    (r : CallResult β δ) (h : callWrapped env ext args s = some r) (j : Nat) (hj : j < s.next)
    (hkeep : ∀ b f, findImpl ext b = some f →
      ∀ d, (j, some d) ∉ args.ids.zip (f.updates (args.ids.map fun i => (s.objs i).data))) :
    r.store.objs j = s.objs j := by
  have hkeep' : ∀ b f, findImpl ext b = some f →
      ∀ p ∈ args.ids.zip (f.updates (args.ids.map fun i => (s.objs i).data)), p.1 = j → p.2 = none := by
    intro b f hf p hp hpj
    cases hp2 : p.2 with
    | none => rfl
    | some d =>
      obtain ⟨p1, p2⟩ := p
      simp only at hpj hp2
      subst hpj; subst hp2
      exact absurd hp (hkeep b f hf d)
  unfold callWrapped at h
  simp only at h
  cases hpin : pinTarget (args.ids.map s.objs) none with
  | none => rw [hpin] at h; exact absurd h (by simp)
  | some pin =>
    rw [hpin, Option.bind_some] at h
    split at h
    · unfold callDirect at h
      generalize pin.getD (inputBackend env (args.ids.map s.objs)) = b at h
      cases hf : findImpl ext b with
      | none => rw [hf] at h; exact absurd h (by simp)
      | some f =>
        rw [hf, Option.bind_some] at h
        by_cases hb : ∀ i ∈ args.ids, (s.objs i).backend = b
        · obtain ⟨s', e1, e2⟩ := run_same f b args s hb false
          rw [e1, Option.map_some, Option.some.injEq] at h
          subst h
          exact e2.kept rfl j hj (hkeep' b f hf)
        · unfold Impl.run at h
          rw [if_neg (by simpa using hb)] at h
          exact absurd h (by simp)
    · cases h0 : findImpl ext (inputBackend env (args.ids.map s.objs)) with
      | none => rw [h0] at h; exact absurd h (by simp)
      | some f0 =>
        rw [h0, Option.bind_some] at h
        cases hc : chooseBackend env (args.ids.map s.objs) pin with
        | none => rw [hc] at h; exact absurd h (by simp)
        | some b =>
          rw [hc, Option.bind_some, hcopy, List.length_map, decide_eq_false (by omega), Bool.or_self] at h
          cases hf : findImpl ext b with
          | none => unfold callOn at h; rw [hf] at h; exact absurd h (by simp)
          | some f =>
            obtain ⟨r', e1, _, e3, _⟩ := callOn_spec env ext false b pin args s hids (Or.inr hflat) f hf
            rw [e1, Option.some.injEq] at h
            subst h
            exact e3.kept rfl j hj (hkeep' b f hf)

/-- **C50, in place.**  With `BackendMergeCastInPlace` on, the arguments the caller holds (lists in particular) are the
    same objects after the call. -/
theorem C50_in_place_keeps_arguments [DecidableEq β] (env : DispatchEnv β δ) (ext : Option β → Option (Impl δ))
    (args : CallArgs) (s : Objects β δ) (hids : ∀ i ∈ args.ids, i < s.next) (hin : env.inPlace = true)
    (r : CallResult β δ) (h : callWrapped env ext args s = some r) : r.callerArgs = args := by
  unfold callWrapped at h
  simp only at h
  cases hpin : pinTarget (args.ids.map s.objs) none with
  | none => rw [hpin] at h; exact absurd h (by simp)
  | some pin =>
    rw [hpin, Option.bind_some] at h
    split at h
    · unfold callDirect at h
      generalize pin.getD (inputBackend env (args.ids.map s.objs)) = b at h
      cases hf : findImpl ext b with
      | none => rw [hf] at h; exact absurd h (by simp)
      | some f =>
        rw [hf, Option.bind_some] at h
        cases hr : f.run b args s with
        | none => rw [hr] at h; exact absurd h (by simp)
        | some x =>
          rw [hr, Option.map_some, Option.some.injEq] at h
          subst h
          rfl
    · cases h0 : findImpl ext (inputBackend env (args.ids.map s.objs)) with
      | none => rw [h0] at h; exact absurd h (by simp)
      | some f0 =>
        rw [h0, Option.bind_some] at h
        cases hc : chooseBackend env (args.ids.map s.objs) pin with
        | none => rw [hc] at h; exact absurd h (by simp)
        | some b =>
          rw [hc, Option.bind_some, hin, Bool.true_or] at h
          cases hf : findImpl ext b with
          | none => unfold callOn at h; rw [hf] at h; exact absurd h (by simp)
          | some f =>
            obtain ⟨r', e1, _, _, e4⟩ := callOn_spec env ext true b pin args s hids (Or.inl rfl) f hf
            rw [e1, Option.some.injEq] at h
            subst h
            exact e4 rfl

/-- **C50, moving an object** (`set_backend(..., inplace=True)`): it keeps its data and is on the backend asked for, no
    other object changes, and on the backend it is already on nothing changes, its pin included. -/
theorem C50_set_backend [DecidableEq β] (s : Objects β δ) (b : β) (i : Nat) :
    ((s.setBackend b i).objs i).backend = b ∧ ((s.setBackend b i).objs i).data = (s.objs i).data ∧
    (∀ j, j ≠ i → (s.setBackend b i).objs j = s.objs j) ∧
    ((s.objs i).backend = b → (s.setBackend b i).objs i = s.objs i) := by
  unfold Objects.setBackend
  by_cases h : (s.objs i).backend = b
  · rw [if_pos h]
    exact ⟨h, rfl, fun _ _ => rfl, fun _ => rfl⟩
  · rw [if_neg h]
    simp only [Objects.set]
    refine ⟨by simp, by simp, fun j hj => by simp [hj], fun h' => absurd h' h⟩

/-! #### concrete calls -/

/-- adds the second operand to the first in place, returns the sum of all -/
def demoAdd : Impl Int where
  updates vs := [some (vs.sum)]
  result vs := vs.sum

def demoEnv (auto inPlace : Bool) : DispatchEnv Nat Int where
  auto := auto
  inPlace := inPlace
  considerAll := false
  current := 0
  switchable := [0, 1]
  preOp _ := false
  postOp _ := false
  costs := demoCosts
  empty := 0

/-- object 0 on backend 0, object 1 on backend 1, object 2 on backend 1 and pinned -/
def demoObjects : Objects Nat Int where
  objs i := match i with
    | 0 => ⟨0, 5, false, 0⟩
    | 1 => ⟨1, 900, false, 0⟩
    | _ => ⟨1, 11, true, 0⟩
  next := 3

-- the hypotheses of C50 are met: operands on two backends, one of them pinned, in a list
example : let args := CallArgs.list (.obj 0 (.obj 2 .nil)) .nil
    (∀ i ∈ args.ids, i < demoObjects.next) ∧
    CostsInRange demoCosts (args.ids.map demoObjects.objs) (candidates (args.ids.map demoObjects.objs) [0, 1]) ∧
    args.flatTuples = true := by
  refine ⟨by decide, ?_, by decide⟩
  intro o ho
  simp only [CallArgs.ids, List.append_nil, List.map_cons, List.map_nil, demoObjects, List.mem_cons,
    List.not_mem_nil, or_false] at ho
  rcases ho with rfl | rfl
  · exact ⟨by simp [demoCosts], by intro b _ _ c hc; simp only [demoCosts] at hc; split at hc <;> simp at hc <;> omega⟩
  · exact ⟨by simp [demoCosts], by intro b _ _ c hc; simp only [demoCosts] at hc; split at hc <;> simp at hc <;> omega⟩

-- copies: the first operand is updated in place (through its copy) and ends on the pinned backend, the result is pinned
example : (callWrapped (demoEnv true false) (fun _ => some demoAdd) (.obj 0 (.obj 2 .nil)) demoObjects).map
    (fun r => (r.result, r.store.objs 0, r.store.objs 1, r.store.objs 2)) =
    some (⟨1, 16, true, 0⟩, ⟨1, 16, false, 1⟩, ⟨1, 900, false, 0⟩, ⟨1, 11, true, 0⟩) := by decide

/-- **C50 fails for nested tuples of copies**: `pd.concat((df1, df2))` with `BackendMergeCastInPlace` off does not cast
    the second frame. -/
theorem C50_nested_tuple_wrong : ∃ args : CallArgs,
    (∀ i ∈ args.ids, i < demoObjects.next ∧ (demoObjects.objs i).pinned = false) ∧
    callWrapped (demoEnv true false) (fun _ => some demoAdd) args demoObjects = none ∧
    (callWrapped (demoEnv true true) (fun _ => some demoAdd) args demoObjects).isSome = true := by
  refine ⟨.tuple (.obj 0 (.obj 1 .nil)) .nil, by decide, ?_, by decide⟩
  have : (callWrapped (demoEnv true false) (fun _ => some demoAdd) (.tuple (.obj 0 (.obj 1 .nil)) .nil) demoObjects).isSome
      = false := by decide
  exact Option.isSome_eq_false_iff.mp this |> Option.isNone_iff_eq_none.mp

/-- **The caller's list is changed**: with `BackendMergeCastInPlace` off, `dfs = [df1, df2]; pd.concat(dfs)` leaves a
    copy of `df1` (a new object) in the list `dfs`. -/
theorem C50_caller_list_changed : ∃ args : CallArgs,
    (callWrapped (demoEnv true false) (fun _ => some demoAdd) args demoObjects).map (·.callerArgs)
      = some (.list (.obj 3 (.obj 1 .nil)) .nil) ∧ args = .list (.obj 0 (.obj 1 .nil)) .nil :=
  ⟨_, by decide, rfl⟩

/-- **A function for one backend only**: implemented for the backend to which an operand is pinned, where the call would
    run, but not for that of the first operand, the call raises. -/
theorem C50_first_backend_needed :
    let ext : Option Nat → Option (Impl Int) := fun b => if b = some 1 then some demoAdd else none
    chooseBackend (demoEnv true true) [demoObjects.objs 0, demoObjects.objs 2] (some 1) = some 1 ∧
    (findImpl ext 1).isSome = true ∧
    (callWrapped (demoEnv true true) ext (.obj 0 (.obj 2 .nil)) demoObjects).isSome = false := by
  decide

/-- **The cost of staying is not always defined**: with the maximal number of rows set to 0, an empty frame divides by
    zero. -/
theorem C29_stay_cost_zero_division (perRow init : Int) : stayCostRows 0 perRow 0 init = none := by
  simp [stayCostRows]
