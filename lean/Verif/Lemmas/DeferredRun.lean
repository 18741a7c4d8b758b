import Verif.Lemmas.DeferredEnc
/-
The encoder succeeds, and the worker reads what it writes as the calls of the nodes that were not yet done.
-/

variable {V F : Type}

/-- how often node `m` refers to node `n` -/
def occAt (defs : List (Def V F)) (m n : Nat) : Nat := (defs[m]?.map (Def.occ n)).getD 0

/-- what is fixed during an encoding -/
structure Env (V F : Type) where
  app : F → V → VArgs V → List String → VArgs V → V
  defs : List (Def V F)
  res : Nat → Option V
  old : Nat → Bool
  ext : Nat → Nat
  val : Nat → V

/-- not done, but still wanted -/
def Env.live (E : Env V F) (n : Nat) : Bool := decide (n < E.defs.length) && !E.old n && (E.res n).isNone

/-- references from nodes that are not done and not started -/
def Env.pend (E : Env V F) (st : List Nat) (n : Nat) : Nat :=
  (((List.range E.defs.length).filter fun m => E.live m && !st.contains m).map fun m => occAt E.defs m n).sum

structure Env.WF (E : Env V F) : Prop where
  nodes : ∀ m d, E.live m = true → E.defs[m]? = some d → ∀ n ∈ d.nodes, n < m ∧ E.old n = false
  names : ∀ m d, E.live m = true → E.defs[m]? = some d → d.names.length = d.kwargs.length
  val : ∀ m d, E.live m = true → E.defs[m]? = some d → E.val m = E.app d.fn (d.input E.val) (d.args.values E.val) d.names (d.kwargs.values E.val)
  res : ∀ m v, E.res m = some v → E.val m = v

theorem sum_filter_split {l : List Nat} (hl : l.Nodup) (p : Nat → Bool) (g : Nat → Nat) {j : Nat} (hj : j ∈ l) (hp : p j = true) :
    ((l.filter p).map g).sum = g j + ((l.filter fun m => p m && decide (m ≠ j)).map g).sum := by
  induction l with
  | nil => simp at hj
  | cons a l ih =>
    obtain ⟨ha, hl⟩ := List.nodup_cons.1 hl
    by_cases haj : a = j
    · subst haj
      rw [List.filter_cons_of_pos hp, List.filter_cons_of_neg (by simp)]
      have : l.filter p = l.filter fun m => p m && decide (m ≠ a) := by
        apply List.filter_congr
        intro n hn
        have : n ≠ a := fun h => ha (h ▸ hn)
        simp [this]
      rw [← this]
      simp
    · have hj' : j ∈ l := by
        rcases List.mem_cons.1 hj with h | h
        · exact absurd h.symm haj
        · exact h
      have := ih hl hj'
      cases hpa : p a
      · rw [List.filter_cons_of_neg (by simp [hpa]), List.filter_cons_of_neg (by simp [hpa]), this]
      · rw [List.filter_cons_of_pos hpa, List.filter_cons_of_pos (by simp [hpa, haj])]
        simp only [List.map_cons, List.sum_cons, this]
        omega

variable {E : Env V F}

theorem Env.pend_start {st : List Nat} {j : Nat} (hl : E.live j = true) (hst : j ∉ st) (n : Nat) :
    E.pend st n = occAt E.defs j n + E.pend (j :: st) n := by
  have hlt : j < E.defs.length := by simp [Env.live] at hl; omega
  unfold Env.pend
  rw [sum_filter_split List.nodup_range _ _ (List.mem_range.2 hlt) (by simp [hl, hst])]
  congr 3
  apply List.filter_congr
  intro m _
  by_cases hm : m = j
  · subst hm; simp
  · simp [hm]

theorem Env.pend_perm {st st' : List Nat} (h : st.Perm st') (n : Nat) : E.pend st n = E.pend st' n := by
  unfold Env.pend
  congr 2
  apply List.filter_congr
  intro m _
  have : st.contains m = st'.contains m := by
    have := h.mem_iff (a := m)
    by_cases hm : m ∈ st
    · simp [hm, this.1 hm]
    · have hm' : m ∉ st' := fun h => hm (this.2 h)
      simp [hm, hm']
  rw [this]

/-- the counters suffice for the partitions, for the references still to be written, and for the nodes not started -/
def Env.Acc (E : Env V F) (R : Nat → Nat) (e : Enc V F) (st : List Nat) : Prop :=
  ∀ n, E.old n = false → E.ext n + R n + E.pend st n ≤ e.subs n

/-- the nodes below `b` that were started are finished -/
def Fin' (b : Nat) (e : Enc V F) (sym : List (STok V F)) (st : List Nat) : Prop :=
  ∀ n ∈ st, n < b → n ∈ slots sym ∨ e.subs n = 0

structure Env.Ready (E : Env V F) (b : Nat) (R : Nat → Nat) (e : Enc V F) (sym : List (STok V F)) (st : List Nat) : Prop where
  inv : EInv (fun n => E.live n = true) E.defs.length e sym st
  acc : E.Acc R e st
  fin : Fin' b e sym st

structure Env.Runs (E : Env V F) (b : Nat) (R : Nat → Nat) (e : Enc V F) (sym : List (STok V F)) (st : List Nat)
    (e' : Enc V F) (seg : List (STok V F)) (vis : List Nat) : Prop where
  ready : E.Ready b R e' (sym ++ seg) (st ++ vis)
  mono : ∀ n, e'.subs n ≤ e.subs n
  below : ∀ n ∈ vis, n < b
  new : ∀ n ∈ slots seg, n ∈ vis

variable {b : Nat} {R R' : Nat → Nat} {e e' e'' : Enc V F} {sym seg seg' : List (STok V F)} {st vis vis' : List Nat}

theorem Env.Runs.trans (h : E.Runs b R e sym st e' seg vis) (h' : E.Runs b R' e' (sym ++ seg) (st ++ vis) e'' seg' vis') :
    E.Runs b R' e sym st e'' (seg ++ seg') (vis ++ vis') := by
  refine ⟨?_, fun n => Nat.le_trans (h'.mono n) (h.mono n), ?_, ?_⟩
  · have := h'.ready
    rwa [List.append_assoc, List.append_assoc] at this
  · intro n hn
    rcases List.mem_append.1 hn with hn | hn
    · exact h.below n hn
    · exact h'.below n hn
  · intro n hn
    rw [slots_append] at hn
    rcases List.mem_append.1 hn with hn | hn
    · exact List.mem_append_left _ (h.new n hn)
    · exact List.mem_append_right _ (h'.new n hn)

theorem Env.Ready.emits (h : E.Ready b R e sym st) (toks : List (WTok V F)) :
    E.Runs b R e sym st { e with out := e.out ++ toks } (toks.map STok.t) [] := by
  refine ⟨⟨?_, ?_, ?_⟩, fun _ => Nat.le_refl _, by simp, by simp [slots_plain]⟩
  · rw [List.append_nil]; exact h.inv.emits toks
  · rw [List.append_nil]; exact h.acc
  · rw [List.append_nil]
    intro n hn hb
    rw [slots_append, slots_plain, List.append_nil]
    exact h.fin n hn hb

theorem Env.Ready.emit (h : E.Ready b R e sym st) (x : WTok V F) : E.Runs b R e sym st (e.emit x) [STok.t x] [] := h.emits [x]

theorem Env.Ready.mem_live (h : E.Ready b R e sym st) {n : Nat} (hn : n ∈ slots sym) : E.live n = true := h.inv.stLive n (h.inv.started n hn)

theorem Env.Ready.pos_some (h : E.Ready b R e sym st) {n : Nat} (hn : n ∈ slots sym) : ∃ p, e.pos n = some p := by
  obtain ⟨q, hq⟩ := List.getElem?_of_mem ((mem_slots sym n).1 hn)
  obtain ⟨p, _, _, hp, _⟩ := h.inv.ret n q hq
  exact ⟨p, hp⟩

theorem Env.Ready.subs_pos {i : Nat} (h : E.Ready b (fun n => R n + if i = n then 1 else 0) e sym st) (hi : E.old i = false) : e.subs i ≠ 0 := by
  have := h.acc i hi
  simp only [if_true] at this
  omega

/-- a counter goes down -/
theorem Env.Ready.unsub {i : Nat} (h : E.Ready b (fun n => R n + if i = n then 1 else 0) e sym st) (hi : i ∉ slots sym) :
    E.Ready b R { e with subs := fun n => if n = i then e.subs i - 1 else e.subs n } sym st := by
  refine ⟨h.inv.unsub hi _, ?_, ?_⟩
  · intro n hn
    have := h.acc n hn
    by_cases hni : n = i
    · subst hni; simp only [if_true] at this ⊢; omega
    · have hni' : ¬ i = n := fun h => hni h.symm
      simp only [hni, hni', if_false] at this ⊢; omega
  · intro n hn hb
    rcases h.fin n hn hb with h0 | h0
    · exact Or.inl h0
    · by_cases hni : n = i
      · subst hni; right; simp [h0]
      · right; simp [hni, h0]

/-- a reference -/
theorem Env.Ready.refer {i p : Nat} (h : E.Ready b (fun n => R n + if i = n then 1 else 0) e sym st) (hold : E.old i = false) (hi : i ∈ slots sym) (hp : e.pos i = some p) :
    E.Runs b R e sym st (({ e with subs := fun n => if n = i then e.subs i - 1 else e.subs n } : Enc V F).refer i p) [STok.t .ref, STok.use i] [] := by
  have hsubs : (({ e with subs := fun n => if n = i then e.subs i - 1 else e.subs n } : Enc V F).refer i p).subs = fun n => if n = i then e.subs i - 1 else e.subs n := by
    simp only [Enc.refer, Enc.emit, if_true]; split <;> rfl
  refine ⟨⟨?_, ?_, ?_⟩, ?_, by simp, by simp [slots]⟩
  · rw [List.append_nil]; exact h.inv.refer hi hp (h.subs_pos hold)
  · rw [List.append_nil]
    intro n hn
    have := h.acc n hn
    rw [hsubs]
    by_cases hni : n = i
    · subst hni; simp only [if_true] at this ⊢; omega
    · have hni' : ¬ i = n := fun h => hni h.symm
      simp only [hni, hni', if_false] at this ⊢; omega
  · rw [List.append_nil]
    intro n hn hb
    rw [hsubs]
    rcases h.fin n hn hb with h0 | h0
    · left; rw [slots_append]; exact List.mem_append_left _ h0
    · by_cases hni : n = i
      · subst hni; right; simp [h0]
      · right; simp [hni, h0]
  · intro n
    rw [hsubs]
    by_cases hni : n = i
    · subst hni; simp
    · simp [hni]

/-- the specification of `_deconstruct_chain` -/
def Env.ChainSpec (E : Env V F) (rec : Nat → Enc V F → Option (Enc V F)) (j : Nat) : Prop :=
  ∀ b R e sym st, j < b → j < E.defs.length → E.old j = false → E.Ready b (fun n => R n + if j = n then 1 else 0) e sym st →
    ∃ e' seg vis, rec j e = some e' ∧ E.Runs b R e sym st e' seg vis ∧ ChainOK E.app E.defs E.val (slots sym) j seg vis ∧
      (∀ n ∈ vis, n ≤ j) ∧ (E.res j = none → j ∈ st ++ vis)

theorem Env.Ready.congr (h : E.Ready b R e sym st) (hR : ∀ n, R n = R' n) : E.Ready b R' e sym st := by
  have : R = R' := funext hR
  rwa [← this]

theorem encArgs_ok (hE : E.WF) (rec : Nat → Enc V F → Option (Enc V F)) (hrec : ∀ j, j < b → E.ChainSpec rec j) (hb : b ≤ E.defs.length) (a : Args V) :
    ∀ (R : Nat → Nat) (e : Enc V F) (sym : List (STok V F)) (st : List Nat), (∀ n ∈ a.nodes, n < b ∧ E.old n = false) →
      E.Ready b (fun n => R n + a.occ n) e sym st →
      ∃ e' seg vis, encArgs E.res rec a e = some e' ∧ E.Runs b R e sym st e' seg vis ∧ ArgsOK E.app E.defs E.val (slots sym) a seg vis := by
  induction a with
  | nil =>
    intro R e sym st _ h
    refine ⟨_, _, _, rfl, (h.congr fun n => by simp [Args.occ]).emit .done, argsOK_nil _ _ _ _⟩
  | val v rest ih =>
    intro R e sym st hn h
    have h1 := h.emit (.obj v)
    have hr := h1.ready
    rw [List.append_nil] at hr
    obtain ⟨e2, seg, vis, h2, h3, h4⟩ := ih R _ _ _ hn (hr.congr fun n => by simp [Args.occ])
    refine ⟨e2, [STok.t (.obj v)] ++ seg, [] ++ vis, by rw [encArgs, h2], ?_, ?_⟩
    · exact Env.Runs.trans h1 (by rw [List.append_nil]; exact h3)
    · have hs : slots (sym ++ [STok.t (.obj v)]) = slots sym := by rw [slots_append]; simp [slots]
      rw [hs] at h4
      exact argsOK_obj _ _ _ _ rest _ v rfl seg vis h4
  | node i rest ih =>
    intro R e sym st hn h
    have hi := hn i (by simp [Args.nodes])
    have hn' : ∀ n ∈ rest.nodes, n < b ∧ E.old n = false := fun n h => hn n (by simp [Args.nodes, h])
    have h := h.congr (R' := fun n => (R n + rest.occ n) + if i = n then 1 else 0) (fun n => by simp only [Args.occ]; omega)
    have hsub := h.subs_pos hi.2
    cases hp : e.pos i with
    | some p =>
      have hun : e.unsubscribe i = some { e with subs := fun n => if n = i then e.subs i - 1 else e.subs n } := by
        simp [Enc.unsubscribe, hsub]
      cases hres : E.res i with
      | some v =>
        have hns : i ∉ slots sym := by
          intro hc
          have := h.mem_live hc
          simp [Env.live, hres] at this
        have h0 := h.unsub hns
        have h1 := h0.emit (.obj v)
        have hr := h1.ready
        rw [List.append_nil] at hr
        obtain ⟨e2, seg, vis, h2, h3, h4⟩ := ih R _ _ _ hn' hr
        have hr1 : E.Runs b (fun n => R n + rest.occ n) e sym st _ [STok.t (.obj v)] [] :=
          ⟨h1.ready, fun n => by
            refine Nat.le_trans (h1.mono n) ?_
            by_cases hni : n = i
            · subst hni; simp
            · simp [hni], h1.below, h1.new⟩
        refine ⟨e2, [STok.t (.obj v)] ++ seg, [] ++ vis, ?_, Env.Runs.trans hr1 (by rw [List.append_nil]; exact h3), ?_⟩
        · simp only [encArgs, hp, hun, hres]; exact h2
        · have hs : slots (sym ++ [STok.t (.obj v)]) = slots sym := by rw [slots_append]; simp [slots]
          rw [hs] at h4
          exact argsOK_obj _ _ _ _ rest _ v (by simp [Args.values, hE.res i v hres]) seg vis h4
      | none =>
        have hl : E.live i = true := by
          have : i < E.defs.length := by omega
          simp [Env.live, this, hi.2, hres]
        have hin : i ∈ slots sym := by
          by_cases hc : i ∈ slots sym
          · exact hc
          · have := h.inv.fresh i (Or.inl hl) hc
            rw [hp] at this; simp at this
        have h1 := h.refer hi.2 hin hp
        have hr := h1.ready
        rw [List.append_nil] at hr
        obtain ⟨e2, seg, vis, h2, h3, h4⟩ := ih R _ _ _ hn' hr
        refine ⟨e2, [STok.t .ref, STok.use i] ++ seg, [] ++ vis, ?_, Env.Runs.trans h1 (by rw [List.append_nil]; exact h3), ?_⟩
        · simp only [encArgs, hp, hun, hres]; exact h2
        · have hs : slots (sym ++ [STok.t .ref, STok.use i]) = slots sym := by rw [slots_append]; simp [slots]
          rw [hs] at h4
          exact argsOK_ref _ _ _ _ rest i hin seg vis h4
    | none =>
      have h1 := h.emit .chain
      have hr := h1.ready
      rw [List.append_nil] at hr
      obtain ⟨e2, segc, visc, h2, h3, h4, _, _⟩ := hrec i hi.1 b (fun n => R n + rest.occ n) _ _ _ hi.1 (by omega) hi.2 hr
      have h5 := h3.ready.emit .done
      have hr2 := h5.ready
      rw [List.append_nil] at hr2
      obtain ⟨e3, seg, vis, h6, h7, h8⟩ := ih R _ _ _ hn' hr2
      refine ⟨e3, ([STok.t .chain] ++ segc) ++ ([STok.t .done] ++ seg), ([] ++ visc) ++ ([] ++ vis), ?_, ?_, ?_⟩
      · simp only [encArgs, hp, h2]; exact h6
      · have ha := Env.Runs.trans h1 (by rw [List.append_nil]; exact h3)
        have hb := Env.Runs.trans h5 (by rw [List.append_nil]; exact h7)
        refine Env.Runs.trans ha ?_
        rw [List.append_assoc] at hb
        exact hb
      · have hs : slots (sym ++ [STok.t .chain]) = slots sym := by rw [slots_append]; simp [slots]
        have hs2 : slots (sym ++ [STok.t .chain] ++ segc ++ [STok.t .done]) = slots sym ++ slots segc := by
          rw [slots_append, slots_append, hs]; simp [slots]
        rw [hs] at h4
        rw [hs2] at h8
        exact argsOK_chain _ _ _ _ rest i segc seg visc vis h4 h8
  | list l rest ihl ih =>
    intro R e sym st hn h
    have hnl : ∀ n ∈ l.nodes, n < b ∧ E.old n = false := fun n h => hn n (by simp [Args.nodes, h])
    have hn' : ∀ n ∈ rest.nodes, n < b ∧ E.old n = false := fun n h => hn n (by simp [Args.nodes, h])
    have h := h.congr (R' := fun n => (R n + rest.occ n) + l.occ n) (fun n => by simp only [Args.occ]; omega)
    have h1 := h.emit .list
    have hr := h1.ready
    rw [List.append_nil] at hr
    obtain ⟨e2, segl, visl, h2, h3, h4⟩ := ihl (fun n => R n + rest.occ n) _ _ _ hnl hr
    obtain ⟨e3, seg, vis, h6, h7, h8⟩ := ih R _ _ _ hn' h3.ready
    refine ⟨e3, ([STok.t .list] ++ segl) ++ seg, ([] ++ visl) ++ vis, ?_, ?_, ?_⟩
    · simp only [encArgs, h2]; exact h6
    · have ha := Env.Runs.trans h1 (by rw [List.append_nil]; exact h3)
      refine Env.Runs.trans ha ?_
      rw [List.append_assoc] at h7
      exact h7
    · have hs : slots (sym ++ [STok.t .list]) = slots sym := by rw [slots_append]; simp [slots]
      have hs2 : slots (sym ++ [STok.t .list] ++ segl) = slots sym ++ slots segl := by
        rw [slots_append, hs]
      rw [hs] at h4
      rw [hs2] at h8
      exact argsOK_list _ _ _ _ l rest segl seg visl vis h4 h8

theorem encPositional_ok (hE : E.WF) (rec : Nat → Enc V F → Option (Enc V F)) (hrec : ∀ j, j < b → E.ChainSpec rec j) (hb : b ≤ E.defs.length) (a : Args V)
    (hn : ∀ n ∈ a.nodes, n < b ∧ E.old n = false) (h : E.Ready b (fun n => R n + a.occ n) e sym st) :
    ∃ e' seg vis, encPositional E.res rec a e = some e' ∧ E.Runs b R e sym st e' seg vis ∧ PosOK E.app E.defs E.val (slots sym) a seg vis := by
  unfold encPositional
  have hocc : a.flat = true → ∀ n, a.occ n = 0 := by
    clear h hn
    intro hf n
    induction a with
    | nil => rfl
    | val v rest ih => exact ih hf
    | node => simp [Args.flat] at hf
    | list => simp [Args.flat] at hf
  by_cases hf : a.flat = true
  · rw [if_pos hf]
    refine ⟨_, _, _, rfl, ?_, posOK_flat _ _ _ _ a hf⟩
    have := (h.congr (R' := R) fun n => by rw [hocc hf n]; rfl).emits (.num a.length :: flatToks a)
    simpa [Enc.emit] using this
  · rw [if_neg hf]
    have h1 := h.emit (.num (-1))
    have hr := h1.ready
    rw [List.append_nil] at hr
    obtain ⟨e2, seg, vis, h2, h3, h4⟩ := encArgs_ok hE rec hrec hb a R _ _ _ hn hr
    refine ⟨e2, [STok.t (.num (-1))] ++ seg, [] ++ vis, h2, Env.Runs.trans h1 (by rw [List.append_nil]; exact h3), ?_⟩
    have hs : slots (sym ++ [STok.t (.num (-1))]) = slots sym := by rw [slots_append]; simp [slots]
    rw [hs] at h4
    exact posOK_args _ _ _ _ a seg vis h4

theorem encKeyword_ok (hE : E.WF) (rec : Nat → Enc V F → Option (Enc V F)) (hrec : ∀ j, j < b → E.ChainSpec rec j) (hb : b ≤ E.defs.length) (names : List String) (a : Args V)
    (hlen : names.length = a.length) (hn : ∀ n ∈ a.nodes, n < b ∧ E.old n = false) (h : E.Ready b (fun n => R n + a.occ n) e sym st) :
    ∃ e' seg vis, encKeyword E.res rec names a e = some e' ∧ E.Runs b R e sym st e' seg vis ∧ KwOK E.app E.defs E.val (slots sym) names a seg vis := by
  unfold encKeyword
  have hocc : a.flat = true → ∀ n, a.occ n = 0 := by
    clear h hn hlen
    intro hf n
    induction a with
    | nil => rfl
    | val v rest ih => exact ih hf
    | node => simp [Args.flat] at hf
    | list => simp [Args.flat] at hf
  by_cases hf : a.flat = true
  · rw [if_pos hf]
    refine ⟨_, _, _, rfl, ?_, kwOK_flat _ _ _ _ names a hf hlen⟩
    have := (h.congr (R' := R) fun n => by rw [hocc hf n]; rfl).emits (.num names.length :: pairToks names a)
    simpa [Enc.emit] using this
  · rw [if_neg hf]
    have h1 := h.emit (.num (-1))
    have hr := h1.ready
    rw [List.append_nil] at hr
    obtain ⟨e2, seg, vis, h2, h3, h4⟩ := encArgs_ok hE rec hrec hb a R _ _ _ hn hr
    have h5 := h3.ready.emits (names.map .name)
    refine ⟨_, ([STok.t (.num (-1))] ++ seg) ++ (names.map WTok.name).map STok.t, ([] ++ vis) ++ [], by rw [h2], ?_, ?_⟩
    · have ha := Env.Runs.trans h1 (by rw [List.append_nil]; exact h3)
      refine Env.Runs.trans ha ?_
      rw [List.append_assoc] at h5
      exact h5
    · have hs : slots (sym ++ [STok.t (.num (-1))]) = slots sym := by rw [slots_append]; simp [slots]
      rw [hs] at h4
      simp only [List.append_nil, List.nil_append]
      exact kwOK_args _ _ _ _ names a hlen seg vis h4

theorem encCall_ok (hE : E.WF) (rec : Nat → Enc V F → Option (Enc V F)) {i : Nat} (hrec : ∀ j, j < i → E.ChainSpec rec j) (hlive : E.live i = true) (d : Def V F)
    (hd : E.defs[i]? = some d) (hist : i ∈ st) (hns : i ∉ slots sym) (h : E.Ready i (fun n => R n + d.kwargs.occ n + d.args.occ n) e sym st) :
    ∃ e' seg vis, encCall E.res rec i d e = some e' ∧ E.Ready i R e' (sym ++ seg) (st ++ vis) ∧ (∀ n, e'.subs n ≤ e.subs n) ∧ (∀ n ∈ vis, n < i) ∧
      (∀ n ∈ slots seg, n ∈ vis ∨ n = i) ∧ CallOK E.app E.defs E.val (slots sym) i d seg (vis ++ [i]) ∧
      (i ∈ slots (sym ++ seg) ∨ e'.subs i = 0) := by
  have hlt : i ≤ E.defs.length := by simp [Env.live] at hlive; omega
  have hnodes := hE.nodes i d hlive hd
  have h1 := h.emit (.fn d.fn)
  have hr := h1.ready
  rw [List.append_nil] at hr
  obtain ⟨e2, segP, visP, h2, h3, h4⟩ := encPositional_ok hE rec hrec hlt d.args (fun n hn => hnodes n (by simp [Def.nodes, hn])) hr
  obtain ⟨e3, segK, visK, h5, h6, h7⟩ := encKeyword_ok hE rec hrec hlt d.names d.kwargs (hE.names i d hlive hd) (fun n hn => hnodes n (by simp [Def.nodes, hn])) h3.ready
  have hs : slots (sym ++ [STok.t (.fn d.fn)]) = slots sym := by rw [slots_append]; simp [slots]
  have hs2 : slots (sym ++ [STok.t (.fn d.fn)] ++ segP) = slots sym ++ slots segP := by rw [slots_append, hs]
  rw [hs] at h4
  rw [hs2] at h7
  have hbelow : ∀ n ∈ visP ++ visK, n < i := by
    intro n hn
    rcases List.mem_append.1 hn with hn | hn
    · exact h3.below n hn
    · exact h6.below n hn
  have hall : E.Runs i R e sym st e3 (([STok.t (.fn d.fn)] ++ segP) ++ segK) (([] ++ visP) ++ visK) := by
    refine Env.Runs.trans (Env.Runs.trans h1 (by rw [List.append_nil]; exact h3)) ?_
    rw [List.append_assoc] at h6
    exact h6
  have hns3 : i ∉ slots (sym ++ (([STok.t (.fn d.fn)] ++ segP) ++ segK)) := by
    intro hc
    rw [slots_append] at hc
    rcases List.mem_append.1 hc with hc | hc
    · exact hns hc
    · exact absurd (hall.below i (hall.new i hc)) (by omega)
  have hfin := hall.ready.inv.finish (i := i) (List.mem_append_left _ hist) hns3 (by simp only [List.length_append, List.length_cons, List.length_nil]; omega)
  have hsubs : (e3.finish i).subs = e3.subs := by
    by_cases hz : 0 < e3.subs i <;> simp [Enc.finish, Enc.emit, hz]
  have hslot : ∀ c, slots (tailSlots i c : List (STok V F)) = if c then [i] else [] := by
    intro c; cases c <;> rfl
  refine ⟨e3.finish i, (([STok.t (.fn d.fn)] ++ segP) ++ segK) ++ tailSlots i (decide (0 < e3.subs i)), visP ++ visK, ?_, ⟨?_, ?_, ?_⟩, ?_, hbelow, ?_, ?_, ?_⟩
  · simp only [encCall, h2, h5]
  · rw [← List.append_assoc]; simpa using hfin
  · have := hall.ready.acc
    simpa [Env.Acc, hsubs] using this
  · intro n hn hni
    rw [hsubs, ← List.append_assoc, slots_append]
    rcases hall.ready.fin n (by simpa using hn) hni with h | h
    · exact Or.inl (List.mem_append_left _ h)
    · exact Or.inr h
  · rw [hsubs]; exact hall.mono
  · intro n hn
    rw [slots_append] at hn
    rcases List.mem_append.1 hn with hn | hn
    · left; simpa using hall.new n hn
    · right
      rw [hslot] at hn
      by_cases hz : 0 < e3.subs i <;> simp [hz] at hn
      exact hn
  · have := callOK E.app E.defs E.val (slots sym) i d hd (hE.val i d hlive hd) segP segK visP visK h4 h7 (decide (0 < e3.subs i))
    simpa using this
  · rw [hsubs, ← List.append_assoc, slots_append, hslot]
    by_cases hz : 0 < e3.subs i
    · left; simp [hz]
    · right; omega

theorem Env.Ready.perm (h : E.Ready b R e sym st) {st' : List Nat} (hp : st.Perm st') : E.Ready b R e sym st' :=
  ⟨h.inv.perm hp, fun n hn => by rw [← Env.pend_perm hp]; exact h.acc n hn, fun n hn => h.fin n (hp.mem_iff.2 hn)⟩

theorem encChain_ok (hE : E.WF) : ∀ (fuel j : Nat), j < fuel → E.ChainSpec (encChain E.defs E.res fuel) j := by
  intro fuel
  induction fuel with
  | zero => intro j hj; omega
  | succ fuel ih =>
    intro i hfuel b R e sym st hib hlt hold h
    have hsub := h.subs_pos hold
    have hun : e.unsubscribe i = some { e with subs := fun n => if n = i then e.subs i - 1 else e.subs n } := by
      simp [Enc.unsubscribe, hsub]
    have hmono : ∀ n, (if n = i then e.subs i - 1 else e.subs n) ≤ e.subs n := by
      intro n
      by_cases hni : n = i
      · subst hni; simp
      · simp [hni]
    simp only [encChain, hun]
    cases hres : E.res i with
    | some v =>
      have hns : i ∉ slots sym := by
        intro hc
        have := h.mem_live hc
        simp [Env.live, hres] at this
      have h1 := (h.unsub hns).emit (.obj v)
      refine ⟨_, [STok.t (.obj v)], [], rfl, ⟨h1.ready, fun n => Nat.le_trans (h1.mono n) (hmono n), h1.below, h1.new⟩, ?_, by simp, by simp⟩
      have := chainOK_obj E.app E.defs E.val (slots sym) i
      rwa [hE.res i v hres] at this
    | none =>
      have hl : E.live i = true := by simp [Env.live, hlt, hold, hres]
      simp only
      cases hp : e.pos i with
      | some p =>
        have hin : i ∈ slots sym := by
          by_cases hc : i ∈ slots sym
          · exact hc
          · have := h.inv.fresh i (Or.inl hl) hc
            rw [hp] at this; simp at this
        exact ⟨_, _, _, rfl, h.refer hold hin hp, chainOK_ref _ _ _ _ i hin, by simp, fun _ => by simpa using h.inv.started i hin⟩
      | none =>
        have hns : i ∉ slots sym := by
          intro hc
          obtain ⟨p, hp'⟩ := h.pos_some hc
          rw [hp] at hp'; simp at hp'
        have hst : i ∉ st := by
          intro hc
          rcases h.fin i hc hib with h0 | h0
          · exact hns h0
          · exact hsub h0
        have h0 := h.unsub hns
        obtain ⟨d, hd⟩ : ∃ d, E.defs[i]? = some d := ⟨_, List.getElem?_eq_getElem hlt⟩
        have hocc : ∀ n, occAt E.defs i n = d.occ n := by intro n; simp [occAt, hd]
        have hready : ∀ (Q : Nat → Nat), (∀ n, Q n = R n + d.occ n) →
            E.Ready i Q { e with subs := fun n => if n = i then e.subs i - 1 else e.subs n } sym (i :: st) := by
          intro Q hQ
          refine ⟨h0.inv.start hl hst, ?_, ?_⟩
          · intro n hn
            have := h0.acc n hn
            rw [Env.pend_start hl hst n, hocc] at this
            rw [hQ]
            omega
          · intro n hn hni
            rcases List.mem_cons.1 hn with rfl | hn
            · omega
            · exact h0.fin n hn (by omega)
        -- after the call
        have hend : ∀ (e' : Enc V F) (seg : List (STok V F)) (vis : List Nat),
            E.Ready i R e' (sym ++ seg) ((i :: st) ++ vis) → (∀ n, e'.subs n ≤ e.subs n) → (∀ n ∈ vis, n < i) →
            (∀ n ∈ slots seg, n ∈ vis ∨ n = i) → (i ∈ slots (sym ++ seg) ∨ e'.subs i = 0) →
            E.Runs b R e sym st e' seg (vis ++ [i]) := by
          intro e' seg vis hr hm hb hnew hi
          have hperm : ((i :: st) ++ vis).Perm (st ++ (vis ++ [i])) := by
            rw [List.cons_append]
            have := (List.perm_middle (a := i) (l₁ := st ++ vis) (l₂ := [])).symm
            rw [List.append_nil, List.append_assoc] at this
            exact this
          refine ⟨⟨hr.inv.perm hperm, (hr.perm hperm).acc, ?_⟩, hm, ?_, ?_⟩
          · intro n hn hnb
            have hn : n = i ∨ n ∈ vis ∨ n ∈ st := by
              simp only [List.mem_append, List.mem_singleton] at hn
              rcases hn with h | h | h
              · exact Or.inr (Or.inr h)
              · exact Or.inr (Or.inl h)
              · exact Or.inl h
            rcases hn with rfl | hn | hn
            · exact hi
            · exact hr.fin n (List.mem_append_right _ hn) (hb n hn)
            · rcases h.fin n hn hnb with h1 | h1
              · left; rw [slots_append]; exact List.mem_append_left _ h1
              · right; have := hm n; omega
          · intro n hn
            simp only [List.mem_append, List.mem_singleton] at hn
            rcases hn with hn | rfl
            · have := hb n hn; omega
            · exact hib
          · intro n hn
            simp only [List.mem_append, List.mem_singleton]
            exact hnew n hn
        have hle : ∀ (vis : List Nat), (∀ n ∈ vis, n < i) → ∀ n ∈ vis ++ [i], n ≤ i := by
          intro vis hb n hn
          simp only [List.mem_append, List.mem_singleton] at hn
          rcases hn with hn | rfl
          · have := hb n hn; omega
          · exact Nat.le_refl _
        have hrec : ∀ j, j < i → E.ChainSpec (encChain E.defs E.res fuel) j := fun j hj => ih j (by omega)
        simp only [hd]
        cases hdata : d.data with
        | inl v =>
          simp only
          have hr := (hready (fun n => R n + d.kwargs.occ n + d.args.occ n) (by intro n; simp only [Def.occ, hdata]; omega)).emit (.obj v)
          have hr' := hr.ready
          rw [List.append_nil] at hr'
          have hs : slots (sym ++ [STok.t (.obj v)]) = slots sym := by rw [slots_append]; simp [slots]
          obtain ⟨e', seg, vis, h1, h2, h3, h4, h5, h6, h7⟩ := encCall_ok hE _ hrec hl d hd (List.mem_cons_self) (by rw [hs]; exact hns) hr'
          rw [hs] at h6
          refine ⟨e', [STok.t (.obj v)] ++ seg, vis ++ [i], h1, ?_, chainOK_value _ _ _ _ i d v hdata seg _ h6, hle vis h4, by simp⟩
          rw [List.append_assoc] at h2 h7
          exact hend _ _ _ h2 (fun n => Nat.le_trans (h3 n) (hmono n)) h4 (by intro n hn; exact h5 n (by simpa [slots_append, slots] using hn)) h7
        | inr j =>
          simp only
          have hj := hE.nodes i d hl hd j (by simp [Def.nodes, hdata])
          have hr := hready (fun n => (R n + d.kwargs.occ n + d.args.occ n) + if j = n then 1 else 0) (by intro n; simp only [Def.occ, hdata]; omega)
          obtain ⟨e1, segc, visc, g1, g2, g3, g4, _⟩ := hrec j hj.1 i _ _ _ _ hj.1 (by omega) hj.2 hr
          have hns' : i ∉ slots (sym ++ segc) := by
            rw [slots_append]
            intro hc
            rcases List.mem_append.1 hc with hc | hc
            · exact hns hc
            · exact absurd (g2.below i (g2.new i hc)) (by omega)
          obtain ⟨e', seg, vis, h1, h2, h3, h4, h5, h6, h7⟩ := encCall_ok hE _ hrec hl d hd (List.mem_append_left _ List.mem_cons_self) hns' g2.ready
          rw [slots_append] at h6
          have hb : ∀ n ∈ visc ++ vis, n < i := by
            intro n hn
            rcases List.mem_append.1 hn with hn | hn
            · exact g2.below n hn
            · exact h4 n hn
          refine ⟨e', segc ++ seg, (visc ++ vis) ++ [i], ?_, ?_, ?_, hle _ hb, by simp⟩
          · rw [g1]; exact h1
          · rw [List.append_assoc] at h7
            have h2' : E.Ready i R e' (sym ++ (segc ++ seg)) ((i :: st) ++ (visc ++ vis)) := by
              rw [← List.append_assoc, ← List.append_assoc]; exact h2
            refine hend _ _ _ h2' (fun n => Nat.le_trans (h3 n) (Nat.le_trans (g2.mono n) (hmono n))) hb ?_ h7
            intro n hn
            rw [slots_append] at hn
            rcases List.mem_append.1 hn with hn | hn
            · left; exact List.mem_append_left _ (g2.new n hn)
            · rcases h5 n hn with h | h
              · left; exact List.mem_append_right _ h
              · exact Or.inr h
          · rw [List.append_assoc]
            exact chainOK_node _ _ _ _ i j d hdata segc seg visc (vis ++ [i]) g3 h6
