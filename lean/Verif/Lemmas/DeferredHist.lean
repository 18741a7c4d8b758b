import Verif.Lemmas.DeferredRun
/-
Executing a node, and all histories of calls.
-/

variable {V F : Type}

theorem setResults_ok (size : V → Nat × Nat) (val : Nat → V) : ∀ (cons : List Nat) (pre : List Nat) (t : Tasks V F),
    setResults (pre ++ (cons.map val).flatMap fun v => [(size v).1, (size v).2]) pre.length cons (cons.map val) t =
      some { t with res := fun m => if m ∈ cons then some (val m) else t.res m,
                    shape := fun m => if m ∈ cons then some (size (val m)) else t.shape m } := by
  intro cons
  induction cons with
  | nil => intro pre t; simp [setResults]
  | cons n cons ih =>
    intro pre t
    have h1 : (pre ++ ((n :: cons).map val).flatMap fun v => [(size v).1, (size v).2])[pre.length]? = some (size (val n)).1 := by simp
    have h2 : (pre ++ ((n :: cons).map val).flatMap fun v => [(size v).1, (size v).2])[pre.length + 1]? = some (size (val n)).2 := by
      rw [List.getElem?_append_right (by omega)]
      simp [show pre.length + 1 - pre.length = 1 by omega]
    simp only [List.map_cons, setResults] at h1 h2 ⊢
    rw [h1, h2]
    simp only
    have h3 := ih (pre ++ [(size (val n)).1, (size (val n)).2])
      { t with res := fun m => if m = n then some (val n) else t.res m, shape := fun m => if m = n then some ((size (val n)).1, (size (val n)).2) else t.shape m }
    have h4 : (pre ++ [(size (val n)).1, (size (val n)).2]).length = pre.length + 2 := by simp
    rw [h4] at h3
    simp only [List.flatMap_cons, ← List.append_assoc] at h3 ⊢
    rw [h3]
    congr 2
    · funext m
      by_cases hm : m ∈ cons
      · simp [hm]
      · by_cases hmn : m = n
        · subst hmn; simp
        · simp [hm, hmn]
    · funext m
      by_cases hm : m ∈ cons
      · simp [hm]
      · by_cases hmn : m = n
        · subst hmn; simp
        · simp [hm, hmn]

theorem Args.occ_pos {a : Args V} {n : Nat} (h : n ∈ a.nodes) : 1 ≤ a.occ n := by
  induction a with
  | nil => simp [Args.nodes] at h
  | val v rest ih => exact ih h
  | node i rest ih =>
    simp only [Args.nodes, List.mem_cons] at h
    simp only [Args.occ]
    rcases h with rfl | h
    · simp only [if_true]; omega
    · have := ih h; omega
  | list l rest ih1 ih2 =>
    simp only [Args.nodes, List.mem_append] at h
    simp only [Args.occ]
    rcases h with h | h
    · have := ih1 h; omega
    · have := ih2 h; omega

theorem Def.occ_pos {d : Def V F} {n : Nat} (h : n ∈ d.nodes) : 1 ≤ d.occ n := by
  simp only [Def.nodes, List.mem_append] at h
  unfold Def.occ
  rcases h with (h | h) | h
  · cases hd : d.data with
    | inl v => rw [hd] at h; simp at h
    | inr i =>
      rw [hd] at h
      simp only [List.mem_singleton] at h
      subst h
      simp only [if_true]; omega
  · have := Args.occ_pos h; omega
  · have := Args.occ_pos h; omega

theorem Args.values_congr {a : Args V} {v w : Nat → V} (h : ∀ n ∈ a.nodes, v n = w n) : a.values v = a.values w := by
  induction a with
  | nil => rfl
  | val x rest ih => simp only [Args.values]; rw [ih h]
  | node i rest ih =>
    simp only [Args.values]
    rw [h i (by simp [Args.nodes]), ih (fun n hn => h n (by simp [Args.nodes, hn]))]
  | list l rest ih1 ih2 =>
    simp only [Args.values]
    rw [ih1 (fun n hn => h n (by simp [Args.nodes, hn])), ih2 (fun n hn => h n (by simp [Args.nodes, hn]))]

theorem Args.values_flat {a : Args V} (h : a.flat = true) (v : Nat → V) : a.values v = a.plain := by
  induction a with
  | nil => rfl
  | val x rest ih => simp only [Args.values, Args.plain]; rw [ih h]
  | node => simp [Args.flat] at h
  | list => simp [Args.flat] at h

theorem Def.call_congr {d : Def V F} {v w : Nat → V} (h : ∀ n ∈ d.nodes, v n = w n) : d.call v = d.call w := by
  unfold Def.call
  rw [Args.values_congr (a := d.args) (fun n hn => h n (by simp [Def.nodes, hn])), Args.values_congr (a := d.kwargs) (fun n hn => h n (by simp [Def.nodes, hn]))]
  have : d.input v = d.input w := by
    unfold Def.input
    cases hd : d.data with
    | inl x => rfl
    | inr j => exact h j (by simp [Def.nodes, hd])
  rw [this]

def Call.result (app : F → V → VArgs V → List String → VArgs V → V) (c : Call V F) : V := app c.fn c.obj c.args c.names c.kwargs

def Tasks.env (app : F → V → VArgs V → List String → VArgs V → V) (t : Tasks V F) (old : Nat → Bool) (ext : Nat → Nat) (val : Nat → V) : Env V F :=
  ⟨app, t.defs, t.res, old, ext, val⟩

/-- what holds between calls: `val` are the values of the nodes, `old` those that nobody can name any more, `ids` those executed -/
structure HInv (app : F → V → VArgs V → List String → VArgs V → V) (size : V → Nat × Nat) (t : Tasks V F) (val : Nat → V) (old : Nat → Bool) (ids : List Nat) : Prop where
  nodes : ∀ (m : Nat) (d : Def V F), t.defs[m]? = some d → ∀ n ∈ d.nodes, n < m
  names : ∀ (m : Nat) (d : Def V F), t.defs[m]? = some d → d.names.length = d.kwargs.length
  eqs : ∀ (m : Nat) (d : Def V F), t.defs[m]? = some d → val m = (d.call val).result app
  liveNodes : ∀ (m : Nat) (d : Def V F), t.defs[m]? = some d → t.res m = none → old m = false → ∀ n ∈ d.nodes, old n = false
  res : ∀ n v, t.res n = some v → val n = v ∧ t.shape n = some (size v) ∧ n < t.defs.length
  pos : ∀ n, old n = false → t.res n = none → t.pos n = none
  acc : ∀ n, old n = false → t.held n + (t.env app old t.held val).pend [] n ≤ t.subs n
  oldHeld : ∀ n, old n = true → t.held n = 0 ∧ n < t.defs.length
  heldLt : ∀ n, 0 < t.held n → n < t.defs.length
  log : t.log = callsOf t.defs val ids
  nodup : ids.Nodup
  mem : ∀ n, n ∈ ids ↔ n < t.defs.length ∧ (old n = true ∨ t.res n ≠ none)

theorem HInv.init (app : F → V → VArgs V → List String → VArgs V → V) (size : V → Nat × Nat) (val : Nat → V) :
    HInv app size ({} : Tasks V F) val (fun _ => false) [] := by
  constructor <;> simp [callsOf, Env.pend, Tasks.env]

theorem sum_filter_le {l : List Nat} (p q : Nat → Bool) (g g' : Nat → Nat) (h : ∀ m ∈ l, q m = true → p m = true) (hg : ∀ m ∈ l, q m = true → g' m ≤ g m) :
    ((l.filter q).map g').sum ≤ ((l.filter p).map g).sum := by
  induction l with
  | nil => simp
  | cons a l ih =>
    have ih := ih (fun m hm => h m (List.mem_cons_of_mem _ hm)) (fun m hm => hg m (List.mem_cons_of_mem _ hm))
    cases hq : q a
    · rw [List.filter_cons_of_neg (by simp [hq])]
      cases hp : p a
      · rw [List.filter_cons_of_neg (by simp [hp])]; exact ih
      · rw [List.filter_cons_of_pos hp]; simp only [List.map_cons, List.sum_cons]; omega
    · rw [List.filter_cons_of_pos hq, List.filter_cons_of_pos (h a List.mem_cons_self hq)]
      have := hg a List.mem_cons_self hq
      simp only [List.map_cons, List.sum_cons]; omega

theorem le_pend {E : Env V F} {st : List Nat} {m : Nat} (hl : E.live m = true) (hst : m ∉ st) (n : Nat) : occAt E.defs m n ≤ E.pend st n := by
  rw [Env.pend_start hl hst]; omega

section
variable {app : F → V → VArgs V → List String → VArgs V → V} {size : V → Nat × Nat} {t : Tasks V F} {val : Nat → V} {old : Nat → Bool} {ids : List Nat}

theorem HInv.envWF (h : HInv app size t val old ids) (ext : Nat → Nat) : (t.env app old ext val).WF := by
  have hl : ∀ m, (t.env app old ext val).live m = true → t.res m = none ∧ old m = false := by
    intro m hm
    simp [Env.live, Tasks.env] at hm
    exact ⟨hm.2, hm.1.2⟩
  refine ⟨?_, ?_, ?_, ?_⟩
  · intro m d hm hd n hn
    exact ⟨h.nodes m d hd n hn, h.liveNodes m d hd (hl m hm).1 (hl m hm).2 n hn⟩
  · intro m d _ hd; exact h.names m d hd
  · intro m d _ hd; exact h.eqs m d hd
  · intro m v hv; exact (h.res m v hv).1

/-- the state after some nodes have been executed -/
theorem HInv.executed (h : HInv app size t val old ids) {t' : Tasks V F} (vis cons : List Nat) (hvis : vis.Nodup)
    (hlive : ∀ n ∈ vis, (t.env app old t.held val).live n = true) (hcons : ∀ n ∈ cons, n ∈ vis)
    (hdefs : t'.defs = t.defs) (hheld : t'.held = t.held) (hlog : t'.log = t.log ++ callsOf t.defs val vis)
    (hres : t'.res = fun m => if m ∈ cons then some (val m) else t.res m)
    (hshape : t'.shape = fun m => if m ∈ cons then some (size (val m)) else t.shape m)
    (hpos : ∀ n, old n = false → t.res n = none → n ∉ vis → t'.pos n = none)
    (hacc : ∀ n, old n = false → t.held n + (t.env app old t.held val).pend vis n ≤ t'.subs n)
    (hspent : ∀ n ∈ vis, n ∉ cons → t'.subs n = 0) :
    HInv app size t' val (fun n => old n || (vis.contains n && !cons.contains n)) (ids ++ vis) := by
  have hl : ∀ m, (t.env app old t.held val).live m = true ↔ m < t.defs.length ∧ old m = false ∧ t.res m = none := by
    intro m
    show (decide (m < t.defs.length) && !old m && (t.res m).isNone) = true ↔ _
    simp [and_assoc]
  have hnew : ∀ n, (old n || (vis.contains n && !cons.contains n)) = false ↔ old n = false ∧ (n ∈ vis → n ∈ cons) := by
    intro n
    by_cases h1 : n ∈ vis <;> by_cases h2 : n ∈ cons <;> simp [h1, h2]
  -- a node that is still wanted was not executed
  have hstill : ∀ m, (t'.env app (fun n => old n || (vis.contains n && !cons.contains n)) t'.held val).live m = true →
      (t.env app old t.held val).live m = true ∧ m ∉ vis := by
    intro m hm
    simp only [Env.live, Tasks.env, hdefs, hres, Bool.and_eq_true, decide_eq_true_eq, Bool.not_eq_true', hnew, Option.isNone_iff_eq_none] at hm
    obtain ⟨⟨h1, h2, h3⟩, h4⟩ := hm
    by_cases hc : m ∈ cons
    · simp [hc] at h4
    · rw [if_neg hc] at h4
      exact ⟨(hl m).2 ⟨h1, h2, h4⟩, fun hv => hc (h3 hv)⟩
  have hpend : ∀ n, (t'.env app (fun n => old n || (vis.contains n && !cons.contains n)) t'.held val).pend [] n ≤ (t.env app old t.held val).pend vis n := by
    intro n
    unfold Env.pend
    have : (t'.env app (fun n => old n || (vis.contains n && !cons.contains n)) t'.held val).defs = (t.env app old t.held val).defs := hdefs
    rw [this]
    apply sum_filter_le
    · intro m _ hm
      simp only [List.contains_nil, Bool.not_false, Bool.and_true] at hm
      have := hstill m hm
      simp [this.1, this.2]
    · intro m _ _; exact Nat.le_refl _
  refine ⟨by rw [hdefs]; exact h.nodes, by rw [hdefs]; exact h.names, by rw [hdefs]; exact h.eqs, ?_, ?_, ?_, ?_, ?_, by rw [hdefs, hheld]; exact h.heldLt, ?_, ?_, ?_⟩
  · intro m d hd hr ho n hn
    rw [hdefs] at hd
    have hm := hstill m (by
      have hlt : m < t.defs.length := (List.getElem?_eq_some_iff.1 hd).1
      simp only [Env.live, Tasks.env, hdefs, Bool.and_eq_true, decide_eq_true_eq, Bool.not_eq_true', Option.isNone_iff_eq_none]
      exact ⟨⟨hlt, ho⟩, hr⟩)
    obtain ⟨h1, h2, h3⟩ := (hl m).1 hm.1
    have hon := h.liveNodes m d hd h3 h2 n hn
    rw [hnew]
    refine ⟨hon, fun hv => ?_⟩
    by_cases hc : n ∈ cons
    · exact hc
    · exfalso
      have h4 := hacc n hon
      rw [hspent n hv hc] at h4
      have h5 := le_pend hm.1 hm.2 n
      have h6 : occAt (t.env app old t.held val).defs m n = d.occ n := by simp [occAt, Tasks.env, hd]
      have h7 := Def.occ_pos hn
      omega
  · intro n v hv
    rw [hres] at hv
    rw [hshape, hdefs]
    by_cases hc : n ∈ cons
    · simp only [hc, if_true, Option.some.injEq] at hv ⊢
      subst hv
      exact ⟨rfl, rfl, ((hl n).1 (hlive n (hcons n hc))).1⟩
    · simp only [hc, if_false] at hv ⊢
      exact h.res n v hv
  · intro n ho hr
    rw [hnew] at ho
    rw [hres] at hr
    by_cases hc : n ∈ cons
    · simp [hc] at hr
    · simp only [hc, if_false] at hr
      exact hpos n ho.1 hr (fun hv => hc (ho.2 hv))
  · intro n ho
    rw [hnew] at ho
    have h1 := hacc n ho.1
    have h2 := hpend n
    rw [hheld] at h2 ⊢
    omega
  · intro n ho
    rw [hdefs, hheld]
    by_cases h1 : old n = true
    · exact h.oldHeld n h1
    · have h1 : old n = false := by simpa using h1
      simp only [h1, Bool.false_or, Bool.and_eq_true, Bool.not_eq_true', List.contains_eq_mem, decide_eq_true_eq, decide_eq_false_iff_not] at ho
      have h2 := hacc n h1
      rw [hspent n ho.1 ho.2] at h2
      exact ⟨by omega, ((hl n).1 (hlive n ho.1)).1⟩
  · rw [hlog, hdefs, h.log, callsOf_append]
  · rw [List.nodup_append]
    refine ⟨h.nodup, hvis, ?_⟩
    rintro a ha b hb rfl
    obtain ⟨h1, h2, h3⟩ := (hl a).1 (hlive a hb)
    rcases ((h.mem a).1 ha).2 with h4 | h4
    · rw [h2] at h4; simp at h4
    · exact h4 h3
  · intro n
    rw [List.mem_append, h.mem, hdefs, hres]
    by_cases hv : n ∈ vis
    · obtain ⟨h1, h2, h3⟩ := (hl n).1 (hlive n hv)
      by_cases hc : n ∈ cons
      · simp [hv, hc, h1]
      · simp [hv, hc, h1]
    · have hc : n ∉ cons := fun hc => hv (hcons n hc)
      simp [hv, hc]

theorem HInv.exec (h : HInv app size t val old ids) {i : Nat} (hlt : i < t.defs.length) (hold : old i = false) :
    ∃ t' old' ids', t.exec app size i = some t' ∧ HInv app size t' val old' ids' ∧ t'.res i = some (val i) ∧ t'.held = t.held ∧ t'.defs = t.defs ∧
      (t.res i = none → i ∈ ids') := by
  unfold Tasks.exec
  cases hres : t.res i with
  | some v =>
    exact ⟨t, old, ids, rfl, h, by rw [hres, (h.res i v hres).1], rfl, rfl, by simp⟩
  | none =>
    obtain ⟨d, hd⟩ : ∃ d, t.defs[i]? = some d := ⟨_, List.getElem?_eq_getElem hlt⟩
    have hl : ∀ ext, (t.env app old ext val).live i = true := by
      intro ext; simp [Env.live, Tasks.env, hlt, hold, hres]
    simp only [hd]
    -- the long way
    have hlong : ∃ e, encChain t.defs t.res (i + 1) i { out := [], subs := fun n => if n = i then t.subs i + 2 else t.subs n, pos := t.pos, cons := [] } = some e ∧
        ∃ r st, decChain app (e.out.length + 1) { toks := e.out } = some (r, st) ∧ ∃ t' old' ids',
          setResults (st.out.flatMap fun v => [(size v).1, (size v).2]) 0 e.cons st.out { t with subs := e.subs, pos := e.pos, log := t.log ++ st.log } = some t' ∧
          HInv app size t' val old' ids' ∧ t'.res i = some (val i) ∧ t'.held = t.held ∧ t'.defs = t.defs ∧ i ∈ ids' := by
      let E := t.env app old (fun n => t.held n + if n = i then 1 else 0) val
      have hpe : ∀ st n, E.pend st n = (t.env app old t.held val).pend st n := fun _ _ => rfl
      have hle : ∀ n, E.live n = (t.env app old t.held val).live n := fun _ => rfl
      have hready : E.Ready (i + 1) (fun n => 0 + if i = n then 1 else 0)
          { out := [], subs := fun n => if n = i then t.subs i + 2 else t.subs n, pos := t.pos, cons := [] } [] [] := by
        refine ⟨⟨rfl, by simp, by simp, ?_, by simp [slots], by simp [slots], by simp, by simp, by simp [usesOf], by simp [slots]⟩, ?_, by intro n hn; simp at hn⟩
        · intro n hn _
          rcases hn with hn | hn
          · simp [Env.live, E, Tasks.env] at hn
            exact h.pos n hn.1.2 hn.2
          · have hon : old n = false := by
              cases ho : old n with
              | false => rfl
              | true => exact absurd (h.oldHeld n ho).2 (by simp [E, Tasks.env] at hn; omega)
            have hrn : t.res n = none := by
              cases hr : t.res n with
              | none => rfl
              | some v => exact absurd (h.res n v hr).2.2 (by simp [E, Tasks.env] at hn; omega)
            exact h.pos n hon hrn
        · intro n hn
          have := h.acc n hn
          rw [hpe]
          by_cases hni : n = i
          · subst hni; simp [E, Tasks.env] at this ⊢; omega
          · have hni' : ¬ i = n := fun h => hni h.symm
            simp [E, Tasks.env, hni, hni'] at this ⊢; omega
      obtain ⟨e, seg, vis, h1, h2, h3, h4, h5⟩ := encChain_ok (h.envWF _) (i + 1) i (by omega) (i + 1) (fun _ => 0) _ [] [] (by omega) hlt hold hready
      simp only [List.nil_append] at h5
      have h2r := h2.ready
      simp only [List.nil_append] at h2r
      refine ⟨e, h1, ?_⟩
      have hi : i ∈ vis := h5 hres
      obtain ⟨R', k, _, hk, h6⟩ := h3 (e.fill seg) (by simpa [slots] using h2r.inv.good) h2r.inv.usesOK [] [] [] (by intro n hn; simp [slots] at hn)
      have h7 := h6 [] (e.out.length + 1) (by rw [h2r.inv.length]; omega)
      rw [List.append_nil, ← h2r.inv.out, h2r.inv.length] at h7
      obtain ⟨m, hm⟩ : ∃ m, seg.length + 1 - k = m + 1 := ⟨seg.length - k, by omega⟩
      rw [hm, decLoop] at h7
      simp only [List.nil_append] at h7
      refine ⟨val i, _, by rw [h2r.inv.length]; exact h7, ?_⟩
      have hy : (e.fill seg).yields val (slots seg) = e.cons.map val := by
        rw [h2r.inv.cons]; rfl
      have hsr := setResults_ok size val e.cons [] { t with subs := e.subs, pos := e.pos, log := t.log ++ callsOf t.defs val vis }
      simp only [List.nil_append, List.length_nil] at hsr
      have hnc : ∀ n ∈ vis, n ∉ e.cons → e.subs n = 0 := by
        intro n hn hc
        rcases h2r.fin n hn (by have := h4 n hn; omega) with h8 | h8
        · rw [h2r.inv.cons, List.mem_filter] at hc
          have : ¬ 0 < e.subs n := fun h9 => hc ⟨h8, by simpa using h9⟩
          omega
        · exact h8
      have hacc : ∀ n, old n = false → (t.held n + if n = i then 1 else 0) + (t.env app old t.held val).pend vis n ≤ e.subs n := by
        intro n hn
        have := h2r.acc n hn
        rw [hpe] at this
        simpa [E, Tasks.env] using this
      have hic : i ∈ e.cons := by
        by_cases hc : i ∈ e.cons
        · exact hc
        · have h8 := hnc i hi hc
          have h9 := hacc i hold
          simp only [if_true] at h9
          omega
      refine ⟨{ t with subs := e.subs, pos := e.pos, log := t.log ++ callsOf t.defs val vis,
                       res := fun m => if m ∈ e.cons then some (val m) else t.res m,
                       shape := fun m => if m ∈ e.cons then some (size (val m)) else t.shape m },
        fun n => old n || (vis.contains n && !e.cons.contains n), ids ++ vis, ?_, ?_, ?_, rfl, rfl, List.mem_append_right _ hi⟩
      · show setResults (((e.fill seg).yields val (slots seg)).flatMap _) 0 e.cons ((e.fill seg).yields val (slots seg)) _ = _
        rw [hy]
        exact hsr
      · refine h.executed vis e.cons h2r.inv.stNodup (fun n hn => by rw [← hle]; exact h2r.inv.stLive n hn) ?_ rfl rfl rfl rfl rfl ?_ ?_ hnc
        · intro n hn
          rw [h2r.inv.cons, List.mem_filter] at hn
          exact h2r.inv.started n hn.1
        · intro n ho hr hv
          refine h2r.inv.fresh n ?_ (fun hs => hv (h2r.inv.started n hs))
          by_cases hn : n < t.defs.length
          · left; simp [Env.live, E, Tasks.env, hn, ho, hr]
          · right; simp [E, Tasks.env]; omega
        · intro n hn
          have := hacc n hn
          simp only at this ⊢
          omega
      · simp [hic]
    have hfromlong : ∃ t' old' ids', (match encChain t.defs t.res (i + 1) i { out := [], subs := fun n => if n = i then t.subs i + 2 else t.subs n, pos := t.pos, cons := [] } with
        | none => none
        | some e =>
          match decChain app (e.out.length + 1) { toks := e.out } with
          | none => none
          | some (_, st) =>
            setResults (st.out.flatMap fun v => [(size v).1, (size v).2]) 0 e.cons st.out
              { t with subs := e.subs, pos := e.pos, log := t.log ++ st.log }) = some t' ∧ HInv app size t' val old' ids' ∧ t'.res i = some (val i) ∧ t'.held = t.held ∧ t'.defs = t.defs ∧ i ∈ ids' := by
      obtain ⟨e, h1, r, st, h2, t', old', ids', h3, h4⟩ := hlong
      exact ⟨t', old', ids', by rw [h1]; simp only [h2]; exact h3, h4⟩
    cases hdata : d.data with
    | inr j =>
      simp only
      obtain ⟨t', old', ids', h1, h2, h3, h4, h5, h6⟩ := hfromlong
      exact ⟨t', old', ids', h1, h2, h3, h4, h5, fun _ => h6⟩
    | inl v =>
      by_cases hf : (d.args.flat && d.kwargs.flat) = true
      · simp only [hf, if_true]
        simp only [Bool.and_eq_true] at hf
        have hcall : d.call val = ⟨d.fn, v, d.args.plain, d.names, d.kwargs.plain⟩ := by
          simp [Def.call, Def.input, hdata, Args.values_flat hf.1, Args.values_flat hf.2]
        have hv : val i = app d.fn v d.args.plain d.names d.kwargs.plain := by
          rw [h.eqs i d hd, hcall]; rfl
        refine ⟨_, fun n => old n || ([i].contains n && ![i].contains n), ids ++ [i], rfl, ?_, by simp [hv], rfl, rfl, fun _ => by simp⟩
        refine h.executed [i] [i] (by simp) (by intro n hn; simp only [List.mem_singleton] at hn; subst hn; exact hl _) (fun _ h => h) rfl rfl ?_ ?_ ?_ ?_ ?_ ?_
        · simp [callsOf, hd, hcall]
        · funext m
          by_cases hm : m = i
          · subst hm; simp [hv]
          · simp [hm]
        · funext m
          by_cases hm : m = i
          · subst hm; simp [hv]
          · simp [hm]
        · intro n ho hr _; exact h.pos n ho hr
        · intro n ho
          have := h.acc n ho
          rw [Env.pend_start (hl _) (by simp)] at this
          simp only
          omega
        · intro n hn hc; exact absurd hn hc
      · have hf' : (d.args.flat && d.kwargs.flat) = false := by simpa using hf
        simp only [hf']
        obtain ⟨t', old', ids', h1, h2, h3, h4, h5, h6⟩ := hfromlong
        exact ⟨t', old', ids', h1, h2, h3, h4, h5, fun _ => h6⟩

end

section
variable {app : F → V → VArgs V → List String → VArgs V → V} {size : V → Nat × Nat} {t : Tasks V F} {val : Nat → V} {old : Nat → Bool} {ids : List Nat}

theorem HInv.notOld (h : HInv app size t val old ids) {n : Nat} (hn : 0 < t.held n) : old n = false := by
  cases ho : old n with
  | false => rfl
  | true => have := (h.oldHeld n ho).1; omega

theorem pend_snoc (defs : List (Def V F)) (d : Def V F) (res : Nat → Option V) (old : Nat → Bool) (ext ext' : Nat → Nat) (val val' : Nat → V)
    (hN : old defs.length = false) (hr : res defs.length = none) (n : Nat) :
    (Env.mk app (defs ++ [d]) res old ext val).pend [] n = (Env.mk app defs res old ext' val').pend [] n + d.occ n := by
  unfold Env.pend
  simp only [List.length_append, List.length_cons, List.length_nil, Nat.zero_add, List.range_succ, List.filter_append, List.map_append, List.sum_append]
  have h1 : ([defs.length].filter fun m => (Env.mk app (defs ++ [d]) res old ext val).live m && !([] : List Nat).contains m) = [defs.length] := by
    simp [Env.live, hN, hr]
  rw [h1]
  have h2 : ((List.range defs.length).filter fun m => (Env.mk app (defs ++ [d]) res old ext val).live m && !([] : List Nat).contains m) =
      (List.range defs.length).filter fun m => (Env.mk app defs res old ext' val').live m && !([] : List Nat).contains m := by
    apply List.filter_congr
    intro m hm
    have := List.mem_range.1 hm
    simp [Env.live, this, Nat.lt_succ_of_lt this]
  rw [h2]
  have h3 : (([defs.length].map fun m => occAt (defs ++ [d]) m n).sum) = d.occ n := by simp [occAt]
  rw [h3]
  congr 2
  apply List.map_congr_left
  intro m hm
  have := List.mem_range.1 (List.mem_filter.1 hm).1
  simp [occAt, List.getElem?_append_left this]

/-- a node is added -/
theorem HInv.construct (h : HInv app size t val old ids) (d : Def V F) (hold : Bool) (hd : ∀ n ∈ d.nodes, 0 < t.held n) (hn : d.names.length = d.kwargs.length) :
    HInv app size (t.construct d hold) (fun n => if n = t.defs.length then (d.call val).result app else val n) old ids := by
  let val' : Nat → V := fun n => if n = t.defs.length then (d.call val).result app else val n
  have hv : ∀ n, n < t.defs.length → val' n = val n := by
    intro n hn
    have : n ≠ t.defs.length := by omega
    simp [val', this]
  have hdn : ∀ n ∈ d.nodes, n < t.defs.length := fun n hn => h.heldLt n (hd n hn)
  have hN : old t.defs.length = false := by
    cases ho : old t.defs.length with
    | false => rfl
    | true => have := (h.oldHeld _ ho).2; omega
  have hr : t.res t.defs.length = none := by
    cases hr : t.res t.defs.length with
    | none => rfl
    | some v => have := (h.res _ v hr).2.2; omega
  have hget : ∀ {m : Nat} {d' : Def V F}, (t.defs ++ [d])[m]? = some d' → (m < t.defs.length ∧ t.defs[m]? = some d') ∨ (m = t.defs.length ∧ d' = d) := by
    intro m d' hm
    by_cases hml : m < t.defs.length
    · rw [List.getElem?_append_left hml] at hm; exact Or.inl ⟨hml, hm⟩
    · rw [List.getElem?_append_right (by omega)] at hm
      right
      by_cases h0 : m = t.defs.length
      · subst h0; simp at hm; exact ⟨rfl, hm.symm⟩
      · rw [List.getElem?_eq_none (by simp; omega)] at hm; simp at hm
  have hcc : ∀ {m : Nat} {d' : Def V F}, t.defs[m]? = some d' → d'.call val' = d'.call val := by
    intro m d' hm
    have hml := (List.getElem?_eq_some_iff.1 hm).1
    exact Def.call_congr fun n hn => hv n (by have := h.nodes m d' hm n hn; omega)
  refine ⟨?_, ?_, ?_, ?_, ?_, h.pos, ?_, ?_, ?_, ?_, h.nodup, ?_⟩
  · intro m d' hm n hnn
    rcases hget hm with ⟨_, hm⟩ | ⟨rfl, rfl⟩
    · exact h.nodes m d' hm n hnn
    · exact hdn n hnn
  · intro m d' hm
    rcases hget hm with ⟨_, hm⟩ | ⟨rfl, rfl⟩
    · exact h.names m d' hm
    · exact hn
  · intro m d' hm
    show val' m = (d'.call val').result app
    rcases hget hm with ⟨hml, hm⟩ | ⟨rfl, rfl⟩
    · rw [hcc hm, hv m hml]; exact h.eqs m d' hm
    · rw [Def.call_congr fun n hn => hv n (hdn n hn)]; simp [val']
  · intro m d' hm hrm hom n hnn
    rcases hget hm with ⟨_, hm⟩ | ⟨rfl, rfl⟩
    · exact h.liveNodes m d' hm hrm hom n hnn
    · exact h.notOld (hd n hnn)
  · intro n v hnv
    obtain ⟨h1, h2, h3⟩ := h.res n v hnv
    refine ⟨?_, h2, by simp [Tasks.construct]; omega⟩
    show val' n = v
    rw [hv n h3, h1]
  · intro n ho
    have h1 := h.acc n ho
    have h2 := pend_snoc (app := app) t.defs d t.res old (t.construct d hold).held t.held val' val hN hr n
    show (t.construct d hold).held n + (Env.mk app (t.defs ++ [d]) t.res old (t.construct d hold).held val').pend [] n ≤ (t.construct d hold).subs n
    rw [h2]
    simp only [Tasks.construct, Tasks.env] at h1 ⊢
    omega
  · intro n ho
    obtain ⟨h1, h2⟩ := h.oldHeld n ho
    have : n ≠ t.defs.length := by omega
    simp [Tasks.construct, h1, this]
    omega
  · intro n hh
    simp only [Tasks.construct, List.length_append, List.length_cons, List.length_nil] at hh ⊢
    by_cases hnn : n = t.defs.length
    · omega
    · simp only [hnn, false_and, if_false, Nat.add_zero] at hh
      have := h.heldLt n hh
      omega
  · show t.log = callsOf (t.defs ++ [d]) val' ids
    rw [h.log]
    unfold callsOf
    have : ∀ n ∈ ids, (t.defs[n]?.map (Def.call val)) = ((t.defs ++ [d])[n]?.map (Def.call val')) := by
      intro n hnn
      have hlt := ((h.mem n).1 hnn).1
      rw [List.getElem?_append_left hlt]
      cases hg : t.defs[n]? with
      | none => rfl
      | some d' => simp only [Option.map_some]; rw [hcc hg]
    clear h
    induction ids with
    | nil => rfl
    | cons a l ih =>
      rw [List.filterMap_cons, List.filterMap_cons, this a (by simp), ih (fun n hn => this n (by simp [hn]))]
  · intro n
    rw [h.mem n]
    simp only [Tasks.construct, List.length_append, List.length_cons, List.length_nil, Nat.zero_add]
    constructor
    · rintro ⟨h1, h2⟩; exact ⟨by omega, h2⟩
    · rintro ⟨h1, h2⟩
      refine ⟨?_, h2⟩
      rcases h2 with h2 | h2
      · exact (h.oldHeld n h2).2
      · cases hrn : t.res n with
        | none => exact absurd hrn h2
        | some v => exact (h.res n v hrn).2.2

/-- a change in the number of partitions that hold a node -/
theorem HInv.reheld (h : HInv app size t val old ids) {subs held : Nat → Nat} (hacc : ∀ n, old n = false → held n + t.subs n ≤ t.held n + subs n)
    (hz : ∀ n, t.held n = 0 → held n = 0) : HInv app size { t with subs := subs, held := held } val old ids := by
  refine ⟨h.nodes, h.names, h.eqs, h.liveNodes, h.res, h.pos, ?_, ?_, ?_, h.log, h.nodup, h.mem⟩
  · intro n ho
    have h1 := h.acc n ho
    have h2 := hacc n ho
    have h3 : (Tasks.env app { t with subs := subs, held := held } old held val).pend [] n = (t.env app old t.held val).pend [] n := rfl
    show held n + (Tasks.env app { t with subs := subs, held := held } old held val).pend [] n ≤ subs n
    rw [h3]
    omega
  · intro n ho
    obtain ⟨h1, h2⟩ := h.oldHeld n ho
    exact ⟨hz n h1, h2⟩
  · intro n hn
    by_cases h0 : t.held n = 0
    · have := hz n h0
      simp only at hn
      omega
    · exact h.heldLt n (by omega)

/-- every possible call succeeds and keeps the invariant -/
theorem HInv.step (h : HInv app size t val old ids) (op : TaskOp V F) (hop : op.possible t) :
    ∃ t' val' old' ids', t.step app size op = some t' ∧ HInv app size t' val' old' ids' := by
  cases op with
  | defer d => exact ⟨_, _, _, _, rfl, h.construct d true hop.1 hop.2⟩
  | apply d =>
    have h1 := h.construct d false hop.1 hop.2
    obtain ⟨t', old', ids', h2, h3, _⟩ := h1.exec (i := t.defs.length) (by simp [Tasks.construct]) (by
      cases ho : old t.defs.length with
      | false => rfl
      | true => have := (h.oldHeld _ ho).2; omega)
    exact ⟨t', _, old', ids', h2, h3⟩
  | copy n =>
    refine ⟨_, val, old, ids, rfl, h.reheld ?_ ?_⟩
    · intro m _
      by_cases hm : m = n
      · subst hm; simp; omega
      · simp [hm]
    · intro m hm
      have hop : 0 < t.held n := hop
      have : m ≠ n := by rintro rfl; omega
      simp [this, hm]
  | delete n =>
    have hop : 0 < t.held n := hop
    have hs : t.subs n ≠ 0 := by have := h.acc n (h.notOld hop); omega
    refine ⟨_, val, old, ids, by simp only [Tasks.step, if_neg hs]; rfl, h.reheld ?_ ?_⟩
    · intro m _
      by_cases hm : m = n
      · subst hm; simp; omega
      · simp [hm]
    · intro m hm
      by_cases hmn : m = n
      · subst hmn; simp [hm]
      · simp [hmn, hm]
  | drain n =>
    have hop : 0 < t.held n := hop
    obtain ⟨t', old', ids', h2, h3, _⟩ := h.exec (h.heldLt n hop) (h.notOld hop)
    refine ⟨_, val, old', ids', by simp only [Tasks.step, h2, Option.map_some]; rfl, h3.reheld (subs := t'.subs) ?_ ?_⟩
    · intro m _
      by_cases hm : m = n
      · subst hm; simp
      · simp [hm]
    · intro m hm
      by_cases hmn : m = n
      · subst hmn; simp [hm]
      · simp [hmn, hm]

end
