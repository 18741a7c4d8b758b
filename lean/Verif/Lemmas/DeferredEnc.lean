import Verif.Lemmas.Deferred
/-
The list that is written: what the places hold, and that the counters of subscribers never run out.
-/

variable {V F : Type}

/-- the nodes that are referred to -/
def usesOf : List (STok V F) → List Nat
  | [] => []
  | .use n :: s => n :: usesOf s
  | _ :: s => usesOf s

theorem usesOf_append (a b : List (STok V F)) : usesOf (a ++ b) = usesOf a ++ usesOf b := by
  induction a with
  | nil => rfl
  | cons x a ih => cases x <;> simp [usesOf, ih]

theorem usesOf_plain (l : List (WTok V F)) : usesOf (l.map STok.t) = [] := by
  induction l with
  | nil => rfl
  | cons x l ih => simpa [usesOf] using ih

theorem mem_usesOf (s : List (STok V F)) (n : Nat) : n ∈ usesOf s ↔ STok.use n ∈ s := by
  induction s with
  | nil => simp [usesOf]
  | cons x s ih => cases x <;> simp [usesOf, ih]

/-- what the places hold in the present state -/
def Enc.fill (e : Enc V F) (sym : List (STok V F)) : Fill :=
  ⟨fun n => (e.pos n).getD 0, fun n => (usesOf sym).contains n, fun n => decide (0 < e.subs n)⟩

/-- the state of the encoder: `sym` describes the list, `st` are the nodes that have been started -/
structure EInv (live : Nat → Prop) (bnd : Nat) (e : Enc V F) (sym : List (STok V F)) (st : List Nat) : Prop where
  out : e.out = sym.map (e.fill sym).tok
  ref : ∀ (n q : Nat), sym[q]? = some (STok.refSlot n) → e.pos n = some q ∧ sym[q + 1]? = some (STok.retSlot n)
  ret : ∀ (n q : Nat), sym[q]? = some (STok.retSlot n) → ∃ p, q = p + 1 ∧ 0 < p ∧ e.pos n = some p ∧ sym[p]? = some (STok.refSlot n)
  fresh : ∀ n, (live n ∨ bnd ≤ n) → n ∉ slots sym → e.pos n = none
  nodup : (slots sym).Nodup
  started : ∀ n ∈ slots sym, n ∈ st
  stLive : ∀ n ∈ st, live n
  stNodup : st.Nodup
  uses : ∀ n ∈ usesOf sym, n ∈ slots sym
  cons : e.cons = (slots sym).filter fun n => decide (0 < e.subs n)

variable {live : Nat → Prop} {bnd : Nat} {e : Enc V F} {sym : List (STok V F)} {st : List Nat}

theorem EInv.good (h : EInv live bnd e sym st) : (e.fill sym).Good (slots sym) := by
  refine ⟨?_, ?_⟩
  · intro n hn
    obtain ⟨q, hq⟩ := List.getElem?_of_mem ((mem_slots sym n).1 hn)
    obtain ⟨p, _, hp, hpos, _⟩ := h.ret n q hq
    simpa [Enc.fill, hpos] using hp
  · intro n hn m hm hnm
    obtain ⟨q, hq⟩ := List.getElem?_of_mem ((mem_slots sym n).1 hn)
    obtain ⟨p, _, _, hpos, hs⟩ := h.ret n q hq
    obtain ⟨q', hq'⟩ := List.getElem?_of_mem ((mem_slots sym m).1 hm)
    obtain ⟨p', _, _, hpos', hs'⟩ := h.ret m q' hq'
    simp only [Enc.fill, hpos, hpos', Option.getD_some] at hnm
    subst hnm
    rw [hs] at hs'
    simpa using hs'

theorem EInv.usesOK (_ : EInv live bnd e sym st) : (e.fill sym).Uses sym := by
  intro n hn
  simpa [Enc.fill] using (mem_usesOf sym n).2 hn

theorem EInv.length (h : EInv live bnd e sym st) : e.out.length = sym.length := by
  rw [h.out, List.length_map]

theorem getElem?_append_of_some {α : Type} {l : List α} {q : Nat} {x : α} (h : l[q]? = some x) (l' : List α) : (l ++ l')[q]? = some x := by
  obtain ⟨hq, _⟩ := List.getElem?_eq_some_iff.1 h
  rw [List.getElem?_append_left hq, h]

theorem getElem?_plain {sym : List (STok V F)} {toks : List (WTok V F)} {q : Nat} {x : STok V F} (h : (sym ++ toks.map STok.t)[q]? = some x)
    (hx : ∀ y, x ≠ STok.t y) : sym[q]? = some x := by
  by_cases hq : q < sym.length
  · rwa [List.getElem?_append_left hq] at h
  · rw [List.getElem?_append_right (by omega), List.getElem?_map] at h
    cases ht : toks[q - sym.length]? with
    | none => rw [ht] at h; simp at h
    | some y =>
      rw [ht] at h
      simp only [Option.map_some, Option.some.injEq] at h
      exact absurd h.symm (hx y)

theorem fill_plain (e : Enc V F) (o : List (WTok V F)) (sym : List (STok V F)) (toks : List (WTok V F)) :
    Enc.fill { e with out := o } (sym ++ toks.map STok.t) = e.fill sym := by
  simp [Enc.fill, usesOf_append, usesOf_plain]

/-- plain elements are appended -/
theorem EInv.emits (h : EInv live bnd e sym st) (toks : List (WTok V F)) :
    EInv live bnd { e with out := e.out ++ toks } (sym ++ toks.map STok.t) st := by
  have hs : slots (sym ++ toks.map STok.t) = slots sym := by rw [slots_append, slots_plain, List.append_nil]
  refine ⟨?_, ?_, ?_, ?_, ?_, ?_, h.stLive, h.stNodup, ?_, ?_⟩
  · rw [fill_plain, List.map_append, map_plain]; simp only; rw [← h.out]
  · intro n q hq
    obtain ⟨h1, h2⟩ := h.ref n q (getElem?_plain hq (by simp))
    exact ⟨h1, getElem?_append_of_some h2 _⟩
  · intro n q hq
    obtain ⟨p, h1, h2, h3, h4⟩ := h.ret n q (getElem?_plain hq (by simp))
    exact ⟨p, h1, h2, h3, getElem?_append_of_some h4 _⟩
  · intro n hn hns; rw [hs] at hns; exact h.fresh n hn hns
  · rw [hs]; exact h.nodup
  · rw [hs]; exact h.started
  · intro n hn
    rw [usesOf_append, usesOf_plain, List.append_nil] at hn
    rw [hs]; exact h.uses n hn
  · rw [hs]; exact h.cons

theorem EInv.emit (h : EInv live bnd e sym st) (x : WTok V F) : EInv live bnd (e.emit x) (sym ++ [STok.t x]) st := h.emits [x]

/-- a node is started -/
theorem EInv.start (h : EInv live bnd e sym st) {i : Nat} (hi : live i) (hst : i ∉ st) : EInv live bnd e sym (i :: st) :=
  ⟨h.out, h.ref, h.ret, h.fresh, h.nodup, fun n hn => List.mem_cons_of_mem _ (h.started n hn),
    by intro n hn; rcases List.mem_cons.1 hn with rfl | hn; exact hi; exact h.stLive n hn, List.nodup_cons.2 ⟨hst, h.stNodup⟩, h.uses, h.cons⟩

theorem EInv.perm (h : EInv live bnd e sym st) {st' : List Nat} (hp : st.Perm st') : EInv live bnd e sym st' :=
  ⟨h.out, h.ref, h.ret, h.fresh, h.nodup, fun n hn => hp.mem_iff.1 (h.started n hn),
    fun n hn => h.stLive n (hp.mem_iff.2 hn), hp.nodup_iff.1 h.stNodup, h.uses, h.cons⟩

/-- the list after an entry has changed -/
theorem map_set_slot {α β : Type} (g g' : α → β) (l : List α) (p : Nat) (b : β) (h1 : ∀ q x, l[q]? = some x → q ≠ p → g x = g' x)
    (h2 : ∀ x, l[p]? = some x → g' x = b) : (l.map g).set p b = l.map g' := by
  apply List.ext_getElem?
  intro q
  rw [List.getElem?_set, List.getElem?_map, List.getElem?_map]
  by_cases hq : p = q
  · subst hq
    rw [if_pos rfl, List.length_map]
    by_cases hl : p < l.length
    · rw [if_pos hl, List.getElem?_eq_getElem hl, Option.map_some, h2 _ (List.getElem?_eq_getElem hl)]
    · rw [if_neg hl, List.getElem?_eq_none (by omega)]; rfl
  · rw [if_neg hq]
    cases hx : l[q]? with
    | none => rfl
    | some x => rw [Option.map_some, Option.map_some, h1 q x hx (fun h => hq h.symm)]

/-- a counter of a node without places changes -/
theorem EInv.unsub (h : EInv live bnd e sym st) {i : Nat} (hi : i ∉ slots sym) (k : Nat) :
    EInv live bnd { e with subs := fun n => if n = i then k else e.subs n } sym st := by
  refine ⟨?_, h.ref, h.ret, h.fresh, h.nodup, h.started, h.stLive, h.stNodup, h.uses, ?_⟩
  · rw [h.out]
    apply List.map_congr_left
    intro x hx
    cases x with
    | t x => rfl
    | refSlot n => rfl
    | use n => rfl
    | retSlot n =>
      have hn : n ≠ i := by rintro rfl; exact hi ((mem_slots sym n).2 hx)
      simp [Fill.tok, Enc.fill, hn]
  · rw [h.cons]
    apply List.filter_congr
    intro n hn
    have hn : n ≠ i := by rintro rfl; exact hi hn
    simp [hn]

theorem filter_erase_nodup {l : List Nat} (hl : l.Nodup) (i : Nat) (p q : Nat → Bool) (hq : q i = false) (h : ∀ n, n ≠ i → p n = q n) :
    l.filter q = (l.filter p).erase i := by
  induction l with
  | nil => rfl
  | cons a l ih =>
    obtain ⟨ha, hl⟩ := List.nodup_cons.1 hl
    by_cases hai : a = i
    · subst hai
      have hl' : l.filter q = l.filter p := List.filter_congr fun n hn => (h n (fun h => ha (h ▸ hn))).symm
      rw [List.filter_cons_of_neg (by simp [hq]), hl']
      cases hp : p a
      · rw [List.filter_cons_of_neg (by simp [hp]), List.erase_of_not_mem (by simp [ha])]
      · rw [List.filter_cons_of_pos hp, List.erase_cons_head]
    · cases hp : p a
      · have hqa : q a = false := by rw [← h a hai, hp]
        rw [List.filter_cons_of_neg (by simp [hqa]), List.filter_cons_of_neg (by simp [hp]), ih hl]
      · have hqa : q a = true := by rw [← h a hai, hp]
        rw [List.filter_cons_of_pos hqa, List.filter_cons_of_pos hp, List.erase_cons_tail (by simpa using hai), ih hl]

/-- one more reference to a node that has its places -/
theorem EInv.refer (h : EInv live bnd e sym st) {i p : Nat} (hi : i ∈ slots sym) (hp : e.pos i = some p) (hsub : e.subs i ≠ 0) :
    EInv live bnd (({ e with subs := fun n => if n = i then e.subs i - 1 else e.subs n } : Enc V F).refer i p) (sym ++ [STok.t .ref, STok.use i]) st := by
  have hs : slots (sym ++ [STok.t .ref, STok.use i]) = slots sym := by rw [slots_append]; simp [slots]
  have hu : usesOf (sym ++ [STok.t .ref, STok.use i]) = usesOf sym ++ [i] := by rw [usesOf_append]; simp [usesOf]
  obtain ⟨q, hq⟩ := List.getElem?_of_mem ((mem_slots sym i).1 hi)
  obtain ⟨p', hq1, hp0, hp1, hp2⟩ := h.ret i q hq
  obtain rfl : p = p' := by rw [hp] at hp1; simpa using hp1
  subst hq1
  -- the counters, positions and consumers afterwards
  generalize hE : ({ e with subs := fun n => if n = i then e.subs i - 1 else e.subs n } : Enc V F).refer i p = E
  have hpos : E.pos = e.pos := by
    rw [← hE]; simp only [Enc.refer, Enc.emit, if_true]; split <;> rfl
  have hsubs : E.subs = fun n => if n = i then e.subs i - 1 else e.subs n := by
    rw [← hE]; simp only [Enc.refer, Enc.emit, if_true]; split <;> rfl
  have hlast : ∀ {q : Nat} {x : STok V F}, (sym ++ [STok.t .ref, STok.use i])[q]? = some x → (x = STok.t .ref ∨ x = STok.use i) ∨ sym[q]? = some x := by
    intro q x hx
    by_cases hql : q < sym.length
    · rw [List.getElem?_append_left hql] at hx; exact Or.inr hx
    · rw [List.getElem?_append_right (by omega)] at hx
      left
      have := List.mem_of_getElem? hx
      simpa using this
  refine ⟨?_, ?_, ?_, ?_, ?_, ?_, h.stLive, h.stNodup, ?_, ?_⟩
  · have hfill : E.fill (sym ++ [STok.t .ref, STok.use i]) =
        ⟨fun n => (e.pos n).getD 0, fun n => (usesOf sym ++ [i]).contains n, fun n => decide (0 < if n = i then e.subs i - 1 else e.subs n)⟩ := by
      simp only [Enc.fill, hu, hpos, hsubs]
    -- the first entry
    have h1 : ((sym ++ [STok.t WTok.ref, STok.use i]).map (e.fill sym).tok).set p (WTok.num p) =
        (sym ++ [STok.t WTok.ref, STok.use i]).map
          (⟨fun n => (e.pos n).getD 0, fun n => (usesOf sym ++ [i]).contains n, fun n => decide (0 < e.subs n)⟩ : Fill).tok := by
      apply map_set_slot
      · intro q x hx hqp
        rcases hlast hx with (rfl | rfl) | hx'
        · rfl
        · rfl
        · cases x with
          | t x => rfl
          | use n => rfl
          | retSlot n => rfl
          | refSlot n =>
            have hn : n ≠ i := by
              rintro rfl
              have := (h.ref n q hx').1
              rw [hp] at this
              exact hqp (by simpa using this.symm)
            simp [Fill.tok, Enc.fill, hn]
      · intro x hx
        rw [getElem?_append_of_some hp2] at hx
        simp only [Option.some.injEq] at hx
        subst hx
        simp [Fill.tok, hp]
    have hout : E.out = (if e.subs i - 1 = 0 then
        ((((sym ++ [STok.t WTok.ref, STok.use i]).map (e.fill sym).tok).set p (WTok.num p)).set (p + 1) (WTok.num 0))
        else ((sym ++ [STok.t WTok.ref, STok.use i]).map (e.fill sym).tok).set p (WTok.num p)) := by
      rw [← hE]
      simp only [Enc.refer, Enc.emit, if_true]
      have : (sym ++ [STok.t WTok.ref, STok.use i]).map (e.fill sym).tok = e.out ++ [WTok.ref] ++ [WTok.num p] := by
        rw [List.map_append, ← h.out]
        simp [Fill.tok, Enc.fill, hp]
      rw [this]
      split <;> simp_all
    rw [hout, h1, hfill]
    by_cases hz : e.subs i - 1 = 0
    · rw [if_pos hz]
      apply map_set_slot
      · intro q x hx hqp
        rcases hlast hx with (rfl | rfl) | hx'
        · rfl
        · rfl
        · cases x with
          | t x => rfl
          | use n => rfl
          | refSlot n => rfl
          | retSlot n =>
            have hn : n ≠ i := by
              rintro rfl
              obtain ⟨p', h3, _, h4, _⟩ := h.ret n q hx'
              rw [hp] at h4
              simp only [Option.some.injEq] at h4
              exact hqp (by omega)
            simp [Fill.tok, hn]
      · intro x hx
        rw [getElem?_append_of_some hq] at hx
        simp only [Option.some.injEq] at hx
        subst hx
        simp [Fill.tok, hz]
    · rw [if_neg hz]
      apply List.map_congr_left
      intro x _
      cases x with
      | t x => rfl
      | use n => rfl
      | refSlot n => rfl
      | retSlot n =>
        by_cases hn : n = i
        · subst hn
          have : 0 < e.subs n := by omega
          have h' : 0 < e.subs n - 1 := by omega
          simp [Fill.tok, this, h']
        · simp [Fill.tok, hn]
  · intro n q hq
    rcases hlast hq with (h | h) | hx
    · cases h
    · cases h
    · obtain ⟨h1, h2⟩ := h.ref n q hx
      rw [hpos]
      exact ⟨h1, getElem?_append_of_some h2 _⟩
  · intro n q hq
    rcases hlast hq with (h | h) | hx
    · cases h
    · cases h
    · obtain ⟨p', h1, h2, h3, h4⟩ := h.ret n q hx
      rw [hpos]
      exact ⟨p', h1, h2, h3, getElem?_append_of_some h4 _⟩
  · intro n hn hns
    rw [hs] at hns
    rw [hpos]
    exact h.fresh n hn hns
  · rw [hs]; exact h.nodup
  · rw [hs]; exact h.started
  · intro n hn
    rw [hu] at hn
    rw [hs]
    rcases List.mem_append.1 hn with hn | hn
    · exact h.uses n hn
    · simp only [List.mem_singleton] at hn; subst hn; exact hi
  · have hc : E.cons = if e.subs i - 1 = 0 then e.cons.erase i else e.cons := by
      rw [← hE]; simp only [Enc.refer, Enc.emit, if_true]; split <;> rfl
    rw [hc, hs, hsubs, h.cons]
    by_cases hz : e.subs i - 1 = 0
    · rw [if_pos hz]
      exact (filter_erase_nodup h.nodup i _ _ (by simp [hz]) (by intro n hn; simp [hn])).symm
    · rw [if_neg hz]
      apply List.filter_congr
      intro n _
      by_cases hn : n = i
      · subst hn
        have : 0 < e.subs n := by omega
        have h' : 0 < e.subs n - 1 := by omega
        simp [this, h']
      · simp [hn]

/-- the end of a call -/
theorem EInv.finish (h : EInv live bnd e sym st) {i : Nat} (hi : i ∈ st) (hns : i ∉ slots sym) (hsym : 0 < sym.length) :
    EInv live bnd (e.finish i) (sym ++ tailSlots i (decide (0 < e.subs i))) st := by
  by_cases hz : 0 < e.subs i
  · have hsl : slots (sym ++ [STok.refSlot i, STok.retSlot i]) = slots sym ++ [i] := by rw [slots_append]; simp [slots]
    have hu : usesOf (sym ++ [STok.refSlot i, STok.retSlot i]) = usesOf sym := by rw [usesOf_append]; simp [usesOf]
    have hE : e.finish i = { e with pos := fun n => if n = i then some e.out.length else e.pos n, cons := e.cons ++ [i], out := e.out ++ [.num 0, .num 1] } := by
      simp [Enc.finish, Enc.emit, hz]
    rw [hE, h.length]
    simp only [tailSlots, hz, decide_true, if_true]
    have hin : ∀ {q : Nat} {x : STok V F}, (sym ++ [STok.refSlot i, STok.retSlot i])[q]? = some x →
        (q = sym.length ∧ x = STok.refSlot i) ∨ (q = sym.length + 1 ∧ x = STok.retSlot i) ∨ sym[q]? = some x := by
      intro q x hx
      by_cases hql : q < sym.length
      · rw [List.getElem?_append_left hql] at hx; exact Or.inr (Or.inr hx)
      · rw [List.getElem?_append_right (by omega)] at hx
        by_cases h0 : q = sym.length
        · subst h0; simp at hx; exact Or.inl ⟨rfl, hx.symm⟩
        · by_cases h1 : q = sym.length + 1
          · subst h1; simp at hx; exact Or.inr (Or.inl ⟨rfl, hx.symm⟩)
          · rw [List.getElem?_eq_none (by simp; omega)] at hx; simp at hx
    have hne : ∀ n, n ∈ slots sym → n ≠ i := by rintro n hn rfl; exact hns hn
    refine ⟨?_, ?_, ?_, ?_, ?_, ?_, h.stLive, h.stNodup, ?_, ?_⟩
    · have hnu : i ∉ usesOf sym := fun hc => hns (h.uses i hc)
      simp only [List.map_append, List.map_cons, List.map_nil]
      rw [h.out]
      congr 1
      · apply List.map_congr_left
        intro x hx
        cases x with
        | t x => rfl
        | use n =>
          have := hne n (h.uses n ((mem_usesOf sym n).2 hx))
          simp [Fill.tok, Enc.fill, this]
        | retSlot n => simp [Fill.tok, Enc.fill]
        | refSlot n =>
          obtain ⟨q, hq⟩ := List.getElem?_of_mem hx
          have := hne n ((mem_slots sym n).2 (List.mem_of_getElem? (h.ref n q hq).2))
          simp [Fill.tok, Enc.fill, this, hu]
      · have hb : (usesOf sym).contains i = false := by simpa using hnu
        simp only [Fill.tok, Enc.fill, hu, hb, hz]
        simp
    · intro n q hq
      rcases hin hq with ⟨rfl, hx⟩ | ⟨rfl, hx⟩ | hx
      · cases hx
        refine ⟨by simp, ?_⟩
        rw [List.getElem?_append_right (by omega)]
        simp
      · cases hx
      · obtain ⟨h1, h2⟩ := h.ref n q hx
        have := hne n ((mem_slots sym n).2 (List.mem_of_getElem? h2))
        exact ⟨by simp only [this, if_false]; exact h1, getElem?_append_of_some h2 _⟩
    · intro n q hq
      rcases hin hq with ⟨rfl, hx⟩ | ⟨rfl, hx⟩ | hx
      · cases hx
      · cases hx
        refine ⟨sym.length, rfl, hsym, by simp, ?_⟩
        rw [List.getElem?_append_right (by omega)]
        simp
      · obtain ⟨p, h1, h2, h3, h4⟩ := h.ret n q hx
        have := hne n ((mem_slots sym n).2 (List.mem_of_getElem? hx))
        exact ⟨p, h1, h2, by simp only [this, if_false]; exact h3, getElem?_append_of_some h4 _⟩
    · intro n hn hnn
      rw [hsl] at hnn
      simp only [List.mem_append, List.mem_singleton, not_or] at hnn
      simp only [hnn.2, if_false]
      exact h.fresh n hn hnn.1
    · rw [hsl, List.nodup_append]
      exact ⟨h.nodup, by simp, by intro a ha b hb; simp only [List.mem_singleton] at hb; subst hb; exact hne a ha⟩
    · intro n hn
      rw [hsl] at hn
      rcases List.mem_append.1 hn with hn | hn
      · exact h.started n hn
      · simp only [List.mem_singleton] at hn; subst hn; exact hi
    · intro n hn
      rw [hu] at hn
      rw [hsl]
      exact List.mem_append_left _ (h.uses n hn)
    · rw [hsl, List.filter_append, ← h.cons]
      simp [hz]
  · have hE : e.finish i = { e with out := e.out ++ [.num 0, .num 0] } := by
      simp [Enc.finish, Enc.emit, hz]
    rw [hE]
    simp only [tailSlots, hz, decide_false]
    exact h.emits [.num 0, .num 0]
