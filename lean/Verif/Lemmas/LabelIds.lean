import Verif.Model.LabelIds

/-! Lemmas for C74: what the identifiers of labels and lengths stand for. -/

namespace IFrame

/-- the lengths of the blocks -/
def cuts (f : IFrame) : List Nat := f.blocks.map (·.length)

/-- what is known about a frame is true -/
structure Sound (f : IFrame) : Prop where
  known : ∀ l, f.cache.val = .known l → l = LRows.labels f.rows
  pendL : ∀ l n, f.cache.val = .pending l n → l = LRows.labels f.rows
  pendN : ∀ l n, f.cache.val = .pending l n → n = f.cuts
  pendZ : ∀ l n, f.cache.val = .pending l n → ∀ b ∈ f.blocks, b ≠ []
  lens : ∀ n, f.cache.lens = some n → n = f.cuts
  lensC : ∀ n, f.lensC = some n → n = f.cuts

/-- same identifier, same thing -/
structure Agree (f g : IFrame) : Prop where
  labels : f.cache.iid = g.cache.iid → LRows.labels f.rows = LRows.labels g.rows
  cuts : f.cache.lid = g.cache.lid → f.cuts = g.cuts

/-- only what is known has changed -/
structure Same (f g : IFrame) : Prop where
  blocks : g.blocks = f.blocks
  iid : g.cache.iid = f.cache.iid
  lid : g.cache.lid = f.cache.lid

theorem Same.refl (f : IFrame) : Same f f := ⟨rfl, rfl, rfl⟩
theorem Same.trans {f g h : IFrame} (a : Same f g) (b : Same g h) : Same f h :=
  ⟨b.blocks.trans a.blocks, b.iid.trans a.iid, b.lid.trans a.lid⟩
theorem Same.rows {f g : IFrame} (a : Same f g) : g.rows = f.rows := by simp [IFrame.rows, a.blocks]
theorem Same.cuts {f g : IFrame} (a : Same f g) : g.cuts = f.cuts := by simp [IFrame.cuts, a.blocks]

theorem Agree.same {f g f' g' : IFrame} (h : Agree f g) (hf : Same f f') (hg : Same g g') : Agree f' g' :=
  ⟨fun e => by rw [hf.rows, hg.rows]; exact h.labels (by rw [← hf.iid, ← hg.iid, e]),
   fun e => by rw [hf.cuts, hg.cuts]; exact h.cuts (by rw [← hf.lid, ← hg.lid, e])⟩

/-! ### the steps that only learn -/

/-- the frame with its labels object materialized -/
def learned (f : IFrame) : IFrame := { f with cache := f.cache.get f.blocks }

theorem learned_same (f : IFrame) : Same f f.learned := by
  unfold learned LCache.get
  constructor <;> (dsimp only; try rfl) <;> split <;> rfl

theorem learned_sound {f : IFrame} (h : Sound f) : Sound f.learned := by
  obtain ⟨blocks, ⟨val, lens, iid, lid⟩, lensC⟩ := f
  cases val with
  | known l => exact h
  | pending l n =>
    refine ⟨?_, ?_, ?_, ?_, ?_, h.lensC⟩
    · intro l' e; cases e; exact h.pendL l n rfl
    · intro _ _ e; cases e
    · intro _ _ e; cases e
    · intro _ _ e; cases e
    · intro n' e; cases e; exact h.pendN l n rfl
  | own =>
    refine ⟨?_, ?_, ?_, ?_, ?_, h.lensC⟩
    · intro l' e; cases e; rfl
    · intro _ _ e; cases e
    · intro _ _ e; cases e
    · intro _ _ e; cases e
    · intro n' e; cases e; rfl

theorem learned_labels {f : IFrame} (h : Sound f) : f.learned.cache.labels = LRows.labels f.rows := by
  have hs := learned_sound h
  obtain ⟨blocks, ⟨val, lens, iid, lid⟩, lensC⟩ := f
  cases val with
  | known l => exact h.known l rfl
  | pending l n => exact h.pendL l n rfl
  | own => rfl

theorem learned_lens {f : IFrame} (h : Sound f) (hc : (f.cache.lens.isSome || f.cache.callable) = true) :
    f.learned.cache.lens = some f.cuts := by
  obtain ⟨blocks, ⟨val, lens, iid, lid⟩, lensC⟩ := f
  cases val with
  | known l =>
    cases lens with
    | none => simp [LCache.callable] at hc
    | some n => exact congrArg some (h.lens n rfl)
  | pending l n => exact congrArg some (h.pendN l n rfl)
  | own => rfl

theorem rowLengths_same (f : IFrame) : Same f f.rowLengths := ⟨rfl, rfl, rfl⟩

theorem rowLengths_lensC {f : IFrame} (h : Sound f) : f.rowLengths.lensC = some f.cuts := by
  unfold rowLengths
  dsimp only
  cases e : f.lensC with
  | none => rfl
  | some n => rw [h.lensC n e]; rfl

theorem rowLengths_sound {f : IFrame} (h : Sound f) : Sound f.rowLengths :=
  ⟨h.known, h.pendL, h.pendN, h.pendZ, h.lens, fun n e => by rw [rowLengths_lensC h] at e; cases e; rfl⟩

theorem getIndex_same (f : IFrame) : Same f f.getIndex := by
  have := learned_same f
  exact ⟨this.blocks, this.iid, this.lid⟩

theorem getIndex_labels {f : IFrame} (h : Sound f) : f.getIndex.cache.labels = LRows.labels f.rows := learned_labels h

theorem getIndex_sound {f : IFrame} (h : Sound f) : Sound f.getIndex := by
  have hl := learned_sound h
  refine ⟨hl.known, hl.pendL, hl.pendN, hl.pendZ, hl.lens, ?_⟩
  intro n e
  unfold getIndex at e
  dsimp only at e
  cases e' : f.lensC with
  | none => rw [e'] at e; exact hl.lens n e
  | some m => rw [e'] at e; cases e; exact h.lensC n e'

theorem len_same (f : IFrame) : Same f f.len := by
  unfold IFrame.len; split
  · exact rowLengths_same f
  · exact getIndex_same f

theorem len_sound {f : IFrame} (h : Sound f) : Sound f.len := by
  unfold IFrame.len; split
  · exact rowLengths_sound h
  · exact getIndex_sound h

/-- the outcome of a comparison: the truth, and frames that only know more -/
structure Compared (a b : IFrame) (P : Prop) (r : Bool × IFrame × IFrame) : Prop where
  verdict : r.1 = true ↔ P
  left : Same a r.2.1
  right : Same b r.2.2
  leftSound : Sound r.2.1
  rightSound : Sound r.2.2

theorem equalsLabels_spec {a b : IFrame} (ha : Sound a) (hb : Sound b) (hab : Agree a b) :
    Compared a b (LRows.labels a.rows = LRows.labels b.rows) (equalsLabels a b) := by
  unfold equalsLabels
  split
  · rename_i e
    exact ⟨⟨fun _ => hab.labels e, fun _ => rfl⟩, Same.refl a, Same.refl b, ha, hb⟩
  · refine ⟨?_, learned_same a, learned_same b, learned_sound ha, learned_sound hb⟩
    have h1 := learned_labels ha
    have h2 := learned_labels hb
    simp only [learned] at h1 h2
    simp only [decide_eq_true_eq, h1, h2]

theorem identical_spec {a b : IFrame} (ha : Sound a) (hb : Sound b) (hab : Agree a b) :
    Compared a b (LRows.labels a.rows = LRows.labels b.rows ∧ a.cuts = b.cuts) (identical a b) := by
  have h1 := equalsLabels_spec ha hb hab
  unfold identical
  generalize hr : equalsLabels a b = r at h1
  obtain ⟨v, a1, b1⟩ := r
  cases v with
  | false =>
    refine ⟨?_, h1.left, h1.right, h1.leftSound, h1.rightSound⟩
    have := h1.verdict
    simp only [Bool.false_eq_true, false_iff] at this ⊢
    exact fun h => this h.1
  | true =>
    have hl : LRows.labels a.rows = LRows.labels b.rows := h1.verdict.1 rfl
    have hs1 := h1.left
    have hs2 := h1.right
    have hd1 := h1.leftSound
    have hd2 := h1.rightSound
    have hag : Agree a1 b1 := hab.same hs1 hs2
    dsimp only at hs1 hs2 hd1 hd2 hag ⊢
    unfold compareLens
    by_cases e : a1.cache.lid = b1.cache.lid
    · rw [if_pos e]
      refine ⟨⟨fun _ => ⟨hl, ?_⟩, fun _ => rfl⟩, hs1, hs2, hd1, hd2⟩
      rw [← hs1.cuts, ← hs2.cuts]; exact hag.cuts e
    · rw [if_neg e]
      by_cases c : ((a1.cache.lens.isSome || a1.cache.callable) && (b1.cache.lens.isSome || b1.cache.callable)) = true
      · rw [if_pos c]
        have ⟨c1, c2⟩ := Bool.and_eq_true_iff.1 c
        have e1 := learned_lens hd1 c1
        have e2 := learned_lens hd2 c2
        simp only [learned] at e1 e2
        refine ⟨?_, hs1.trans (learned_same a1), hs2.trans (learned_same b1), learned_sound hd1, learned_sound hd2⟩
        simp only [e1, e2, decide_eq_true_eq, Option.some.injEq, hs1.cuts, hs2.cuts]
        exact ⟨fun h => ⟨hl, h⟩, fun h => h.2⟩
      · rw [if_neg c]
        refine ⟨?_, hs1.trans (rowLengths_same a1), hs2.trans (rowLengths_same b1), rowLengths_sound hd1,
          rowLengths_sound hd2⟩
        simp only [rowLengths_lensC hd1, rowLengths_lensC hd2, decide_eq_true_eq, Option.some.injEq, hs1.cuts, hs2.cuts]
        exact ⟨fun h => ⟨hl, h⟩, fun h => h.2⟩

/-! ### making a frame -/

theorem zip_filter_cuts (bs : List LRows) :
    ((bs.zip (bs.map (·.length))).filter (fun p => p.2 != 0)).map (·.1) = bs.filter (fun b => b.length != 0) := by
  induction bs with
  | nil => rfl
  | cons b bs ih =>
    simp only [List.map_cons, List.zip_cons_cons, List.filter_cons]
    split <;> simp_all

theorem filter_cuts (bs : List LRows) :
    (bs.map (·.length)).filter (· != 0) = (bs.filter (fun b => b.length != 0)).map (·.length) := by
  induction bs with
  | nil => rfl
  | cons b bs ih =>
    simp only [List.map_cons, List.filter_cons]
    split <;> simp_all

theorem filter_flatten (bs : List LRows) : (bs.filter (fun b => b.length != 0)).flatten = bs.flatten := by
  induction bs with
  | nil => rfl
  | cons b bs ih =>
    simp only [List.filter_cons]
    split
    · simp [ih]
    · have : b = [] := by simp_all
      simp [ih, this]

/-- what the constructor of a frame guarantees -/
structure Built (y z : IFrame) (fresh : Nat) : Prop where
  sound : Sound z
  rows : z.rows = y.rows
  iid : z.cache.iid = y.cache.iid
  lid : (z.cache.lid = y.cache.lid ∧ z.cuts = y.cuts) ∨ z.cache.lid = fresh

theorem filterEmpties_built {y : IFrame} (h : Sound y) (fresh : Nat) : Built y (y.filterEmpties fresh) fresh := by
  unfold filterEmpties
  split
  · exact ⟨h, rfl, rfl, Or.inl ⟨rfl, rfl⟩⟩
  · rename_i ls els
    split
    · exact ⟨h, rfl, rfl, Or.inl ⟨rfl, rfl⟩⟩
    · have hls : ls = y.blocks.map (·.length) := h.lensC ls els
      subst hls
      by_cases hn : (y.blocks.map (·.length)).filter (· != 0) = y.blocks.map (·.length)
      · have hb : y.blocks.filter (fun b => b.length != 0) = y.blocks := by
          refine List.filter_eq_self.2 fun b hb => ?_
          have := List.filter_eq_self.1 hn b.length (List.mem_map.2 ⟨b, hb, rfl⟩)
          exact this
        have e : ({ blocks := ((y.blocks.zip (y.blocks.map (·.length))).filter (fun p => p.2 != 0)).map (·.1)
                    cache := if (y.blocks.map (·.length)).filter (· != 0) = y.blocks.map (·.length) then y.cache
                      else y.cache.copy false fresh
                    lensC := some ((y.blocks.map (·.length)).filter (· != 0)) } : IFrame) = y := by
          rw [if_pos hn, zip_filter_cuts, hb, hn]
          obtain ⟨b, c, l⟩ := y
          simp only at els ⊢
          rw [els]
        dsimp only at e ⊢
        rw [e]
        exact ⟨h, rfl, rfl, Or.inl ⟨rfl, rfl⟩⟩
      · dsimp only
        rw [if_neg hn, zip_filter_cuts, filter_cuts]
        have hrows : (y.blocks.filter (fun b => b.length != 0)).flatten = y.rows := filter_flatten _
        have hnp : ∀ l n, y.cache.val ≠ .pending l n := by
          intro l n e
          apply hn
          refine List.filter_eq_self.2 fun k hk => ?_
          obtain ⟨b, hb, rfl⟩ := List.mem_map.1 hk
          have := h.pendZ l n e b hb
          simp [this]
        refine ⟨⟨?_, ?_, ?_, ?_, ?_, ?_⟩, hrows, rfl, Or.inr rfl⟩
        · intro l e
          rw [IFrame.rows, hrows]; exact h.known l e
        · intro l n e; exact absurd e (hnp l n)
        · intro l n e; exact absurd e (hnp l n)
        · intro l n e; exact absurd e (hnp l n)
        · intro n e; simp [LCache.copy] at e
        · intro n e; cases e; rfl

/-! ### pairing blocks -/

theorem align_combine (op : Option Int → Option Int → Option Int) (x y : LRows) (h : LRows.labels x = LRows.labels y) :
    LRows.align op x y = LRows.combine op x y := by rw [LRows.align, if_pos h]

theorem combine_labels (op : Option Int → Option Int → Option Int) (x y : LRows) (h : LRows.labels x = LRows.labels y) :
    LRows.labels (LRows.combine op x y) = LRows.labels x := by
  induction x generalizing y with
  | nil => rfl
  | cons p x ih =>
    cases y with
    | nil => simp [LRows.labels] at h
    | cons q y =>
      simp only [LRows.labels, List.map_cons, List.cons.injEq] at h
      simp only [LRows.combine, LRows.labels, List.zipWith_cons_cons, List.map_cons, List.cons.injEq, true_and]
      exact ih y h.2

theorem combine_length (op : Option Int → Option Int → Option Int) (x y : LRows) (h : LRows.labels x = LRows.labels y) :
    (LRows.combine op x y).length = x.length := by
  have := congrArg List.length h
  simp only [LRows.labels, List.length_map] at this
  simp [LRows.combine, this]

theorem labels_append (x y : LRows) : LRows.labels (x ++ y) = LRows.labels x ++ LRows.labels y := by
  simp [LRows.labels]

theorem pairBlocks_spec (op : Option Int → Option Int → Option Int) (xs ys : List LRows)
    (hc : xs.map (·.length) = ys.map (·.length)) (hl : LRows.labels xs.flatten = LRows.labels ys.flatten) :
    ∃ bs, pairBlocks op xs ys = some bs ∧ bs.flatten = LRows.combine op xs.flatten ys.flatten
      ∧ bs.map (·.length) = xs.map (·.length) := by
  induction xs generalizing ys with
  | nil =>
    refine ⟨[], ?_, ?_, rfl⟩
    · cases ys <;> rfl
    · simp [LRows.combine]
  | cons x xs ih =>
    cases ys with
    | nil => simp at hc
    | cons y ys =>
      simp only [List.map_cons, List.cons.injEq] at hc
      have hl' := hl
      rw [List.flatten_cons, List.flatten_cons, labels_append, labels_append] at hl'
      have hlen : (LRows.labels x).length = (LRows.labels y).length := by simp [LRows.labels, hc.1]
      have ⟨h1, h2⟩ := List.append_inj hl' hlen
      obtain ⟨bs, e, hf, hb⟩ := ih ys hc.2 h2
      refine ⟨LRows.align op x y :: bs, by simp [pairBlocks, e], ?_, ?_⟩
      · rw [List.flatten_cons, List.flatten_cons, List.flatten_cons, hf, align_combine op x y h1]
        simp only [LRows.combine]
        rw [List.zipWith_append hc.1]
      · rw [List.map_cons, List.map_cons, hb, align_combine op x y h1, combine_length op x y h1]

theorem splitLens_cuts (bs : List LRows) (r : LRows) (h : r.length = bs.flatten.length) :
    (splitLens (bs.map (·.length)) r).map (·.length) = bs.map (·.length)
      ∧ (splitLens (bs.map (·.length)) r).flatten = r := by
  induction bs generalizing r with
  | nil =>
    have : r = [] := by simpa using h
    subst this; exact ⟨rfl, rfl⟩
  | cons b bs ih =>
    rw [List.flatten_cons, List.length_append] at h
    have := ih (r.drop b.length) (by rw [List.length_drop]; omega)
    refine ⟨?_, ?_⟩
    · simp only [List.map_cons, splitLens, this.1, List.length_take]
      congr 1; omega
    · simp only [List.map_cons, splitLens, List.flatten_cons, this.2, List.take_append_drop]

/-- what a binary operation guarantees -/
structure Paired (op : Option Int → Option Int → Option Int) (a b : IFrame) (fresh : Nat)
    (r : Option (Option IFrame) × IFrame × IFrame) : Prop where
  left : Same a r.2.1
  right : Same b r.2.2
  leftSound : Sound r.2.1
  rightSound : Sound r.2.2
  differ : LRows.labels a.rows ≠ LRows.labels b.rows → r.1 = some none
  equal : LRows.labels a.rows = LRows.labels b.rows → ∃ z, r.1 = some (some z) ∧ Sound z
    ∧ z.rows = LRows.combine op a.rows b.rows
    ∧ (z.cache.iid = a.cache.iid ∨ z.cache.iid = fresh)
    ∧ ((z.cache.lid = a.cache.lid ∧ z.cuts = a.cuts) ∨ (fresh ≤ z.cache.lid ∧ z.cache.lid < fresh + 3))

theorem binary_spec (op : Option Int → Option Int → Option Int) {a b : IFrame} (ha : Sound a) (hb : Sound b)
    (hab : Agree b a) (fresh : Nat) : Paired op a b fresh (IFrame.binary op a b fresh) := by
  have h1 := identical_spec hb ha hab
  unfold IFrame.binary
  generalize identical b a = r at h1
  obtain ⟨v, b1, a1⟩ := r
  have hsb := h1.left
  have hsa := h1.right
  have hdb := h1.leftSound
  have hda := h1.rightSound
  dsimp only at hsb hsa hdb hda
  cases v with
  | true =>
    obtain ⟨hl, hc⟩ := h1.verdict.1 rfl
    refine ⟨hsa, hsb, hda, hdb, fun h => absurd hl.symm h, fun _ => ?_⟩
    obtain ⟨bs, e, hf, hcb⟩ := pairBlocks_spec op a1.blocks b1.blocks
      (by rw [hsa.blocks, hsb.blocks]; exact hc.symm) (by rw [hsa.blocks, hsb.blocks]; exact hl.symm)
    have hrows : bs.flatten = LRows.combine op a.rows b.rows := by
      rw [hf, hsa.blocks, hsb.blocks]; rfl
    have hlab : LRows.labels bs.flatten = LRows.labels a1.rows := by
      rw [hrows, combine_labels op _ _ hl.symm, hsa.rows]
    have hcuts : bs.map (·.length) = a1.cuts := hcb
    have hsnd : Sound ⟨bs, a1.cache.copy true fresh, a1.lensC⟩ := by
      refine ⟨?_, ?_, ?_, ?_, ?_, ?_⟩
      · intro l e; exact (hda.known l e).trans hlab.symm
      · intro l n e; exact (hda.pendL l n e).trans hlab.symm
      · intro l n e; exact (hda.pendN l n e).trans hcuts.symm
      · intro l n e b hbm
        have hz := hda.pendZ l n e
        intro hb0
        have h0 : (0 : Nat) ∈ a1.blocks.map (·.length) := by
          have : b.length ∈ bs.map (·.length) := List.mem_map.2 ⟨b, hbm, rfl⟩
          rw [hcb, hb0] at this; exact this
        obtain ⟨c, hcm, hc0⟩ := List.mem_map.1 h0
        exact hz c hcm (List.length_eq_zero_iff.1 hc0)
      · intro n e; exact (hda.lens n e).trans hcuts.symm
      · intro n e; exact (hda.lensC n e).trans hcuts.symm
    have hbuilt := filterEmpties_built hsnd fresh
    refine ⟨IFrame.build bs (a1.cache.copy true fresh) a1.lensC fresh, by simp only [e, Option.map_some],
      hbuilt.sound, hbuilt.rows.trans hrows, Or.inl (hbuilt.iid.trans hsa.iid), ?_⟩
    rcases hbuilt.lid with ⟨h1, h2⟩ | h
    · exact Or.inl ⟨h1.trans hsa.lid, h2.trans (hcuts.trans hsa.cuts)⟩
    · exact Or.inr (by unfold IFrame.build; omega)
  | false =>
    dsimp only
    have hda2 := rowLengths_sound (getIndex_sound hda)
    have hdb2 := rowLengths_sound (getIndex_sound hdb)
    have hsa2 : Same a a1.getIndex.rowLengths := (hsa.trans (getIndex_same a1)).trans (rowLengths_same _)
    have hsb2 : Same b b1.getIndex.rowLengths := (hsb.trans (getIndex_same b1)).trans (rowLengths_same _)
    have hla : a1.getIndex.rowLengths.cache.labels = LRows.labels a.rows := by
      rw [← hsa.rows]; exact getIndex_labels hda
    have hlb : b1.getIndex.rowLengths.cache.labels = LRows.labels b.rows := by
      rw [← hsb.rows]; exact getIndex_labels hdb
    have hca : a1.getIndex.rowLengths.lensC = some a.cuts := by
      rw [rowLengths_lensC (getIndex_sound hda), (hsa.trans (getIndex_same a1)).cuts]
    have hcb : b1.getIndex.rowLengths.lensC = some b.cuts := by
      rw [rowLengths_lensC (getIndex_sound hdb), (hsb.trans (getIndex_same b1)).cuts]
    generalize a1.getIndex.rowLengths = a2 at *
    generalize b1.getIndex.rowLengths = b2 at *
    rw [hla, hlb, hca, hcb]
    by_cases hl : LRows.labels a.rows = LRows.labels b.rows
    · rw [if_pos hl]
      refine ⟨hsa2, hsb2, hda2, hdb2, fun h => absurd hl h, fun _ => ?_⟩
      have hright : (if some b.cuts = some a.cuts then b2.blocks else splitLens a.cuts b2.blocks.flatten).map (·.length)
            = a.blocks.map (·.length)
          ∧ (if some b.cuts = some a.cuts then b2.blocks else splitLens a.cuts b2.blocks.flatten).flatten = b.rows := by
        split
        · rename_i e
          rw [hsb2.blocks]
          exact ⟨Option.some.inj e, rfl⟩
        · have hlen : b2.blocks.flatten.length = a.blocks.flatten.length := by
            have := congrArg List.length hl
            simp only [LRows.labels, List.length_map] at this
            rw [hsb2.blocks]; exact this.symm
          have := splitLens_cuts a.blocks b2.blocks.flatten hlen
          exact ⟨this.1, by rw [show a.cuts = a.blocks.map (·.length) from rfl, this.2, hsb2.blocks]; rfl⟩
      rw [Option.getD_some]
      generalize (if some b.cuts = some a.cuts then b2.blocks else splitLens a.cuts b2.blocks.flatten) = right at hright
      obtain ⟨bs, e, hf, hcb'⟩ := pairBlocks_spec op a2.blocks right
        (by rw [hsa2.blocks, hright.1]) (by rw [hsa2.blocks, hright.2]; exact hl)
      have hrows : bs.flatten = LRows.combine op a.rows b.rows := by
        rw [hf, hsa2.blocks, hright.2]; rfl
      have hsnd : Sound ⟨bs, ⟨.known (LRows.labels a.rows), none, fresh, fresh + 1⟩, some a.cuts⟩ := by
        refine ⟨?_, ?_, ?_, ?_, ?_, ?_⟩
        · intro l e'; cases e'
          show LRows.labels a.rows = LRows.labels bs.flatten
          rw [hrows, combine_labels op _ _ hl]
        · intro _ _ e'; cases e'
        · intro _ _ e'; cases e'
        · intro _ _ e'; cases e'
        · intro _ e'; cases e'
        · intro n e'; cases e'
          rw [IFrame.cuts, IFrame.cuts, hcb', hsa2.blocks]
      have hbuilt := filterEmpties_built hsnd (fresh + 2)
      refine ⟨IFrame.build bs ⟨.known (LRows.labels a.rows), none, fresh, fresh + 1⟩ (some a.cuts) (fresh + 2),
        by simp only [e, Option.map_some], hbuilt.sound, hbuilt.rows.trans hrows, Or.inr hbuilt.iid, Or.inr ?_⟩
      rcases hbuilt.lid with ⟨h1, _⟩ | h
      · have : (IFrame.build bs ⟨.known (LRows.labels a.rows), none, fresh, fresh + 1⟩ (some a.cuts) (fresh + 2)).cache.lid
          = fresh + 1 := h1
        omega
      · unfold IFrame.build; omega
    · rw [if_neg hl]
      exact ⟨hsa2, hsb2, hda2, hdb2, fun _ => rfl, fun h => absurd h hl⟩

end IFrame

open IFrame

/-! ### programs -/

/-- what holds of the frames of a program at any time -/
structure IdWorld.Ok (w : IdWorld) : Prop where
  sound : ∀ f ∈ w.frames, Sound f
  lt : ∀ f ∈ w.frames, f.cache.iid < w.next ∧ f.cache.lid < w.next
  agree : ∀ f ∈ w.frames, ∀ g ∈ w.frames, Agree f g

/-- a frame whose identifiers are new or taken, with their meaning, from a frame of the program -/
structure IdWorld.Fits (w : IdWorld) (z : IFrame) (n : Nat) : Prop where
  sound : Sound z
  next : w.next ≤ n
  lt : z.cache.iid < n ∧ z.cache.lid < n
  iid : (∃ x ∈ w.frames, z.cache.iid = x.cache.iid ∧ LRows.labels z.rows = LRows.labels x.rows) ∨ w.next ≤ z.cache.iid
  lid : (∃ x ∈ w.frames, z.cache.lid = x.cache.lid ∧ z.cuts = x.cuts) ∨ w.next ≤ z.cache.lid

theorem IFrame.Agree.symm' {f g : IFrame} (h : Agree f g) : Agree g f :=
  ⟨fun e => (h.labels e.symm).symm, fun e => (h.cuts e.symm).symm⟩

theorem IdWorld.Fits.agree {w : IdWorld} (hw : w.Ok) {z : IFrame} {n : Nat} (h : w.Fits z n) {g : IFrame}
    (hg : g ∈ w.frames) : Agree z g := by
  constructor
  · intro e
    rcases h.iid with ⟨x, hx, ei, el⟩ | hge
    · rw [el]; exact (hw.agree x hx g hg).labels (ei.symm.trans e)
    · have := (hw.lt g hg).1; omega
  · intro e
    rcases h.lid with ⟨x, hx, ei, el⟩ | hge
    · rw [el]; exact (hw.agree x hx g hg).cuts (ei.symm.trans e)
    · have := (hw.lt g hg).2; omega

theorem IFrame.Agree.refl' (f : IFrame) : Agree f f := ⟨fun _ => rfl, fun _ => rfl⟩

/-- frames of the program and one new frame -/
theorem IdWorld.Ok.extend {w : IdWorld} (hw : w.Ok) {z : IFrame} {n : Nat} (h : w.Fits z n) (fs : List IFrame)
    (hfs : ∀ f ∈ fs, f ∈ w.frames ∨ f = z) : IdWorld.Ok ⟨fs, n⟩ := by
  refine ⟨?_, ?_, ?_⟩
  · intro f hf
    rcases hfs f hf with h1 | rfl
    · exact hw.sound f h1
    · exact h.sound
  · intro f hf
    rcases hfs f hf with h1 | rfl
    · have := hw.lt f h1
      have := h.next
      dsimp only; omega
    · exact h.lt
  · intro f hf g hg
    rcases hfs f hf with h1 | rfl <;> rcases hfs g hg with h2 | rfl
    · exact hw.agree f h1 g h2
    · exact (h.agree hw h1).symm'
    · exact h.agree hw h2
    · exact Agree.refl' _

theorem IdWorld.Ok.push {w : IdWorld} (hw : w.Ok) {z : IFrame} {n : Nat} (h : w.Fits z n) :
    IdWorld.Ok ⟨w.frames ++ [z], n⟩ :=
  hw.extend h _ fun f hf => by
    rcases List.mem_append.1 hf with h1 | h1
    · exact Or.inl h1
    · exact Or.inr (by simpa using h1)

theorem IdWorld.Ok.set {w : IdWorld} (hw : w.Ok) {z : IFrame} {n : Nat} (h : w.Fits z n) (i : Nat) :
    IdWorld.Ok ⟨w.frames.set i z, n⟩ :=
  hw.extend h _ fun f hf => by
    rcases List.mem_or_eq_of_mem_set hf with h1 | h1
    · exact Or.inl h1
    · exact Or.inr h1

theorem IdWorld.Ok.fits_same {w : IdWorld} (hw : w.Ok) {x z : IFrame} (hx : x ∈ w.frames) (hs : Same x z)
    (hz : Sound z) (n : Nat) (hn : w.next ≤ n) : w.Fits z n := by
  have := hw.lt x hx
  refine ⟨hz, hn, ?_, Or.inl ⟨x, hx, hs.iid, by rw [hs.rows]⟩, Or.inl ⟨x, hx, hs.lid, hs.cuts⟩⟩
  rw [hs.iid, hs.lid]; omega

/-- a frame built with new identifiers -/
theorem IdWorld.fits_new {w : IdWorld} {y : IFrame} (hy : Sound y) {fresh n : Nat} (hn : w.next ≤ n)
    (hi : w.next ≤ y.cache.iid ∧ y.cache.iid < n) (hl : w.next ≤ y.cache.lid ∧ y.cache.lid < n)
    (hf : w.next ≤ fresh ∧ fresh < n) : w.Fits (y.filterEmpties fresh) n := by
  have hb := filterEmpties_built hy fresh
  have h2 : w.next ≤ (y.filterEmpties fresh).cache.lid ∧ (y.filterEmpties fresh).cache.lid < n := by
    rcases hb.lid with ⟨h, _⟩ | h <;> rw [h] <;> omega
  refine ⟨hb.sound, hn, ?_, Or.inr (by rw [hb.iid]; exact hi.1), Or.inr h2.1⟩
  rw [hb.iid]; exact ⟨hi.2, h2.2⟩

theorem map_set_same {fs : List IFrame} {i : Nat} {x z : IFrame} (hx : fs[i]? = some x) (hs : z.rows = x.rows) :
    (fs.set i z).map IFrame.rows = fs.map IFrame.rows := by
  rw [List.map_set, hs]
  apply List.ext_getElem?
  intro k
  rw [List.getElem?_set]
  split
  · rename_i e
    subst e
    rw [List.getElem?_map, hx]
    have := (List.getElem?_eq_some_iff.1 hx).1
    simp [this]
  · rfl

theorem relabelBlocks_spec (bs : List LRows) (labels : List Int) (h : bs.flatten.length = labels.length) :
    (relabelBlocks labels bs).flatten = bs.flatten.zipWith (fun p l => (l, p.2)) labels
      ∧ (relabelBlocks labels bs).map (·.length) = bs.map (·.length) := by
  induction bs generalizing labels with
  | nil => exact ⟨rfl, rfl⟩
  | cons b bs ih =>
    rw [List.flatten_cons, List.length_append] at h
    have hd : (labels.drop b.length).length = bs.flatten.length := by rw [List.length_drop]; omega
    have ht : (labels.take b.length).length = b.length := by rw [List.length_take]; omega
    obtain ⟨h1, h2⟩ := ih (labels.drop b.length) hd.symm
    constructor
    · rw [relabelBlocks, List.flatten_cons, List.flatten_cons, h1]
      conv => rhs; rw [← List.take_append_drop b.length labels]
      rw [List.zipWith_append ht.symm]
    · rw [relabelBlocks, List.map_cons, List.map_cons, h2]
      congr 1
      simp only [List.length_zipWith, ht, Nat.min_self]

theorem relabel_labels (r : LRows) (labels : List Int) (h : r.length = labels.length) :
    LRows.labels (r.zipWith (fun p l => (l, p.2)) labels) = labels := by
  induction r generalizing labels with
  | nil => cases labels with
    | nil => rfl
    | cons l ls => simp at h
  | cons p r ih => cases labels with
    | nil => simp at h
    | cons l ls =>
      simp only [LRows.labels, List.zipWith_cons_cons, List.map_cons, List.cons.injEq, true_and]
      exact ih ls (by simpa using h)

theorem IdWorld.step_spec {w : IdWorld} (hw : w.Ok) (op : IdOp) (hop : op.FullChunks) :
    (w.step op).Ok ∧ (w.step op).frames.map IFrame.rows = plainStep (w.frames.map IFrame.rows) op := by
  cases op with
  | read bs =>
    have hsnd : Sound ⟨bs, ⟨.pending (LRows.labels bs.flatten) (bs.map (·.length)), none, w.next, w.next + 1⟩, none⟩ := by
      refine ⟨?_, ?_, ?_, ?_, ?_, ?_⟩
      · intro _ e; cases e
      · intro _ _ e; cases e; rfl
      · intro _ _ e; cases e; rfl
      · intro _ _ _; exact hop
      · intro _ e; cases e
      · intro _ e; cases e
    refine ⟨hw.push (IdWorld.fits_new hsnd ?_ ?_ ?_ ?_), ?_⟩ <;> try (first | omega | (dsimp only; omega))
    simp only [IdWorld.step, plainStep, List.map_append, List.map_cons, List.map_nil, IFrame.build]
    rw [(filterEmpties_built hsnd (w.next + 2)).rows]; rfl
  | fresh bs =>
    have hsnd : Sound ⟨bs, ⟨.known (LRows.labels bs.flatten), none, w.next, w.next + 1⟩, some (bs.map (·.length))⟩ := by
      refine ⟨?_, ?_, ?_, ?_, ?_, ?_⟩
      · intro _ e; cases e; rfl
      · intro _ _ e; cases e
      · intro _ _ e; cases e
      · intro _ _ e; cases e
      · intro _ e; cases e
      · intro _ e; cases e; rfl
    refine ⟨hw.push (IdWorld.fits_new hsnd ?_ ?_ ?_ ?_), ?_⟩ <;> try (first | omega | (dsimp only; omega))
    simp only [IdWorld.step, plainStep, List.map_append, List.map_cons, List.map_nil, IFrame.build]
    rw [(filterEmpties_built hsnd (w.next + 2)).rows]; rfl
  | lazy bs =>
    have hsnd : Sound ⟨bs, ⟨.own, none, w.next, w.next + 1⟩, none⟩ := by
      refine ⟨?_, ?_, ?_, ?_, ?_, ?_⟩
      · intro _ e; cases e
      · intro _ _ e; cases e
      · intro _ _ e; cases e
      · intro _ _ e; cases e
      · intro _ e; cases e
      · intro _ e; cases e
    refine ⟨hw.push (IdWorld.fits_new hsnd ?_ ?_ ?_ ?_), ?_⟩ <;> try (first | omega | (dsimp only; omega))
    simp only [IdWorld.step, plainStep, List.map_append, List.map_cons, List.map_nil, IFrame.build]
    rw [(filterEmpties_built hsnd (w.next + 2)).rows]; rfl
  | derive i f keep =>
    simp only [IdWorld.step, plainStep, List.getElem?_map]
    cases hx : w.frames[i]? with
    | none => exact ⟨hw, rfl⟩
    | some x =>
      have hxm := List.mem_of_getElem? hx
      have hxs := hw.sound x hxm
      have hxl := hw.lt x hxm
      dsimp only [Option.map_some]
      have hrows : (x.blocks.map fun b => b.map fun p => (p.1, f p.2)).flatten = x.rows.map fun p => (p.1, f p.2) := by
        rw [IFrame.rows, List.map_flatten]
      have hlab : LRows.labels (x.rows.map fun p => (p.1, f p.2)) = LRows.labels x.rows := by
        simp [LRows.labels]
      have hcuts : (x.blocks.map fun b => b.map fun p => (p.1, f p.2)).map (·.length) = x.cuts := by
        simp [IFrame.cuts, Function.comp_def]
      have hval : (x.cache.copy keep w.next).val = x.cache.val := by unfold LCache.copy; split <;> rfl
      have hiid : (x.cache.copy keep w.next).iid = x.cache.iid := by unfold LCache.copy; split <;> rfl
      have hsnd : Sound ⟨x.blocks.map fun b => b.map fun p => (p.1, f p.2), x.cache.copy keep w.next, x.lensC⟩ := by
        refine ⟨?_, ?_, ?_, ?_, ?_, ?_⟩
        · intro l e; rw [IFrame.rows, hrows, hlab]; exact hxs.known l (hval.symm.trans e)
        · intro l n e; rw [IFrame.rows, hrows, hlab]; exact hxs.pendL l n (hval.symm.trans e)
        · intro l n e; rw [IFrame.cuts, hcuts]; exact hxs.pendN l n (hval.symm.trans e)
        · intro l n e b hb
          obtain ⟨c, hc, rfl⟩ := List.mem_map.1 hb
          have := hxs.pendZ l n (hval.symm.trans e) c hc
          simpa using this
        · intro n e
          rw [IFrame.cuts, hcuts]
          refine hxs.lens n ?_
          unfold LCache.copy at e
          split at e
          · exact e
          · cases e
        · intro n e; rw [IFrame.cuts, hcuts]; exact hxs.lensC n e
      have hb := filterEmpties_built hsnd (w.next + 1)
      have hfit : w.Fits (IFrame.build (x.blocks.map fun b => b.map fun p => (p.1, f p.2)) (x.cache.copy keep w.next) x.lensC
          (w.next + 1)) (w.next + 2) := by
        have hzi := hb.iid
        have hzl := hb.lid
        have hzr := hb.rows
        dsimp only at hzi hzl hzr
        unfold IFrame.build
        refine ⟨hb.sound, by omega, ?_, Or.inl ⟨x, hxm, hzi.trans hiid, ?_⟩, ?_⟩
        · rw [hzi, hiid]
          refine ⟨by omega, ?_⟩
          rcases hzl with ⟨h, _⟩ | h
          · rw [h]; unfold LCache.copy; split <;> (first | omega | (dsimp only; omega))
          · omega
        · rw [hzr, IFrame.rows, hrows, hlab]
        · rcases hzl with ⟨h, hc⟩ | h
          · cases keep with
            | true => exact Or.inl ⟨x, hxm, h, hc.trans hcuts⟩
            | false => exact Or.inr (by rw [h]; exact Nat.le_refl _)
          · exact Or.inr (by omega)
      refine ⟨hw.push hfit, ?_⟩
      rw [List.map_append, List.map_cons, List.map_nil]
      have : (IFrame.build (x.blocks.map fun b => b.map fun p => (p.1, f p.2)) (x.cache.copy keep w.next) x.lensC
          (w.next + 1)).rows = x.rows.map fun p => (p.1, f p.2) := hb.rows.trans hrows
      rw [this]
  | relabel i labels =>
    simp only [IdWorld.step, plainStep, List.getElem?_map]
    cases hx : w.frames[i]? with
    | none => exact ⟨hw, rfl⟩
    | some x =>
      have hxm := List.mem_of_getElem? hx
      have hxs := hw.sound x hxm
      dsimp only [Option.map_some]
      by_cases hlen : x.blocks.flatten.length = labels.length
      · rw [if_pos hlen, if_pos (show x.rows.length = labels.length from hlen)]
        obtain ⟨hrf, hrc⟩ := relabelBlocks_spec x.blocks labels hlen
        have hsnd : Sound ⟨relabelBlocks labels x.blocks, ⟨.known labels, none, w.next, w.next + 1⟩, x.lensC⟩ := by
          refine ⟨?_, ?_, ?_, ?_, ?_, ?_⟩
          · intro _ e; cases e
            rw [IFrame.rows, hrf, relabel_labels _ _ hlen]
          · intro _ _ e; cases e
          · intro _ _ e; cases e
          · intro _ _ e; cases e
          · intro _ e; cases e
          · intro n e; rw [IFrame.cuts, hrc]; exact hxs.lensC n e
        have hfit0 := IdWorld.fits_new (w := w) (fresh := w.next + 2) (n := w.next + 3) hsnd (by omega)
          (by dsimp only; omega) (by dsimp only; omega) (by omega)
        have hfit : w.Fits (IFrame.build (relabelBlocks labels x.blocks) ⟨.known labels, none, w.next, w.next + 1⟩ x.lensC
            (w.next + 2)).rowLengths (w.next + 3) :=
          ⟨rowLengths_sound hfit0.sound, hfit0.next, hfit0.lt, hfit0.iid, hfit0.lid⟩
        refine ⟨hw.set hfit i, ?_⟩
        rw [List.map_set]
        have : (IFrame.build (relabelBlocks labels x.blocks) ⟨.known labels, none, w.next, w.next + 1⟩ x.lensC
            (w.next + 2)).rowLengths.rows = x.rows.zipWith (fun p l => (l, p.2)) labels :=
          (filterEmpties_built hsnd (w.next + 2)).rows.trans hrf
        rw [this]
      · rw [if_neg hlen, if_neg (show ¬ x.rows.length = labels.length from hlen)]
        exact ⟨hw, rfl⟩
  | len i =>
    simp only [IdWorld.step, plainStep]
    cases hx : w.frames[i]? with
    | none => exact ⟨hw, rfl⟩
    | some x =>
      have hxm := List.mem_of_getElem? hx
      exact ⟨hw.set (hw.fits_same hxm (len_same x) (len_sound (hw.sound x hxm)) w.next (Nat.le_refl _)) i,
        map_set_same hx (len_same x).rows⟩
  | index i =>
    simp only [IdWorld.step, plainStep]
    cases hx : w.frames[i]? with
    | none => exact ⟨hw, rfl⟩
    | some x =>
      have hxm := List.mem_of_getElem? hx
      exact ⟨hw.set (hw.fits_same hxm (getIndex_same x) (getIndex_sound (hw.sound x hxm)) w.next (Nat.le_refl _)) i,
        map_set_same hx (getIndex_same x).rows⟩
  | binary op i j =>
    simp only [IdWorld.step, plainStep, List.getElem?_map]
    cases hx : w.frames[i]? with
    | none => exact ⟨hw, by simp⟩
    | some x =>
      cases hy : w.frames[j]? with
      | none => exact ⟨hw, by simp⟩
      | some y =>
        have hxm := List.mem_of_getElem? hx
        have hym := List.mem_of_getElem? hy
        have hxl := hw.lt x hxm
        have hp := binary_spec op (hw.sound x hxm) (hw.sound y hym) (hw.agree y hym x hxm) w.next
        dsimp only [Option.map_some]
        generalize IFrame.binary op x y w.next = r at hp
        obtain ⟨r, x1, y1⟩ := r
        have hsx := hp.left
        have hsy := hp.right
        have hdx := hp.leftSound
        have hdy := hp.rightSound
        have hdiff := hp.differ
        have heq := hp.equal
        dsimp only at hsx hsy hdx hdy hdiff heq
        have hw1 : IdWorld.Ok ⟨w.frames.set i x1, w.next + 3⟩ :=
          hw.set (hw.fits_same hxm hsx hdx (w.next + 3) (by omega)) i
        have hw0 : IdWorld.Ok ⟨w.frames.set i x1, w.next⟩ :=
          hw.set (hw.fits_same hxm hsx hdx w.next (Nat.le_refl _)) i
        -- the second operand after the first has been replaced
        have hy' : ∃ y', (w.frames.set i x1)[j]? = some y' ∧ Same y' y1 := by
          by_cases hij : i = j
          · subst hij
            have hxy : x = y := by rw [hx] at hy; exact Option.some.inj hy
            subst hxy
            have hlt := (List.getElem?_eq_some_iff.1 hx).1
            exact ⟨x1, by simp [hlt], ⟨hsy.blocks.trans hsx.blocks.symm, hsy.iid.trans hsx.iid.symm, hsy.lid.trans hsx.lid.symm⟩⟩
          · exact ⟨y, by rw [List.getElem?_set_ne hij]; exact hy, hsy⟩
        obtain ⟨y', hy1, hsy'⟩ := hy'
        have hym' := List.mem_of_getElem? hy1
        have hw2 : IdWorld.Ok ⟨(w.frames.set i x1).set j y1, w.next⟩ :=
          hw0.set (hw0.fits_same hym' hsy' hdy w.next (Nat.le_refl _)) j
        have hw3 : IdWorld.Ok ⟨(w.frames.set i x1).set j y1, w.next + 3⟩ :=
          hw0.set (hw0.fits_same hym' hsy' hdy (w.next + 3) (by dsimp only; omega)) j
        have hrows2 : ((w.frames.set i x1).set j y1).map IFrame.rows = w.frames.map IFrame.rows :=
          (map_set_same hy1 hsy'.rows).trans (map_set_same hx hsx.rows)
        by_cases hl : LRows.labels x.rows = LRows.labels y.rows
        · obtain ⟨z, hz, hzs, hzr, hzi, hzl⟩ := heq hl
          subst hz
          dsimp only
          rw [if_pos hl]
          -- a frame with the identity of the first operand in the new list
          have hxx : ∃ x' ∈ (w.frames.set i x1).set j y1, Same x x' := by
            by_cases hij : i = j
            · subst hij
              have hxy : x = y := by rw [hx] at hy; exact Option.some.inj hy
              subst hxy
              have hlt := (List.getElem?_eq_some_iff.1 hx).1
              exact ⟨y1, List.mem_of_getElem? (i := i) (by simp [hlt]), hsy⟩
            · have hlt := (List.getElem?_eq_some_iff.1 hx).1
              exact ⟨x1, List.mem_of_getElem? (i := i) (by rw [List.getElem?_set_ne (Ne.symm hij)]; simp [hlt]), hsx⟩
          obtain ⟨x', hx'm, hxs'⟩ := hxx
          have hzlab : LRows.labels z.rows = LRows.labels x.rows := by rw [hzr, combine_labels op _ _ hl]
          have hfit : IdWorld.Fits ⟨(w.frames.set i x1).set j y1, w.next⟩ z (w.next + 3) := by
            refine ⟨hzs, by dsimp only; omega, ?_, ?_, ?_⟩
            · constructor
              · rcases hzi with h | h <;> omega
              · rcases hzl with ⟨h, _⟩ | h <;> omega
            · rcases hzi with h | h
              · exact Or.inl ⟨x', hx'm, h.trans hxs'.iid.symm, by rw [hzlab, hxs'.rows]⟩
              · exact Or.inr (by dsimp only; omega)
            · rcases hzl with ⟨h, hc⟩ | h
              · exact Or.inl ⟨x', hx'm, h.trans hxs'.lid.symm, by rw [hc, hxs'.cuts]⟩
              · exact Or.inr (by dsimp only; omega)
          refine ⟨hw2.push hfit, ?_⟩
          rw [List.map_append, hrows2, List.map_cons, List.map_nil, hzr]
        · have hr := hdiff hl
          subst hr
          dsimp only
          rw [if_neg hl]
          exact ⟨hw3, hrows2⟩

theorem IdWorld.run_spec (ops : List IdOp) (hops : ∀ op ∈ ops, op.FullChunks) (w : IdWorld) (hw : w.Ok) :
    (w.run ops).Ok ∧ (w.run ops).frames.map IFrame.rows = ops.foldl plainStep (w.frames.map IFrame.rows) := by
  induction ops generalizing w with
  | nil => exact ⟨hw, rfl⟩
  | cons op ops ih =>
    obtain ⟨h1, h2⟩ := IdWorld.step_spec hw op (hops op (List.mem_cons_self ..))
    have := ih (fun o ho => hops o (List.mem_cons_of_mem _ ho)) (w.step op) h1
    rw [h2] at this
    exact this
