import Verif.Model.MergeAsof
import Verif.Lemmas.Equals
/-
# C98: merge_asof joins to every row the row pandas joins

`Frame.mergeAsof` (Pandas/MergeAsof) says what pandas does.
-/

variable {ι κ α : Type}

/-- what is asked of `pick`: a position, or none, for each row of the left frame, and the position is there in the right frame -/
def AsofPick.Valid (pick : AsofPick α) : Prop :=
  ∀ lk rk g ps, pick lk rk g = some ps → ps.length = lk.length ∧ ∀ j, some j ∈ ps → j < rk.length

theorem asofKeys_length [DecidableEq κ] {value : ι → α} {on : Option κ} {df : Frame ι κ α} (h : df.WF) {ks : List α}
    (hk : df.asofKeys value on = some ks) : ks.length = df.nrows := by
  cases on with
  | none =>
    cases Option.some.inj hk
    simp [Frame.nrows]
  | some c =>
    unfold Frame.asofKeys Frame.cellsNamed at hk
    simp only at hk
    split at hk
    · rename_i hc
      cases Option.some.inj hk
      rw [columnCells_length fun r hr => by
        rw [h.row_width r hr]
        exact List.idxOf_lt_length_of_mem hc]
      exact h.rows_len
    · cases hk

theorem matches_valid [DecidableEq κ] {value : ι → α} {pick : AsofPick α} (hv : pick.Valid) {o : AsofOn κ} {left right : Frame ι κ α}
    (hl : left.WF) (hr : right.WF) {ps : List (Option Nat)} (h : o.matches value pick left right = some ps) :
    ps.length = left.nrows ∧ ∀ j, some j ∈ ps → j < right.nrows := by
  unfold AsofOn.matches at h
  obtain ⟨lk, h1, h⟩ := Option.bind_eq_some_iff.mp h
  obtain ⟨rk, h2, h⟩ := Option.bind_eq_some_iff.mp h
  obtain ⟨g, _, h⟩ := Option.bind_eq_some_iff.mp h
  obtain ⟨a, b⟩ := hv _ _ _ _ h
  exact ⟨a.trans (asofKeys_length hl h1), fun j hj => by rw [← asofKeys_length hr h2]; exact b j hj⟩

/-! ### the pieces -/

theorem zip_filter_parts {A B : Type} (p : A → Bool) : ∀ {l : List A} {r : List B}, r.length = l.length →
    l.filter p = ((l.zip r).filter (p ·.1)).map (·.1)
  | [], [], _ => rfl
  | a :: l, b :: r, h => by
    have ih := zip_filter_parts p (l := l) (r := r) (by simpa using h)
    simp only [List.zip_cons_cons, List.filter_cons]
    split <;> simp [ih]

theorem zip_of_parts {A B : Type} : ∀ l : List (A × B), (l.map (·.1)).zip (l.map (·.2)) = l
  | [] => rfl
  | x :: l => by simp [zip_of_parts l]

theorem whereColumns_whereColumns {p q : κ → Bool} {df : Frame ι κ α} (h : df.WF) :
    (df.whereColumns p).whereColumns q = df.whereColumns fun c => q c && p c := by
  unfold Frame.whereColumns
  simp only [List.filter_filter, List.map_map]
  congr 1
  apply List.map_congr_left
  intro r hr
  simp only [Function.comp]
  rw [zip_filter_parts p (h.row_width r hr), zip_of_parts, List.filter_filter]

theorem whereColumns_all {p : κ → Bool} {df : Frame ι κ α} (h : df.WF) (hp : ∀ c, p c = true) : df.whereColumns p = df := by
  have e : p = fun _ => true := funext hp
  subst e
  unfold Frame.whereColumns
  have : (df.rows.map fun r => ((df.columns.zip r).filter fun _ => true).map (·.2)) = df.rows := by
    conv => rhs; rw [← List.map_id df.rows]
    apply List.map_congr_left
    intro r hr
    have hlen := h.row_width r hr
    rw [List.filter_eq_self.mpr (fun _ _ => rfl)]
    exact List.map_snd_zip (by omega)
  rw [this, List.filter_eq_self.mpr (fun _ _ => rfl)]

theorem whereColumns_WF {p : κ → Bool} {df : Frame ι κ α} (h : df.WF) : (df.whereColumns p).WF := by
  refine ⟨?_, ?_⟩
  · show (df.rows.map _).length = df.index.length
    rw [List.length_map]
    exact h.rows_len
  · intro r hr
    obtain ⟨r0, h0, rfl⟩ := List.mem_map.mp hr
    show _ = (df.columns.filter p).length
    rw [zip_filter_parts p (h.row_width r0 h0), List.length_map, List.length_map]

/-- row by row, if the labels are the same and none is repeated -/
theorem flatMap_zip_self [DecidableEq ι] {A B C : Type} (f : ι → A → C) (g : ι → A → B → C) : ∀ {l : List ι} {a : List A} {b : List B}, l.Nodup →
    a.length = l.length → b.length = l.length →
    ((l.zip a).flatMap fun x => if ((l.zip b).filter (·.1 == x.1)).isEmpty then [f x.1 x.2]
      else ((l.zip b).filter (·.1 == x.1)).map fun y => g x.1 x.2 y.2) = (l.zip (a.zip b)).map fun x => g x.1 x.2.1 x.2.2
  | [], _, _, _, _, _ => by simp
  | i :: l, x :: a, y :: b, hn, ha, hb => by
    obtain ⟨hi, hn⟩ := List.nodup_cons.mp hn
    have ih := flatMap_zip_self f g (l := l) (a := a) (b := b) hn (by simpa using ha) (by simpa using hb)
    have hout : (l.zip b).filter (·.1 == i) = [] := by
      rw [List.filter_eq_nil_iff]
      intro p hp
      have := (List.of_mem_zip (a := p.1) (b := p.2) hp).1
      simp only [beq_iff_eq]
      intro e
      exact hi (e ▸ this)
    simp only [List.zip_cons_cons, List.flatMap_cons, List.filter_cons, beq_self_eq_true, ↓reduceIte, hout, List.isEmpty_cons,
      Bool.false_eq_true, List.map_cons, List.map_nil, List.cons_append, List.nil_append]
    rw [← ih]
    congr 1
    rw [List.flatMap_def, List.flatMap_def]
    refine congrArg List.flatten (List.map_congr_left ?_)
    intro p hp
    have := (List.of_mem_zip (a := p.1) (b := p.2) hp).1
    have hne : ¬ ((i == p.1) = true) := by simp only [beq_iff_eq]; intro e; exact hi (e ▸ this)
    simp only [if_neg hne]

/-- merging by row labels that are the same and not repeated puts the rows side by side -/
theorem mergeOnIndex_same [DecidableEq ι] [DecidableEq κ] {nan : α} {o : AsofOn κ} {left right : Frame ι κ α} (hn : left.index.Nodup)
    (hi : right.index = left.index) (hl : left.rows.length = left.index.length) (hr : right.rows.length = left.index.length) :
    left.mergeOnIndex nan o right = Frame.mk left.index (o.joinLabels left.columns right.columns) (List.zipWith (· ++ ·) left.rows right.rows) := by
  unfold Frame.mergeOnIndex
  rw [hi]
  have := flatMap_zip_self (fun (x : ι) (r : List α) => (x, r ++ List.replicate right.ncols nan)) (fun x r s => (x, r ++ s)) hn hl hr
  simp only at this ⊢
  rw [this]
  have h2 : (left.rows.zip right.rows).length = left.index.length := by simp [hl, hr]
  congr 1
  · rw [List.map_map]
    exact List.map_fst_zip (by omega)
  · rw [List.map_map]
    have := List.map_snd_zip (l₁ := left.index) (l₂ := left.rows.zip right.rows) (by omega)
    rw [show ((fun x : ι × List α => x.2) ∘ fun x : ι × List α × List α => (x.1, x.2.1 ++ x.2.2))
      = (fun y : List α × List α => y.1 ++ y.2) ∘ (·.2) from rfl, ← List.map_map, this]
    generalize left.rows = A
    generalize right.rows = B
    induction A generalizing B with
    | nil => simp
    | cons a A ih =>
      cases B with
      | nil => simp
      | cons b B => simp [ih]

/-- a row found under its label -/
theorem find_zip_at [DecidableEq ι] {B : Type} : ∀ {l : List ι} {b : List B} {j : Nat} {i : ι}, l.Nodup → b.length = l.length → l[j]? = some i →
    ((l.zip b).find? (·.1 == i)).map (·.2) = b[j]?
  | [], _, j, i, _, _, h => by simp at h
  | x :: l, y :: b, 0, i, _, _, h => by
    cases Option.some.inj (by simpa using h : some x = some i)
    simp
  | x :: l, y :: b, j + 1, i, hn, hb, h => by
    obtain ⟨hx, hn⟩ := List.nodup_cons.mp hn
    have hm : i ∈ l := List.mem_of_getElem? (by simpa using h)
    rw [List.zip_cons_cons, List.find?_cons_of_neg (by simp only [beq_iff_eq]; intro e; exact hx (e ▸ hm)),
      find_zip_at hn (by simpa using hb) (by simpa using h)]
    simp

theorem filter_replicate {p : κ → Bool} {nan : α} : ∀ cols : List κ,
    ((cols.zip (List.replicate cols.length nan)).filter (p ·.1)).map (·.2) = List.replicate (cols.filter p).length nan
  | [] => rfl
  | c :: cols => by
    have ih := filter_replicate (p := p) (nan := nan) cols
    simp only [List.length_cons, List.replicate_succ, List.zip_cons_cons, List.filter_cons]
    split <;> simp [ih, List.replicate_succ]

theorem rightSubset_spec [DecidableEq ι] [DecidableEq κ] {nan : α} {na : ι} {o : AsofOn κ} {left right : Frame ι κ α} (hr : right.WF)
    (hn : right.index.Nodup) (hna : na ∉ right.index) {ps : List (Option Nat)} (hps : ∀ j, some j ∈ ps → j < right.nrows)
    (hon : ∀ r, o.rightOn = some r → o.leftOn = some r ∧ r ∈ right.columns) (hby : ∀ b, o.rightBy = some b → b ∈ right.columns)
    (hne : o.rightOn.isSome = true → o.rightBy ≠ o.rightOn) :
    o.rightSubset nan na left right ps = some (Frame.mk left.index (right.whereColumns o.keepsRight).columns
      (ps.map fun p => (p.bind ((right.whereColumns o.keepsRight).rows[·]?)).getD
        (List.replicate (right.whereColumns o.keepsRight).ncols nan))) := by
  unfold AsofOn.rightSubset
  rw [reindexIndex_rows hr hn, Option.bind_some]
  generalize hJ : (ps.map fun p => (p.bind (right.index[·]?)).getD na) = J
  have hrows : (J.map fun x => (((right.index.zip right.rows).find? (·.1 == x)).map (·.2)).getD (List.replicate right.ncols nan))
      = ps.map fun p => (p.bind (right.rows[·]?)).getD (List.replicate right.ncols nan) := by
    rw [← hJ, List.map_map]
    apply List.map_congr_left
    intro p hp
    simp only [Function.comp]
    cases p with
    | none =>
      have : (right.index.zip right.rows).find? (fun x => x.1 == na) = none := by
        rw [List.find?_eq_none]
        intro q hq
        have := (List.of_mem_zip (a := q.1) (b := q.2) hq).1
        simp only [beq_iff_eq]
        intro e
        exact hna (e ▸ this)
      simp [this]
    | some j =>
      have hj : j < right.index.length := hps j hp
      simp only [Option.bind_some, List.getElem?_eq_getElem hj, Option.getD_some]
      rw [find_zip_at hn hr.rows_len (List.getElem?_eq_getElem hj)]
  rw [hrows]
  generalize hF : (Frame.mk J right.columns (ps.map fun p => (p.bind (right.rows[·]?)).getD (List.replicate right.ncols nan)) : Frame ι κ α) = F
  have hFw : F.WF := by
    subst hF
    refine ⟨by simp [← hJ], ?_⟩
    intro r hr'
    obtain ⟨p, hp, rfl⟩ := List.mem_map.mp hr'
    cases p with
    | none => simp [Frame.ncols]
    | some j =>
      have hj : j < right.rows.length := by rw [hr.rows_len]; exact hps j hp
      simp only [Option.bind_some, List.getElem?_eq_getElem hj, Option.getD_some]
      exact hr.row_width _ (List.getElem_mem hj)
  have hFc : F.columns = right.columns := by subst hF; rfl
  have key : ∀ F' : Frame ι κ α, F' = F.whereColumns o.keepsRight → some (Frame.mk left.index F'.columns F'.rows) = some (Frame.mk left.index (right.whereColumns o.keepsRight).columns
      (ps.map fun p => (p.bind ((right.whereColumns o.keepsRight).rows[·]?)).getD
        (List.replicate (right.whereColumns o.keepsRight).ncols nan))) := by
    rintro _ rfl
    subst hF
    unfold Frame.whereColumns
    simp only [List.map_map]
    congr 2
    apply List.map_congr_left
    intro p hp
    simp only [Function.comp]
    cases p with
    | none => simp only [Option.bind_none, Option.getD_none, Frame.ncols]; exact filter_replicate _
    | some j =>
      have hj : j < right.rows.length := by rw [hr.rows_len]; exact hps j hp
      simp [List.getElem?_eq_getElem hj]
  cases h1 : o.rightOn with
  | none =>
    simp only [Option.bind_some]
    cases h2 : o.rightBy with
    | none =>
      simp only [Option.map_some]
      exact key F (whereColumns_all hFw (fun c => by simp [AsofOn.keepsRight, h1, h2])).symm
    | some b =>
      simp only
      by_cases h3 : o.leftBy = some b
      · rw [if_pos h3, Frame.dropLabel, if_pos (by rw [hFc]; exact hby b h2), Option.map_some]
        refine key _ (congrArg (Frame.whereColumns · F) (funext fun c => ?_))
        simp [AsofOn.keepsRight, h1, h2, h3, eq_comm]
      · rw [if_neg h3, Option.map_some]
        refine key F (whereColumns_all hFw (fun c => ?_)).symm
        simp only [AsofOn.keepsRight, h1, h2, Bool.not_eq_true', Bool.or_eq_false_iff, decide_eq_false_iff_not]
        exact ⟨by simp, fun h => h3 (by rw [h.2, ← h.1])⟩
  | some r =>
    obtain ⟨h4, h5⟩ := hon r h1
    simp only
    rw [Frame.dropLabel, if_pos (by rw [hFc]; exact h5), Option.bind_some]
    cases h2 : o.rightBy with
    | none =>
      simp only [Option.map_some]
      refine key _ (congrArg (Frame.whereColumns · F) (funext fun c => ?_))
      simp [AsofOn.keepsRight, h1, h2, h4, eq_comm]
    | some b =>
      have hbr : b ≠ r := fun e => hne (by rw [h1]; rfl) (by rw [h1, h2, e])
      simp only
      by_cases h3 : o.leftBy = some b
      · rw [if_pos h3, Frame.dropLabel, if_pos (by
          show b ∈ F.columns.filter _
          rw [hFc, List.mem_filter]
          exact ⟨hby b h2, by simpa using hbr⟩), Option.map_some, whereColumns_whereColumns hFw]
        refine key _ (congrArg (Frame.whereColumns · F) (funext fun c => ?_))
        simp only [AsofOn.keepsRight, h1, h2, h3, h4, and_self, Option.some.injEq, Bool.not_or]
        rw [Bool.and_comm]
        congr 1 <;> simp [eq_comm]
      · rw [if_neg h3, Option.map_some]
        refine key _ (congrArg (Frame.whereColumns · F) (funext fun c => ?_))
        have : ¬ (some b = some c ∧ o.leftBy = some c) := fun h => h3 (by rw [h.2, ← h.1])
        unfold AsofOn.keepsRight
        rw [h1, h2, h4, decide_eq_false this, Bool.or_false]
        by_cases e : c = r
        · simp [e]
        · have e' : ¬ r = c := fun h => e h.symm
          simp [e, e']

/-- **C98** `merge_asof` gives pandas' frame, and raises when pandas raises, whatever the direction, the tolerance and `by`.
    Partial: the row labels of the left frame must not repeat (`C98_repeated_labels`); no row of the right frame is labelled with a missing
    value (`C98_missing_label`); key columns of different names (`C98_two_names`) are excluded, and so is a key column of the left frame
    with the row labels of the right unless it is the left frame's first column and there is a column of its name on the right
    (`C98_right_index`, `C98_right_index_place`), and a column that is both key and `by`. -/
theorem C98_merge_asof_partial [DecidableEq ι] [DecidableEq κ] (nan : α) (na : ι) (num : Nat → ι) (value : ι → α) (pick : AsofPick α)
    (hv : pick.Valid) (o : AsofOn κ) (left right : Frame ι κ α) (hl : left.WF) (hr : right.WF) (hn : left.index.Nodup) (hna : na ∉ right.index)
    (hon : ∀ r, o.rightOn = some r → o.leftOn.isSome = true → o.leftOn = some r)
    (hne : o.rightOn.isSome = true → o.rightBy ≠ o.rightOn)
    (hidx : ∀ a, o.leftOn = some a → o.rightOn = none → o.leftBy = none ∧ left.columns.head? = some a ∧
      a ∈ right.columns.filter o.keepsRight ∧ a ∉ o.joinLabels left.columns (right.columns.filter o.keepsRight)) :
    left.modinMergeAsof nan na num value pick o right = left.mergeAsof nan num value pick o right := by
  unfold Frame.modinMergeAsof
  by_cases hfall : (o.leftOn = none ∧ o.rightOn.isSome = true) ∨ ¬ right.index.Nodup
  · rw [if_pos hfall]
  · rw [if_neg hfall]
    have hnr : right.index.Nodup := Decidable.byContradiction fun h => hfall (Or.inr h)
    unfold Frame.mergeAsof
    cases hm : o.matches value pick left right with
    | none => rfl
    | some ps =>
      obtain ⟨hlen, hps⟩ := matches_valid hv hl hr hm
      have hcols : (∀ r, o.rightOn = some r → r ∈ right.columns) ∧ (∀ b, o.rightBy = some b → b ∈ right.columns) := by
        unfold AsofOn.matches at hm
        obtain ⟨lk, h1, hm⟩ := Option.bind_eq_some_iff.mp hm
        obtain ⟨rk, h2, hm⟩ := Option.bind_eq_some_iff.mp hm
        obtain ⟨g, h3, hm⟩ := Option.bind_eq_some_iff.mp hm
        have hc : ∀ c (x : List α), right.cellsNamed c = some x → c ∈ right.columns := by
          intro c x h
          unfold Frame.cellsNamed at h
          split at h
          · assumption
          · cases h
        constructor
        · intro r e
          rw [e] at h2
          exact hc _ _ h2
        · intro b e
          unfold AsofOn.groups at h3
          rw [e] at h3
          cases e' : o.leftBy with
          | none => rw [e'] at h3; cases h3
          | some a =>
            rw [e'] at h3
            obtain ⟨x, _, h3⟩ := Option.bind_eq_some_iff.mp h3
            obtain ⟨y, h3, _⟩ := Option.map_eq_some_iff.mp h3
            exact hc _ _ h3
      rw [Option.bind_some, Option.bind_some, rightSubset_spec (left := left) hr hnr hna hps
        (fun r e => ⟨hon r e (by
          cases e' : o.leftOn with
          | none => exact absurd (Or.inl ⟨e', by rw [e]; rfl⟩) hfall
          | some a => rfl), hcols.1 r e⟩) hcols.2 hne, Option.bind_some]
      generalize hK : right.whereColumns o.keepsRight = K at *
      have hKc : K.columns = right.columns.filter o.keepsRight := by rw [← hK]; rfl
      simp only
      rw [mergeOnIndex_same (right := Frame.mk left.index K.columns _) hn rfl hl.rows_len (by simp [hlen, Frame.nrows])]
      simp only [List.zipWith_map_right]
      generalize hR : List.zipWith (fun r p => r ++ ((p.bind (K.rows[·]?)).getD (List.replicate K.ncols nan))) left.rows ps = R
      cases h1 : o.leftOn with
      | none =>
        cases h2 : o.rightOn with
        | none => simp
        | some r => exact absurd (Or.inl ⟨h1, by rw [h2]; rfl⟩) hfall
      | some a =>
        cases h2 : o.rightOn with
        | some r => simp [Frame.nrows]
        | none =>
          obtain ⟨g1, g2, g3, g4⟩ := hidx a h1 h2
          rw [← hKc] at g3 g4
          have hcs : ∃ cs, left.columns = a :: cs := by
            cases e : left.columns with
            | nil => rw [e] at g2; cases g2
            | cons x cs => rw [e] at g2; cases g2; exact ⟨cs, rfl⟩
          obtain ⟨cs, hcs⟩ := hcs
          have hjoin : ∃ rest, o.joinLabels left.columns K.columns = o.addLeft a :: rest := by
            unfold AsofOn.joinLabels
            rw [hcs, List.map_cons, if_pos g3]
            exact ⟨_, rfl⟩
          obtain ⟨rest, hjoin⟩ := hjoin
          have hcells : columnCells R 0 = columnCells left.rows 0 := by
            rw [← hR]
            have hw : ∀ r ∈ left.rows, r ≠ [] := by
              intro r hr' e
              have := hl.row_width r hr'
              rw [e, hcs] at this
              simp at this
            have hlp : left.rows.length = ps.length := by rw [hl.rows_len, hlen]; rfl
            clear hR
            generalize left.rows = A at *
            clear hm hps hlen
            induction A generalizing ps with
            | nil => simp [columnCells]
            | cons r A ih =>
              cases ps with
              | nil => simp at hlp
              | cons p ps =>
                have := ih ps (fun r hr' => hw r (List.mem_cons_of_mem _ hr')) (by simpa using hlp)
                unfold columnCells at this ⊢
                cases r with
                | nil => exact absurd rfl (hw [] (by simp))
                | cons x r => simp [this]
          simp only [g1, Option.isSome_none, Option.isSome_some, Bool.and_false, Bool.false_eq_true, ↓reduceIte]
          rw [if_neg g4]
          unfold Frame.cellsNamed
          simp only
          rw [hjoin, hcs, if_pos (by simp), if_pos (by simp), if_pos (by simp)]
          simp only [List.idxOf_cons_self, Option.map_some, hcells]

/-! ### frames -/

namespace MergeAsofDemo

/-- `direction="backward"` with exact matches: the last row whose key is not greater, with the same value of `by` -/
def backward : AsofPick Int := fun lk rk by_ =>
  some ((List.range lk.length).map fun i =>
    ((List.range rk.length).filter fun j => decide (rk.getD j 0 ≤ lk.getD i 0) && (match by_ with
      | none => true
      | some (x, y) => x.getD i 0 == y.getD j 0)).getLast?)

theorem backward_valid : backward.Valid := by
  intro lk rk g ps h
  cases Option.some.inj h
  refine ⟨by simp, fun j hj => ?_⟩
  obtain ⟨i, _, hi⟩ := List.mem_map.mp hj
  have := List.mem_of_getLast? hi
  exact List.mem_range.mp (List.mem_filter.mp this).1

def addX (s : String) : String := s ++ "_x"
def addY (s : String) : String := s ++ "_y"

/-- `on="a"` -/
def onA : AsofOn String := ⟨some "a", some "a", none, none, addX, addY⟩
/-- `on="a", by="g"` -/
def onAbyG : AsofOn String := ⟨some "a", some "a", some "g", some "g", addX, addY⟩
/-- `left_on="a", right_on="t"` -/
def onAT : AsofOn String := ⟨some "a", some "t", none, none, addX, addY⟩
/-- `left_on="a", right_index=True` -/
def onARight : AsofOn String := ⟨some "a", none, none, none, addX, addY⟩

def merged (o : AsofOn String) (left right : Frame Int String Int) := left.modinMergeAsof (-9) (-1) Int.ofNat id backward o right
def asPandas (o : AsofOn String) (left right : Frame Int String Int) := left.mergeAsof (-9) Int.ofNat id backward o right

def trades (index : List Int) : Frame Int String Int := .mk index ["a", "g", "v"] [[1, 0, 10], [5, 1, 20], [9, 0, 30]]
def quotes (index : List Int) : Frame Int String Int := .mk index ["a", "g", "w"] [[2, 0, 70], [3, 1, 80], [4, 0, 90]]

/-- the hypotheses are met: `on="a", by="g"`; the first row has no partner -/
example : merged onAbyG (trades [6, 4, 5]) (quotes [7, 8, 2])
    = some (.mk [0, 1, 2] ["a", "g", "v", "w"] [[1, 0, 10, -9], [5, 1, 20, 80], [9, 0, 30, 90]]) :=
  (C98_merge_asof_partial (-9) (-1) Int.ofNat id backward backward_valid onAbyG (trades [6, 4, 5]) (quotes [7, 8, 2]) ⟨rfl, by decide⟩ ⟨rfl, by decide⟩
    (by decide) (by decide) (by decide) (by decide) (by intro a _ h; cases h)).trans (by decide +kernel)

/-- the hypotheses are met: `left_on="a", right_index=True` with a column `a` on both sides -/
example : merged onARight (trades [6, 4, 5]) (quotes [2, 7, 8])
    = some (.mk [6, 4, 5] ["a", "a_x", "g_x", "v", "a_y", "g_y", "w"]
        [[1, 1, 0, 10, -9, -9, -9], [5, 5, 1, 20, 2, 0, 70], [9, 9, 0, 30, 4, 0, 90]]) :=
  (C98_merge_asof_partial (-9) (-1) Int.ofNat id backward backward_valid onARight (trades [6, 4, 5]) (quotes [2, 7, 8]) ⟨rfl, by decide⟩ ⟨rfl, by decide⟩
    (by decide) (by decide) (by intro r h; cases h) (by decide) (by
      intro a h _
      cases (Option.some.inj h : "a" = a)
      decide +kernel)).trans (by decide +kernel)

/-- **C98** (witness) a row label that occurs twice on the left: five rows instead of three -/
theorem C98_repeated_labels : (merged onA (trades [1, 0, 1]) (quotes [0, 1, 2])).map (·.rows.length) = some 5 ∧
    (asPandas onA (trades [1, 0, 1]) (quotes [0, 1, 2])).map (·.rows.length) = some 3 := by decide +kernel

/-- **C98** (witness) a row of the right frame labelled with a missing value is joined to the rows without partner -/
theorem C98_missing_label : (merged onA (trades [0, 1, 2]) (quotes [5, 6, -1])).map (·.rows) ≠
    (asPandas onA (trades [0, 1, 2]) (quotes [5, 6, -1])).map (·.rows) := by decide +kernel

/-- **C98** (witness) `left_on="a", right_on="t"`: the column `t` is missing -/
theorem C98_two_names : (merged onAT (trades [0, 1, 2]) (.mk [0, 1] ["t", "w"] [[2, 70], [3, 80]])).map (·.columns) = some ["a", "g", "v", "w"] ∧
    (asPandas onAT (trades [0, 1, 2]) (.mk [0, 1] ["t", "w"] [[2, 70], [3, 80]])).map (·.columns) = some ["a", "g", "v", "t", "w"] := by
  decide +kernel

/-- **C98** (witness) `left_on="a", right_index=True` raises if the right frame has no column `a` -/
theorem C98_right_index : merged onARight (trades [0, 1, 2]) (.mk [2, 3] ["w"] [[70], [80]]) = none ∧
    (asPandas onARight (trades [0, 1, 2]) (.mk [2, 3] ["w"] [[70], [80]])).map (·.columns) = some ["a", "g", "v", "w"] := by decide +kernel

/-- **C98** (witness) the key column put back under its name is in another place if it is not the first -/
theorem C98_right_index_place :
    (merged onARight (.mk [0, 1] ["v", "a"] [[10, 1], [20, 5]]) (.mk [2, 3] ["a"] [[70], [80]])).map (·.columns) = some ["v", "a", "a_x", "a_y"] ∧
    (asPandas onARight (.mk [0, 1] ["v", "a"] [[10, 1], [20, 5]]) (.mk [2, 3] ["a"] [[70], [80]])).map (·.columns)
      = some ["a", "v", "a_x", "a_y"] := by decide +kernel

end MergeAsofDemo
