import Verif.Model.CrossSection
import Verif.Lemmas.Relabel
import Verif.Lemmas.Share
import Verif.Props.LocGet
import Verif.Props.Pieces
/-
C103: `xs`, `get` and `pop`.
-/

variable {L α : Type}

theorem labelPlaces_lt [DecidableEq L] {labels : List L} {x : L} : ∀ p ∈ labelPlaces labels x, p < labels.length := by
  intro p hp
  exact List.mem_range.1 (List.mem_filter.1 hp).1

theorem labelPlaces_nodup [DecidableEq L] (labels : List L) (x : L) : (labelPlaces labels x).Nodup :=
  List.Nodup.sublist List.filter_sublist List.nodup_range

theorem labelPlaces_nil [DecidableEq L] {labels : List L} {x : L} : labelPlaces labels x = [] ↔ x ∉ labels := by
  unfold labelPlaces
  rw [List.filter_eq_nil_iff]
  constructor
  · intro h hx
    obtain ⟨k, hk, e⟩ := List.mem_iff_getElem.1 hx
    apply h k (List.mem_range.2 hk)
    rw [List.getElem?_eq_getElem hk, e]
    simp
  · intro h k hk he
    apply h
    have := List.mem_range.1 hk
    rw [List.getElem?_eq_getElem this] at he
    have he : labels[k] = x := by simpa using he
    rw [← he]
    exact List.getElem_mem this

theorem takeList_range'_slice {τ : Type} (l : List τ) : ∀ (k a : Nat), a + k ≤ l.length → takeList l (List.range' a k) = (l.drop a).take k
  | 0, a, _ => by simp [takeList]
  | k + 1, a, h => by
    have ha : a < l.length := by omega
    have ih := takeList_range'_slice l k (a + 1) (by omega)
    unfold takeList at ih ⊢
    rw [List.range'_succ, List.filterMap_cons, List.getElem?_eq_getElem ha, List.drop_eq_getElem_cons ha, List.take_succ_cons]
    simp only [ih]

theorem picked_places {n : Nat} {ps : List Nat} (h : ∀ p ∈ ps, p < n) : (IKey.list (ps.map Int.ofNat)).picked n = some (.many ps) := by
  simp only [IKey.picked, IKey.addressed, mapM_axisPos_nat h, Option.map_some]

theorem picked_span {n a b : Nat} (h1 : a ≤ b) (h2 : b ≤ n) : (IKey.slice (some a) (some b)).picked n = some (.many (List.range' a (b - a))) := by
  have e1 : sliceBound n (a : Int) = a := by unfold sliceBound; rw [if_neg (by omega)]; simp; omega
  have e2 : sliceBound n (b : Int) = b := by unfold sliceBound; rw [if_neg (by omega)]; simp; omega
  simp only [IKey.picked, IKey.addressed, Option.map_some, Option.getD_some, e1, e2]

/-- the positions of a label that is there several times, as a span -/
theorem span_bounds {labels : List L} [DecidableEq L] {x : L} {a b : Nat} (h : labelPlaces labels x = List.range' a (b - a))
    (h2 : 2 ≤ (labelPlaces labels x).length) : a < b ∧ b ≤ labels.length := by
  rw [h, List.length_range'] at h2
  refine ⟨by omega, ?_⟩
  have : b - 1 ∈ labelPlaces labels x := by rw [h, List.mem_range'_1]; omega
  have := labelPlaces_lt _ this
  omega

theorem xs_item [DecidableEq L] (P : LabelOps L) (key : L) (df : Frame L L α) : df.itemAt P (.column key) = df.xs key true true := by
  unfold Frame.itemAt Frame.locAt Frame.xs
  simp only [LocKey.picked, LKey.picked, LKey.addressed, Option.map_some, Option.bind_some, if_true]
  have hp : (List.range df.columns.length).filter (fun k => df.columns[k]? == some key) = labelPlaces df.columns key := rfl
  by_cases hk : key ∈ df.columns
  · rw [if_pos hk, hp]
    have hne : labelPlaces df.columns key ≠ [] := fun e => labelPlaces_nil.1 e hk
    cases hl : labelPlaces df.columns key with
    | nil => exact absurd hl hne
    | cons q qs => cases qs <;> rfl
  · rw [if_neg hk, labelPlaces_nil.2 hk]
    rfl

theorem two_le {τ : Type} {l : List τ} (h : 2 ≤ l.length) : ∃ a b r, l = a :: b :: r := by
  match l, h with
  | a :: b :: r, _ => exact ⟨a, b, r, rfl⟩

theorem ilocAt_located (df : Frame L L α) {r c : IKey} {p q : Pick} {s : Selected L α} (hr : r.picked df.nrows = some p)
    (hc : c.picked df.ncols = some q) (e : df.ilocAt r c = some s) : df.located p q = some s := by
  unfold Frame.ilocAt at e
  rw [show df.index.length = df.nrows from rfl, hr, show df.columns.length = df.ncols from rfl, hc] at e
  exact e

theorem xs_rows [DecidableEq L] (getLoc : List L → L → Option FoundAt) (cfg : Cfg) (hp : 1 ≤ cfg.nPartitions) (hmr : 1 ≤ cfg.minRow)
    (hmc : 1 ≤ cfg.minCol) (known : Nat → Nat → Bool × Bool) (nan : α) (unnamed key : L) {m : LFrame L L α} {df : Frame L L α}
    (h : m.Shows df) (hloc : GetLocOf df.index key (getLoc df.index key)) (dropLevel : Bool) (hn : 0 < df.ncols) :
    (m.xs getLoc cfg known nan unnamed key false dropLevel = none ∧ df.xs key false dropLevel = none) ∨
    ∃ o s, m.xs getLoc cfg known nan unnamed key false dropLevel = some o ∧ df.xs key false dropLevel = some s ∧ o.Is s := by
  have hcs : (IKey.slice none none).isSlice = true → (Pick.many (List.range df.ncols)).list ≠ [] := by
    intro _; simp [Pick.list]; omega
  unfold LFrame.xs Frame.xs
  simp only [Bool.false_and, Bool.false_eq_true, if_false, h.getIndex]
  cases hg : getLoc df.index key with
  | none =>
    rw [hg] at hloc
    simp only [GetLocOf] at hloc
    left
    rw [hloc]
    exact ⟨rfl, rfl⟩
  | some l =>
    rw [hg] at hloc
    right
    cases l with
    | one p =>
      simp only [GetLocOf] at hloc
      have hlt : p < df.nrows := labelPlaces_lt p (by rw [hloc]; simp)
      have hr : (IKey.int p).picked df.nrows = some (.one p) := by simp [IKey.picked, axisPos_nat hlt]
      obtain ⟨o, s, e1, e2, e3⟩ := ilocAt_spec cfg hp hmr hmc known nan unnamed h hr (picked_colon _) (fun e => by cases e) hcs
        (Or.inr ⟨by simp [Pick.list], List.nodup_range⟩)
      refine ⟨o, s, e1, ?_, e3⟩
      rw [hloc]
      exact ilocAt_located df hr (picked_colon _) e2
    | span a b =>
      simp only [GetLocOf] at hloc
      obtain ⟨hl, h2⟩ := hloc
      obtain ⟨hab, hb⟩ := span_bounds hl h2
      have hr := picked_span (n := df.nrows) (Nat.le_of_lt hab) hb
      obtain ⟨o, s, e1, e2, e3⟩ := ilocAt_spec cfg hp hmr hmc known nan unnamed h hr (picked_colon _)
        (by intro _; simp [Pick.list]; omega) hcs (Or.inr ⟨by simp only [Pick.list]; rw [← hl]; exact labelPlaces_nodup _ _, List.nodup_range⟩)
      have e4 := ilocAt_located df hr (picked_colon _) e2
      simp only [Frame.located, Option.some.injEq] at e4
      subst e4
      cases o with
      | frame m1 =>
        obtain ⟨m2, e5, e6⟩ := setIndex_shows e3 (pySlice df.index a b) (df' := (df.takeRows (List.range' a (b - a))).takeCols (List.range df.ncols)) (by
          have : pySlice df.index a b = takeList df.index (List.range' a (b - a)) :=
            (takeList_range'_slice df.index (b - a) a (by have : b ≤ df.index.length := hb; omega)).symm
          rw [this]
          unfold Frame.setIndex
          rw [if_pos (by simp [Frame.takeRows, Frame.takeCols])]
          rfl)
        refine ⟨.frame m2, .frame ((df.takeRows (List.range' a (b - a))).takeCols (List.range df.ncols)), ?_, ?_, e6⟩
        · simp only [Option.bind_some, e1, Located.withIndex, e5, Option.map_some]
        · obtain ⟨p, q, r, e7⟩ := two_le h2
          rw [← hl, e7]
          rfl
      | series m1 => exact e3.elim
      | scalar x => exact e3.elim
    | mask bs =>
      simp only [GetLocOf] at hloc
      obtain ⟨hl, hb, h2⟩ := hloc
      have hr := picked_places (n := df.nrows) (ps := labelPlaces df.index key) labelPlaces_lt
      obtain ⟨o, s, e1, e2, e3⟩ := ilocAt_spec cfg hp hmr hmc known nan unnamed h hr (picked_colon _) (fun e => by cases e) hcs
        (Or.inr ⟨labelPlaces_nodup _ _, List.nodup_range⟩)
      have e4 := ilocAt_located df hr (picked_colon _) e2
      refine ⟨o, s, ?_, ?_, e3⟩
      · simp only [Option.bind_some]
        rw [hb, hl]
        exact e1
      · obtain ⟨p, q, r, e7⟩ := two_le h2
        rw [e7] at e4 ⊢
        exact e4

theorem xs_columns [DecidableEq L] (getLoc : List L → L → Option FoundAt) (cfg : Cfg) (hp : 1 ≤ cfg.nPartitions) (hmr : 1 ≤ cfg.minRow)
    (hmc : 1 ≤ cfg.minCol) (known : Nat → Nat → Bool × Bool) (nan : α) (unnamed key : L) {m : LFrame L L α} {df : Frame L L α}
    (h : m.Shows df) (hloc : GetLocOf df.columns key (getLoc df.columns key)) (hn : 0 < df.nrows) :
    (m.xs getLoc cfg known nan unnamed key true false = none ∧ df.xs key true false = none) ∨
    ∃ o s, m.xs getLoc cfg known nan unnamed key true false = some o ∧ df.xs key true false = some s ∧ o.Is s := by
  have hrs : (IKey.slice none none).isSlice = true → (Pick.many (List.range df.nrows)).list ≠ [] := by
    intro _; simp [Pick.list]; omega
  unfold LFrame.xs Frame.xs
  simp only [Bool.and_false, Bool.false_eq_true, if_false, if_true, h.getColumns]
  cases hg : getLoc df.columns key with
  | none =>
    rw [hg] at hloc
    simp only [GetLocOf] at hloc
    left
    rw [hloc]
    exact ⟨rfl, rfl⟩
  | some l =>
    rw [hg] at hloc
    right
    cases l with
    | one p =>
      simp only [GetLocOf] at hloc
      have hlt : p < df.ncols := labelPlaces_lt p (by rw [hloc]; simp)
      have hc := picked_span (n := df.ncols) (a := p) (b := p + 1) (by omega) hlt
      rw [show p + 1 - p = 1 by omega] at hc
      obtain ⟨o, s, e1, e2, e3⟩ := ilocAt_spec cfg hp hmr hmc known nan unnamed h (picked_colon _) hc hrs
        (by intro _; simp [Pick.list]) (Or.inr ⟨List.nodup_range, by simp [Pick.list]⟩)
      refine ⟨o, s, e1, ?_, e3⟩
      rw [hloc]
      exact ilocAt_located df (picked_colon _) hc e2
    | span a b =>
      simp only [GetLocOf] at hloc
      obtain ⟨hl, h2⟩ := hloc
      obtain ⟨hab, hb⟩ := span_bounds hl h2
      have hc := picked_span (n := df.ncols) (Nat.le_of_lt hab) hb
      obtain ⟨o, s, e1, e2, e3⟩ := ilocAt_spec cfg hp hmr hmc known nan unnamed h (picked_colon _) hc hrs
        (by intro _; simp [Pick.list]; omega) (Or.inr ⟨List.nodup_range, by simp only [Pick.list]; rw [← hl]; exact labelPlaces_nodup _ _⟩)
      have e4 := ilocAt_located df (picked_colon _) hc e2
      refine ⟨o, s, e1, ?_, e3⟩
      rw [← hl] at e4
      obtain ⟨p, q, r, e7⟩ := two_le h2
      rw [e7] at e4 ⊢
      exact e4
    | mask bs =>
      simp only [GetLocOf] at hloc
      obtain ⟨hl, hb, h2⟩ := hloc
      have hc := picked_places (n := df.ncols) (ps := labelPlaces df.columns key) labelPlaces_lt
      obtain ⟨o, s, e1, e2, e3⟩ := ilocAt_spec cfg hp hmr hmc known nan unnamed h (picked_colon _) hc hrs (fun e => by cases e)
        (Or.inr ⟨List.nodup_range, labelPlaces_nodup _ _⟩)
      have e4 := ilocAt_located df (picked_colon _) hc e2
      refine ⟨o, s, ?_, ?_, e3⟩
      · simp only [Option.bind_some]
        rw [hb, hl]
        exact e1
      · obtain ⟨p, q, r, e7⟩ := two_le h2
        rw [e7] at e4 ⊢
        exact e4

theorem xs_getitem [DecidableEq L] (cfg : Cfg) (hp : 1 ≤ cfg.nPartitions) (hmr : 1 ≤ cfg.minRow) (hmc : 1 ≤ cfg.minCol)
    (known : Nat → Nat → Bool × Bool) (nan : α) (unnamed key : L) {m : LFrame L L α} {df : Frame L L α} (h : m.Shows df) :
    (m.itemAt cfg known nan unnamed (.column key) = none ∧ df.xs key true true = none ∧ key ∉ df.columns) ∨
    ∃ o s, m.itemAt cfg known nan unnamed (.column key) = some o ∧ df.xs key true true = some s ∧ o.Is s ∧ key ∈ df.columns := by
  have hx := fun P => xs_item (α := α) P key df
  by_cases hk : key ∈ df.columns
  · right
    have P : LabelOps L := ⟨fun _ _ _ => none, fun _ => unnamed⟩
    have hsome : ∃ s, df.xs key true true = some s := by
      have hne : labelPlaces df.columns key ≠ [] := fun e => labelPlaces_nil.1 e hk
      unfold Frame.xs
      simp only [if_true]
      cases hl : labelPlaces df.columns key with
      | nil => exact absurd hl hne
      | cons q qs =>
        cases qs with
        | nil =>
          have : q < df.columns.length := labelPlaces_lt q (by rw [hl]; simp)
          simp only [Frame.located, List.getElem?_eq_getElem this, Option.map_some]
          exact ⟨_, rfl⟩
        | cons => exact ⟨_, rfl⟩
    obtain ⟨s, hs⟩ := hsome
    obtain ⟨o, e1, e2⟩ := itemAt_spec P cfg hp hmr hmc known nan unnamed h (key := .column key) (s := s) (by rw [hx P, hs])
      (fun xs e => by cases e) (fun a b e => by cases e) (List.length_pos_of_mem hk)
    exact ⟨o, s, e1, hs, e2, hk⟩
  · left
    refine ⟨(C73_getitem_missing cfg known nan unnamed m df h key hk [key] (by simp)).1, ?_, hk⟩
    unfold Frame.xs
    simp only [if_true]
    rw [labelPlaces_nil.2 hk]

/-- **C103**, `xs`.  `df.xs(key, axis=..., drop_level=...)` on labels of one level, on every partitioning, for labels that are there once,
    several times (next to each other or not) or not at all, is pandas' result; `KeyError` (`none`) is raised exactly when pandas raises it.
    `getLoc` is pandas' `Index.get_loc`; `GetLocOf` says what it promises.

    Partial: the other axis must not be empty (as in C73), and `level` and labels of several levels are left out. -/
theorem C103_xs_partial [DecidableEq L] (getLoc : List L → L → Option FoundAt) (hloc : ∀ labels x, GetLocOf labels x (getLoc labels x))
    (cfg : Cfg) (hp : 1 ≤ cfg.nPartitions) (hmr : 1 ≤ cfg.minRow) (hmc : 1 ≤ cfg.minCol) (known : Nat → Nat → Bool × Bool) (nan : α)
    (unnamed key : L) (m : LFrame L L α) (df : Frame L L α) (h : m.Shows df) (axis1 dropLevel : Bool)
    (hn : if axis1 then 0 < df.nrows else 0 < df.ncols) :
    (m.xs getLoc cfg known nan unnamed key axis1 dropLevel).bind (Located.observe nan) = df.xs key axis1 dropLevel := by
  have fin : ∀ {a : Option (Located L α)} {b : Option (Selected L α)},
      ((a = none ∧ b = none) ∨ ∃ o s, a = some o ∧ b = some s ∧ o.Is s) → a.bind (Located.observe nan) = b := by
    intro a b hab
    rcases hab with ⟨e1, e2⟩ | ⟨o, s, e1, e2, e3⟩
    · rw [e1, e2]; rfl
    · rw [e1, e2, Option.bind_some, e3.observe nan]
  cases axis1 with
  | false => exact fin (xs_rows getLoc cfg hp hmr hmc known nan unnamed key h (hloc _ _) dropLevel (by simpa using hn))
  | true =>
    cases dropLevel with
    | false => exact fin (xs_columns getLoc cfg hp hmr hmc known nan unnamed key h (hloc _ _) (by simpa using hn))
    | true =>
      apply fin
      have e : m.xs getLoc cfg known nan unnamed key true true = m.itemAt cfg known nan unnamed (.column key) := rfl
      rw [e]
      rcases xs_getitem cfg hp hmr hmc known nan unnamed key h with ⟨e1, e2, _⟩ | ⟨o, s, e1, e2, e3, _⟩
      · exact Or.inl ⟨e1, e2⟩
      · exact Or.inr ⟨o, s, e1, e2, e3⟩

/-- **C103**, `get`.  `df.get(key)` is the column (all columns of that label as a frame), and the default (`none`) exactly when no column has
    the label. -/
theorem C103_get [DecidableEq L] (cfg : Cfg) (hp : 1 ≤ cfg.nPartitions) (hmr : 1 ≤ cfg.minRow) (hmc : 1 ≤ cfg.minCol)
    (known : Nat → Nat → Bool × Bool) (nan : α) (unnamed key : L) (m : LFrame L L α) (df : Frame L L α) (h : m.Shows df) :
    (m.getColumn cfg known nan unnamed key).bind (Located.observe nan) = df.xs key true true ∧
      (m.getColumn cfg known nan unnamed key = none ↔ key ∉ df.columns) := by
  unfold LFrame.getColumn
  rcases xs_getitem cfg hp hmr hmc known nan unnamed key h with ⟨e1, e2, e3⟩ | ⟨o, s, e1, e2, e3, e4⟩
  · rw [e1, e2]
    exact ⟨rfl, by simp [e3]⟩
  · rw [e1, e2, Option.bind_some, e3.observe nan]
    exact ⟨rfl, by simp [e4]⟩

/-- **C103**, `pop`.  `df.pop(key)` returns what `df[key]` is, the frame afterwards is pandas' frame without the columns of that label, on
    every partitioning, and `KeyError` (`none`) is raised exactly when pandas raises it.

    Partial: this is what both show right after the call; what a later change of the returned Series does is the witness below. -/
theorem C103_pop_partial [DecidableEq L] (cfg : Cfg) (hp : 1 ≤ cfg.nPartitions) (hmr : 1 ≤ cfg.minRow) (hmc : 1 ≤ cfg.minCol)
    (known : Nat → Nat → Bool × Bool) (nan : α) (unnamed key : L) (m : LFrame L L α) (df : Frame L L α) (h : m.Shows df) :
    ((m.pop cfg known nan unnamed key).bind fun r => (r.1.observe nan).bind fun s => (r.2.toPandas nan).map fun f => (s, f)) = df.pop key := by
  unfold LFrame.pop Frame.pop
  rcases xs_getitem cfg hp hmr hmc known nan unnamed key h with ⟨e1, e2, e3⟩ | ⟨o, s, e1, e2, e3, e4⟩
  · rw [e1, e2]
    rfl
  · rw [e1, e2]
    obtain ⟨m', e5, e6⟩ := dropCompiled_shows cfg hp hmr hmc known h none (some [key])
    rw [Option.bind_some, h.getColumns, if_pos e4, e5]
    simp only [Option.map_some, Option.bind_some, e3.observe nan]
    have e7 : m'.toPandas nan = some (df.dropLabels none (some [key])) := by
      obtain ⟨m1, s1, s2⟩ := synced_spec e6
      unfold LFrame.toPandas
      rw [s1, Option.bind_some]
      exact s2.toPandas nan
    rw [e7]
    rfl

namespace CrossDemo

/-- an `Index.get_loc` -/
def plainGetLoc [DecidableEq L] (labels : List L) (x : L) : Option FoundAt :=
  match labelPlaces labels x with
  | [] => none
  | [p] => some (.one p)
  | p :: ps =>
    if p :: ps = List.range' p (p + (ps.length + 1) - p) then some (.span p (p + (ps.length + 1)))
    else some (.mask (labels.map fun y => decide (y = x)))

theorem plainGetLoc_of [DecidableEq L] (labels : List L) (x : L) : GetLocOf labels x (plainGetLoc labels x) := by
  unfold plainGetLoc
  cases hl : labelPlaces labels x with
  | nil => exact hl
  | cons p ps =>
    cases ps with
    | nil => exact hl
    | cons q r =>
      simp only
      split
      · rename_i e
        exact ⟨by rw [hl]; exact e, by rw [hl]; simp⟩
      · refine ⟨?_, by simp, by rw [hl]; simp⟩
        unfold labelPlaces
        apply List.filter_congr
        intro k hk
        have := List.mem_range.1 hk
        rw [Bool.eq_iff_iff]
        simp [List.getElem?_eq_getElem this]

/-- what `df.xs` shows -/
def crossOf (index columns : List Int) (key : Int) (axis1 dropLevel : Bool) : Option (Selected Int Nat) :=
  ((lgDemo index columns).xs plainGetLoc ⟨4, 1, 1⟩ lgKnown 0 (-1) key axis1 dropLevel).bind (Located.observe 0)

/-- the hypotheses of `C103_xs_partial` are met, with a label that is in two places -/
example : crossOf [7, 1, 7, 3, 4] [0, 1, 1] 7 false true = (lgFrame [7, 1, 7, 3, 4] [0, 1, 1]).xs 7 false true :=
  C103_xs_partial plainGetLoc plainGetLoc_of ⟨4, 1, 1⟩ (by decide) (by decide) (by decide) lgKnown 0 (-1) 7 _ _
    (lgDemo_shows 7 1 7 3 4 0 1 1) false true (by decide)

/-- one row, two rows apart, two rows next to each other, two columns, one column as a frame, a label that is not there -/
example :
    crossOf [7, 1, 7, 3, 3] [0, 1, 1] 1 false true = some (.series 1 [0, 1, 1] [10, 11, 12]) ∧
    crossOf [7, 1, 7, 3, 3] [0, 1, 1] 7 false true = some (.frame ⟨[7, 7], [0, 1, 1], [[0, 1, 2], [20, 21, 22]]⟩) ∧
    crossOf [7, 1, 7, 3, 3] [0, 1, 1] 3 false true = some (.frame ⟨[3, 3], [0, 1, 1], [[30, 31, 32], [40, 41, 42]]⟩) ∧
    crossOf [7, 1, 7, 3, 3] [0, 1, 1] 1 true false = some (.frame ⟨[7, 1, 7, 3, 3], [1, 1], [[1, 2], [11, 12], [21, 22], [31, 32], [41, 42]]⟩) ∧
    crossOf [7, 1, 7, 3, 3] [0, 1, 1] 0 true false = some (.frame ⟨[7, 1, 7, 3, 3], [0], [[0], [10], [20], [30], [40]]⟩) ∧
    crossOf [7, 1, 7, 3, 3] [0, 1, 1] 9 false true = none := by decide +kernel

/-- the hypotheses of `C103_pop_partial` are met -/
example : (((lgDemo [0, 1, 2, 3, 4] [5, 6, 7]).pop ⟨4, 1, 1⟩ lgKnown 0 (-1) 6).bind fun r =>
      (r.1.observe 0).bind fun s => (r.2.toPandas 0).map fun f => (s, f)) =
    some (.series 6 [0, 1, 2, 3, 4] [1, 11, 21, 31, 41],
      ⟨[0, 1, 2, 3, 4], [5, 7], [[0, 2], [10, 12], [20, 22], [30, 32], [40, 42]]⟩) := by
  rw [C103_pop_partial ⟨4, 1, 1⟩ (by decide) (by decide) (by decide) lgKnown 0 (-1) 6 _ _ (lgDemo_shows 0 1 2 3 4 5 6 7)]
  decide +kernel

/-- `frame[column.name] = column`: the columns of that name are replaced, and a column of a new name comes last -/
def putNamed (frame column : List (Int × List Nat)) : List (Int × List Nat) :=
  column.foldl (fun f c => if f.any (·.1 == c.1) then f.map (fun d => if d.1 = c.1 then c else d) else f ++ [c]) frame

/-- a frame with the columns `1` and `2`, as object 0 -/
def popHeap : ShareHeap (List (Int × List Nat)) := ⟨1, fun _ => 0, fun _ => [], fun _ => none, 1, fun _ => [(1, [10, 11]), (2, [20, 21])]⟩

/-- **C103 fails for a column that is changed after it was popped.**  `s = df.pop(1)` takes the column out, but `s` still has `df` as its
    parent: after `s.iloc[0] = 5` the column `1` is in `df` again.  In pandas `df` keeps the column `2` only. -/
theorem C103_popped_column_comes_back :
    ((popHeap.pop putNamed 0 (·.filter (·.1 == 1)) (·.filter (·.1 != 1))).map fun h => (h.shows 0, h.shows 1))
      = some ([(2, [20, 21])], [(1, [10, 11])]) ∧
    (((popHeap.pop putNamed 0 (·.filter (·.1 == 1)) (·.filter (·.1 != 1))).bind fun h =>
        h.step putNamed (.assign 1 fun _ => [(1, [5, 11])])).map fun h => (h.shows 0, h.shows 1))
      = some ([(2, [20, 21]), (1, [5, 11])], [(1, [5, 11])]) := by decide +kernel

end CrossDemo
