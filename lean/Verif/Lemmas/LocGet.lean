import Verif.Model.LocGet
import Verif.Lemmas.LocAssign
import Verif.Lemmas.GroupAgg
/-
Lemmas about `Verif/Model/LocGet.lean`.
-/

variable {L α : Type}

/-! ### what an object shows -/

/-- the object stands for what reading returns -/
def Located.Is : Located L α → Selected L α → Prop
  | .frame m, .frame f => m.Shows f
  | .series m, .series name index values => m.Shows (Frame.ofColumn index name values)
  | .scalar a, .scalar b => a = b
  | _, _ => False

theorem flatten_boxed (l : List α) : (l.map ([·])).flatten = l := by
  induction l with
  | nil => rfl
  | cons x l ih => simp [ih]

theorem Located.Is.observe [DecidableEq L] {o : Located L α} {s : Selected L α} (h : o.Is s) (nan : α) : o.observe nan = some s := by
  cases o with
  | frame m =>
    cases s with
    | frame f => simp only [Located.observe, (LFrame.Shows.observed h nan).1, Option.map_some]
    | series _ _ _ => exact h.elim
    | scalar _ => exact h.elim
  | series m =>
    cases s with
    | frame f => exact h.elim
    | series name index values =>
      simp only [Located.observe, (LFrame.Shows.observed h nan).1, Option.bind_some, Frame.ofColumn, flatten_boxed]
    | scalar _ => exact h.elim
  | scalar a =>
    cases s with
    | frame f => exact h.elim
    | series _ _ _ => exact h.elim
    | scalar b => cases h; rfl

/-! ### single rows and columns -/

theorem transpose_one_row (name : L) (cs : List L) (r : List α) (h : r.length = cs.length) :
    Frame.transpose ({ index := [name], columns := cs, rows := [r] } : Frame L L α) = Frame.ofColumn cs name r := by
  simp only [Frame.transpose, Frame.ofColumn, Frame.mk.injEq, true_and, Frame.ncols]
  apply List.ext_getElem?
  intro i
  rw [← h, List.getElem?_map, List.getElem?_map]
  by_cases hi : i < r.length
  · rw [List.getElem?_range hi]
    simp [hi]
  · rw [List.getElem?_eq_none (by simpa using hi), List.getElem?_eq_none (by simpa using hi)]
    rfl

theorem takeRows_one {df : Frame L L α} (h : df.WF) {p : Nat} (hp : p < df.nrows) (qs : List Nat) :
    ∃ name row, df.index[p]? = some name ∧ df.rows[p]? = some row ∧ row.length = df.columns.length ∧
      (df.takeRows [p]).takeCols qs = { index := [name], columns := takeList df.columns qs, rows := [takeList row qs] } := by
  have hi : p < df.index.length := hp
  have hr : p < df.rows.length := by rw [h.rows_len]; exact hp
  refine ⟨df.index[p], df.rows[p], List.getElem?_eq_getElem hi, List.getElem?_eq_getElem hr, h.row_width _ (List.getElem_mem hr), ?_⟩
  simp [Frame.takeRows, Frame.takeCols, takeList, hi, hr]

theorem takeCols_one {df : Frame L L α} (h : df.WF) {q : Nat} (hq : q < df.ncols) (ps : List Nat) :
    ∃ name, df.columns[q]? = some name ∧
      (df.takeRows ps).takeCols [q] = Frame.ofColumn (takeList df.index ps) name ((takeList df.rows ps).filterMap (·[q]?)) := by
  have hi : q < df.columns.length := hq
  refine ⟨df.columns[q], List.getElem?_eq_getElem hi, ?_⟩
  simp only [Frame.takeRows, Frame.takeCols, Frame.ofColumn, Frame.mk.injEq, true_and]
  refine ⟨by simp [takeList, hi], ?_⟩
  have : ∀ l : List (List α), (∀ r ∈ l, q < r.length) → l.map (takeList · [q]) = (l.filterMap (·[q]?)).map ([·]) := by
    intro l
    induction l with
    | nil => intro _; rfl
    | cons r l ih =>
      intro hl
      have hr := hl r (by simp)
      rw [List.map_cons, ih fun r' h' => hl r' (List.mem_cons_of_mem _ h'), List.filterMap_cons]
      simp [takeList, hr]
  apply this
  intro r hr
  rw [h.row_width r (mem_takeList hr)]
  exact hq

/-! ### the object -/

/-- the flag "the key is a scalar" and what the key picks: a single position only for a scalar, and a scalar that keeps the axis does
    not pick exactly one position -/
def Fits (flag : Bool) : Pick → Prop
  | .one _ => flag = true
  | .many ps => flag = true → ps.length ≠ 1

theorem onlyCell_shows [DecidableEq L] {m : LFrame L L α} {i c : L} {a : α} (h : m.Shows { index := [i], columns := [c], rows := [[a]] }) (nan : α) :
    m.onlyCell nan = some a := by
  unfold LFrame.onlyCell
  rw [(h.observed nan).1]
  rfl

theorem shaped_spec [DecidableEq L] (nan : α) (unnamed : L) {df : Frame L L α} (h : df.WF) {p q : Pick}
    (hp : ∀ x ∈ p.list, x < df.nrows) (hq : ∀ x ∈ q.list, x < df.ncols) {rs cs : Bool} (hr : Fits rs p) (hc : Fits cs q)
    {v : LFrame L L α} (hv : v.Shows ((df.takeRows p.list).takeCols q.list)) :
    ∃ o s, v.shaped nan unnamed rs cs = some o ∧ df.located p q = some s ∧ o.Is s := by
  have hIlen : v.getIndex.length = p.list.length := by
    rw [hv.getIndex]
    exact takeList_length (l := df.index) hp
  have hClen : v.getColumns.length = q.list.length := by
    rw [hv.getColumns]
    exact takeList_length (l := df.columns) hq
  obtain ⟨v1, ev1, hv1⟩ := copy_shows hv
  cases p with
  | one a =>
    simp only [Fits] at hr
    subst hr
    obtain ⟨name, row, e1, e2, e3, e4⟩ := takeRows_one h (hp a (by simp [Pick.list])) q.list
    rw [show Pick.list (.one a) = [a] from rfl] at hv hv1 hIlen
    rw [e4] at hv hv1
    obtain ⟨t, et, ht⟩ := transpose_shows hv
    have hlen : (takeList row q.list).length = (takeList df.columns q.list).length := takeList_length_congr e3 _
    rw [transpose_one_row _ _ _ hlen] at ht
    cases q with
    | one b =>
      simp only [Fits] at hc
      subst hc
      have hb : b < row.length := by rw [e3]; exact hq b (by simp [Pick.list])
      have hb' : b < df.columns.length := hq b (by simp [Pick.list])
      simp only [Pick.list] at hv ht hClen
      have h1 : takeList row [b] = [row[b]] := by simp [takeList, hb]
      have h2 : takeList df.columns [b] = [df.columns[b]] := by simp [takeList, hb']
      rw [h1, h2] at hv ht
      refine ⟨.scalar row[b], .scalar row[b], ?_, by simp [Frame.located, e2, hb], rfl⟩
      simp only [LFrame.shaped, Bool.not_true, Bool.and_self, Bool.false_eq_true, ↓reduceIte]
      unfold LFrame.squeeze
      rw [if_pos ⟨rfl, Or.inl (by rw [hClen]; rfl)⟩]
      unfold LFrame.columnarize
      split
      · rw [et, Option.bind_some]
        unfold LFrame.seriesSqueeze
        rw [if_pos (by rw [ht.getIndex]; rfl), onlyCell_shows ht]
        rfl
      · rw [Option.bind_some]
        unfold LFrame.seriesSqueeze
        rw [if_pos (by rw [hIlen]; rfl), onlyCell_shows hv]
        rfl
    | many qs =>
      simp only [Pick.list] at hv ht hClen hlen
      refine ⟨.series (if cs then (t.copy.getD t) else t), .series name (takeList df.columns qs) (takeList row qs), ?_,
        by simp [Frame.located, e1, e2], ?_⟩
      · cases cs with
        | false =>
          simp only [LFrame.shaped, Bool.not_true, Bool.not_false, Bool.false_and, Bool.and_false, Bool.false_eq_true, ↓reduceIte]
          unfold LFrame.squeeze
          rw [if_neg (by simp), if_neg (by simp), if_pos ⟨rfl, by rw [hIlen]; rfl⟩, et]
          rfl
        | true =>
          have hne : qs.length ≠ 1 := hc rfl
          obtain ⟨t1, et1, ht1⟩ := copy_shows ht
          simp only [LFrame.shaped, Bool.not_true, Bool.and_self, Bool.false_eq_true, ↓reduceIte]
          unfold LFrame.squeeze
          rw [if_pos ⟨rfl, Or.inr (by rw [hIlen]; rfl)⟩]
          unfold LFrame.columnarize
          rw [if_pos (Or.inl (by rw [hClen]; exact hne)), et, Option.bind_some]
          unfold LFrame.seriesSqueeze
          have : t.getIndex.length ≠ 1 := by
            rw [ht.getIndex]
            show (takeList df.columns qs).length ≠ 1
            rw [takeList_length (l := df.columns) (p := qs) hq]
            exact hne
          rw [if_neg this, et1]
          rfl
      · show LFrame.Shows _ _
        cases cs with
        | false => exact ht
        | true =>
          obtain ⟨t1, et1, ht1⟩ := copy_shows ht
          simp only [↓reduceIte, et1, Option.getD_some]
          exact ht1
  | many ps =>
    cases q with
    | one b =>
      simp only [Fits] at hc
      subst hc
      obtain ⟨name, e1, e2⟩ := takeCols_one h (hq b (by simp [Pick.list])) ps
      simp only [Pick.list] at hv hv1 hIlen hClen
      rw [e2] at hv hv1
      refine ⟨.series (if rs then v1 else v), _, ?_, by rw [Frame.located, e1]; rfl, ?_⟩
      · cases rs with
        | false =>
          simp only [LFrame.shaped, Bool.not_true, Bool.not_false, Bool.false_and, Bool.and_false, Bool.false_eq_true, ↓reduceIte]
          unfold LFrame.squeeze
          rw [if_neg (by simp), if_pos ⟨rfl, by rw [hClen]; rfl⟩]
        | true =>
          have hne : ps.length ≠ 1 := hr rfl
          simp only [LFrame.shaped, Bool.not_true, Bool.and_self, Bool.false_eq_true, ↓reduceIte]
          unfold LFrame.squeeze
          rw [if_pos ⟨rfl, Or.inl (by rw [hClen]; rfl)⟩]
          unfold LFrame.columnarize
          rw [if_neg (by rw [hClen, hIlen]; simp; omega), Option.bind_some]
          unfold LFrame.seriesSqueeze
          rw [if_neg (by rw [hIlen]; exact hne), ev1]
          rfl
      · cases rs with
        | false => exact hv
        | true => exact hv1
    | many qs =>
      simp only [Pick.list] at hv hv1 hIlen hClen
      refine ⟨.frame (if rs || cs then v1 else v), _, ?_, rfl, ?_⟩
      · cases rs with
        | false =>
          cases cs with
          | false => rfl
          | true =>
            have hne : qs.length ≠ 1 := hc rfl
            simp only [LFrame.shaped, Bool.not_true, Bool.not_false, Bool.false_and, Bool.and_false, Bool.false_eq_true, ↓reduceIte]
            unfold LFrame.squeeze
            rw [if_neg (by simp), if_neg (by rw [hClen]; simp [hne]), if_neg (by simp), ev1]
            rfl
        | true =>
          have hne : ps.length ≠ 1 := hr rfl
          cases cs with
          | false =>
            simp only [LFrame.shaped, Bool.not_true, Bool.not_false, Bool.false_and, Bool.and_false, Bool.false_eq_true, ↓reduceIte]
            unfold LFrame.squeeze
            rw [if_neg (by simp), if_neg (by simp), if_neg (by rw [hIlen]; simp [hne]), ev1]
            rfl
          | true =>
            have hne' : qs.length ≠ 1 := hc rfl
            simp only [LFrame.shaped, Bool.not_true, Bool.and_self, Bool.false_eq_true, ↓reduceIte]
            unfold LFrame.squeeze
            rw [if_neg (by rw [hIlen, hClen]; simp [hne, hne']), if_neg (by simp), if_neg (by simp), ev1]
            rfl
      · cases rs <;> cases cs <;> first | exact hv | exact hv1

/-! ### keys -/

/-- what is needed of a lookup: it stands for the picked positions, they are inside, a range is not empty, and whether the axis is
    kept fits the flag -/
structure GoodLookup (n : Nat) (flag : Bool) (p : Pick) (rp : Option Positions) : Prop where
  list : reqList n rp = p.list
  valid : ∀ q, rp = some q → q.Valid n
  range : ∀ a b, rp = some (.range a b) → a < b
  fits : Fits flag p

/-- a slice -/
def IKey.isSlice : IKey → Bool
  | .slice _ _ => true
  | _ => false

theorem GoodLookup.mem {n : Nat} {flag : Bool} {p : Pick} {rp : Option Positions} (h : GoodLookup n flag p rp) : ∀ x ∈ p.list, x < n := by
  intro x hx
  rw [← h.list] at hx
  cases rp with
  | none => exact List.mem_range.1 hx
  | some q => exact (h.valid q rfl).mem x hx

theorem IKey.readLookup_spec {n : Nat} {k : IKey} {p : Pick} (hp : k.picked n = some p) (hne : k.isSlice = true → p.list ≠ []) :
    ∃ rp, k.readLookup n = some rp ∧ GoodLookup n k.isScalar p rp := by
  cases k with
  | int i =>
    simp only [IKey.picked] at hp
    cases ha : axisPos n i with
    | none => rw [ha] at hp; cases hp
    | some a =>
      rw [ha] at hp
      cases hp
      obtain ⟨q, h1, h2, h3, _⟩ := IKey.lookup_spec (k := .int i) (n := n) (rs := [a]) (by simp [IKey.addressed, ha]) trivial
      refine ⟨some q, by simp only [IKey.readLookup, h1, Option.map_some], ⟨h2, fun q' e => by cases e; exact h3, ?_, rfl⟩⟩
      intro x y e
      cases e
      simp only [Positions.toList] at h2
      have := congrArg List.length h2
      simp at this
      omega
  | list is =>
    simp only [IKey.picked, Option.map_eq_some_iff] at hp
    obtain ⟨rs, h0, rfl⟩ := hp
    obtain ⟨q, h1, h2, h3, _⟩ := IKey.lookup_spec h0 trivial
    refine ⟨some q, by simp only [IKey.readLookup, h1, Option.map_some], ⟨h2, fun q' e => by cases e; exact h3, ?_, fun e => by cases e⟩⟩
    intro x y e
    cases e
    simp only [IKey.lookup] at h1
    unfold lookupInts at h1
    split at h1
    · cases h1
    · rw [Option.map_eq_some_iff] at h1
      obtain ⟨_, _, e⟩ := h1
      cases e
  | mask bs =>
    simp only [IKey.picked, Option.map_eq_some_iff] at hp
    obtain ⟨rs, h0, rfl⟩ := hp
    obtain ⟨q, h1, h2, h3, _⟩ := IKey.lookup_spec h0 trivial
    refine ⟨some q, by simp only [IKey.readLookup, h1, Option.map_some], ⟨h2, fun q' e => by cases e; exact h3, ?_, fun e => by cases e⟩⟩
    intro x y e
    cases e
    simp only [IKey.lookup] at h1
    cases h1
  | slice a b =>
    simp only [IKey.picked, Option.map_eq_some_iff] at hp
    obtain ⟨rs, h0, rfl⟩ := hp
    have hrs : rs ≠ [] := hne rfl
    by_cases hall : a = none ∧ b = none
    · obtain ⟨rfl, rfl⟩ := hall
      refine ⟨none, rfl, ⟨?_, fun _ e => by (cases e), fun _ _ e => by (cases e), fun e => by cases e⟩⟩
      simp only [IKey.addressed, Option.map_none, Option.getD_none, Nat.sub_zero, Option.some.injEq] at h0
      simp only [reqList, Pick.list, ← h0, List.range_eq_range']
    · have hlt : (a.map (sliceBound n)).getD 0 < (b.map (sliceBound n)).getD n := by
        simp only [IKey.addressed, Option.some.injEq] at h0
        rw [← h0] at hrs
        apply Decidable.byContradiction
        intro hn
        apply hrs
        rw [show (b.map (sliceBound n)).getD n - (a.map (sliceBound n)).getD 0 = 0 by omega]
        rfl
      obtain ⟨q, h1, h2, h3, _⟩ := IKey.lookup_spec h0 (Nat.le_of_lt hlt)
      have h1' : q = .range ((a.map (sliceBound n)).getD 0) ((b.map (sliceBound n)).getD n) := by
        simp only [IKey.lookup, Option.some.injEq] at h1
        exact h1.symm
      refine ⟨some q, ?_, ⟨h2, fun q' e => by cases e; exact h3, ?_, fun e => by cases e⟩⟩
      · cases a with
        | none =>
          cases b with
          | none => exact absurd ⟨rfl, rfl⟩ hall
          | some b => simp only [IKey.readLookup, h1, Option.map_some]
        | some a => simp only [IKey.readLookup, h1, Option.map_some]
      · intro x y e
        rw [h1'] at e
        cases e
        exact hlt

theorem stepRange_one (a b : Nat) : stepRange a b 1 = List.range' a (b - a) := by
  unfold stepRange
  simp only [Nat.mul_one, Nat.div_one, Nat.add_sub_cancel]
  apply List.ext_getElem
  · simp
  · intro i h1 h2
    simp

theorem stepRange_lt {a b s x : Nat} (hs : 1 ≤ s) (h : x ∈ stepRange a b s) : x < b := by
  unfold stepRange at h
  simp only [List.mem_map, List.mem_range] at h
  obtain ⟨i, hi, rfl⟩ := h
  have h1 : (i + 1) * s ≤ b - a + s - 1 := by
    have := (Nat.le_div_iff_mul_le (show 0 < s by omega)).1 (show i + 1 ≤ (b - a + s - 1) / s by omega)
    exact this
  rw [Nat.add_mul, Nat.one_mul] at h1
  omega

/-- Keys that are read as pandas reads them: plain keys; slices that are not empty, whose bounds are inside and whose end is not
    moved: without a step or with labels that are not numbers. -/
def LocKey.Proper (P : LabelOps L) (minus : L → Nat → L) (labels : List L) : LocKey L → Prop
  | .key _ => True
  | .slice a b s =>
    (∀ x, b = some x → minus x (s.getD 0) = x) ∧ 1 ≤ s.getD 1 ∧
    (¬ (a = none ∧ b = none ∧ s = none) → ∀ e, P.slicer labels a b = some e → e.1 < e.2 ∧ e.2 ≤ labels.length)
  | .range _ _ _ => False
  | .rangeIndex _ _ _ => False

theorem rangePositions_spec {n a b s : Nat} (hab : a < b) (hb : b ≤ n) (hs : 1 ≤ s) :
    GoodLookup n false (.many (stepRange a b s)) (some (rangePositions a b s)) := by
  unfold rangePositions
  by_cases h1 : s = 1
  · subst h1
    rw [if_pos rfl]
    refine ⟨?_, fun q e => by cases e; exact ⟨Nat.le_of_lt hab, hb⟩, fun x y e => by cases e; exact hab, fun e => by cases e⟩
    rw [stepRange_one]
    rfl
  · rw [if_neg h1]
    refine ⟨rfl, fun q e => ?_, fun x y e => by (cases e), fun e => by cases e⟩
    cases e
    intro x hx
    exact Nat.lt_of_lt_of_le (stepRange_lt hs hx) hb

theorem LKey.picked_list [DecidableEq L] {labels : List L} {k : LKey L} {p : Pick} (h : k.picked labels = some p) :
    k.addressed labels = some p.list ∧ Fits k.isScalar p := by
  unfold LKey.picked at h
  rw [Option.map_eq_some_iff] at h
  obtain ⟨ps, h0, h1⟩ := h
  rw [h0]
  split at h1
  · cases h1
    exact ⟨rfl, rfl⟩
  · rename_i hx
    cases h1
    refine ⟨rfl, ?_⟩
    intro hs hl
    cases k with
    | label x =>
      obtain ⟨y, hy⟩ := List.length_eq_one_iff.1 hl
      exact hx x y rfl hy
    | list _ => cases hs
    | mask _ => cases hs
    | all => cases hs

theorem LocKey.readLookup_spec [DecidableEq L] {P : LabelOps L} {minus : L → Nat → L} {labels : List L} {k : LocKey L} {p : Pick}
    (hp : k.picked P labels = some p) (hk : k.Proper P minus labels) :
    ∃ rp, k.readLookup P minus labels = some rp ∧ GoodLookup labels.length k.isScalar p rp := by
  cases k with
  | key k =>
    obtain ⟨h0, hf⟩ := LKey.picked_list hp
    obtain ⟨q, h1, h2, h3, _⟩ := LKey.lookup_spec h0
    cases k with
    | all =>
      simp only [LKey.addressed, Option.some.injEq] at h0
      exact ⟨none, rfl, ⟨h0, fun _ e => by (cases e), fun _ _ e => by (cases e), hf⟩⟩
    | label x =>
      refine ⟨some q, by simp only [LocKey.readLookup, h1, Option.map_some], ⟨h2, fun q' e => by cases e; exact h3, ?_, hf⟩⟩
      intro a b e
      cases e
      simp only [LKey.lookup, Option.map_eq_some_iff] at h1
      obtain ⟨_, _, e⟩ := h1
      cases e
    | list xs =>
      refine ⟨some q, by simp only [LocKey.readLookup, h1, Option.map_some], ⟨h2, fun q' e => by cases e; exact h3, ?_, hf⟩⟩
      intro a b e
      cases e
      simp only [LKey.lookup, Option.map_eq_some_iff] at h1
      obtain ⟨_, _, e⟩ := h1
      cases e
    | mask bs =>
      refine ⟨some q, by simp only [LocKey.readLookup, h1, Option.map_some], ⟨h2, fun q' e => by cases e; exact h3, ?_, hf⟩⟩
      intro a b e
      cases e
      simp only [LKey.lookup] at h1
      cases h1
  | slice a b s =>
    obtain ⟨h1, h2, h3⟩ := hk
    simp only [LocKey.picked] at hp
    by_cases hall : a = none ∧ b = none ∧ s = none
    · rw [if_pos hall] at hp
      cases hp
      refine ⟨none, by simp only [LocKey.readLookup, if_pos hall], ⟨rfl, fun _ e => by (cases e), fun _ _ e => by (cases e), fun e => by cases e⟩⟩
    · rw [if_neg hall, Option.map_eq_some_iff] at hp
      obtain ⟨e, he, rfl⟩ := hp
      have hb : (b.map fun x => minus x (s.getD 0)) = b := by
        cases b with
        | none => rfl
        | some x => rw [Option.map_some, h1 x rfl]
      refine ⟨_, by simp only [LocKey.readLookup, if_neg hall, hb, he, Option.map_some]; rfl, ?_⟩
      exact rangePositions_spec (h3 hall e he).1 (h3 hall e he).2 h2
  | range _ _ _ => exact hk.elim
  | rangeIndex _ _ _ => exact hk.elim

/-! ### reading -/

/-- positions that do not repeat when the sizes of blocks are cached (see C08) -/
def DistinctIf (known : Nat → Nat → Bool × Bool) (p q : Pick) : Prop :=
  (∀ i j, known i j = (false, false)) ∨ (p.list.Nodup ∧ q.list.Nodup)

theorem take_shaped [DecidableEq L] (cfg : Cfg) (hp : 1 ≤ cfg.nPartitions) (hmr : 1 ≤ cfg.minRow) (hmc : 1 ≤ cfg.minCol)
    (known : Nat → Nat → Bool × Bool) (nan : α) (unnamed : L) {m : LFrame L L α} {df : Frame L L α} (h : m.Shows df) {p q : Pick}
    {rs cs : Bool} {rp cp : Option Positions} (hr : GoodLookup df.nrows rs p rp) (hc : GoodLookup df.ncols cs q cp)
    (hd : DistinctIf known p q) :
    ∃ o s, ((m.take2d cfg known rp cp).bind fun v => v.shaped nan unnamed rs cs) = some o ∧ df.located p q = some s ∧ o.Is s := by
  have key : ∀ kn : Bool, (∀ i j, (known i j).1 = true ∨ (known i j).2 = true → kn = true) →
      (kn = true → p.list.Nodup ∧ q.list.Nodup) →
      ∃ m', m.take2d cfg known rp cp = some m' ∧ m'.Shows ((df.takeRows p.list).takeCols q.list) := by
    intro kn h1 h2
    have := take2d_shows cfg hp hmr hmc h h1 hr.valid hc.valid hr.range hc.range
      (fun hk r e => by have := (h2 hk).1; rw [← hr.list, e] at this; exact this)
      (fun hk r e => by have := (h2 hk).2; rw [← hc.list, e] at this; exact this)
    rwa [hr.list, hc.list] at this
  have hex : ∃ m', m.take2d cfg known rp cp = some m' ∧ m'.Shows ((df.takeRows p.list).takeCols q.list) := by
    rcases hd with hd | hd
    · exact key false (by intro i j hk; rw [hd i j] at hk; simp at hk) (fun e => by cases e)
    · exact key true (fun _ _ _ => rfl) (fun _ => hd)
  obtain ⟨v, e1, e2⟩ := hex
  obtain ⟨o, s, e3, e4, e5⟩ := shaped_spec nan unnamed h.wf hr.mem hc.mem hr.fits hc.fits e2
  exact ⟨o, s, by rw [e1, Option.bind_some, e3], e4, e5⟩

theorem ilocAt_spec [DecidableEq L] (cfg : Cfg) (hp : 1 ≤ cfg.nPartitions) (hmr : 1 ≤ cfg.minRow) (hmc : 1 ≤ cfg.minCol)
    (known : Nat → Nat → Bool × Bool) (nan : α) (unnamed : L) {m : LFrame L L α} {df : Frame L L α} (h : m.Shows df) {r c : IKey} {p q : Pick}
    (hr : r.picked df.nrows = some p) (hc : c.picked df.ncols = some q) (hrs : r.isSlice = true → p.list ≠ [])
    (hcs : c.isSlice = true → q.list ≠ []) (hd : DistinctIf known p q) :
    ∃ o s, m.ilocAt cfg known nan unnamed r c = some o ∧ df.ilocAt r c = some s ∧ o.Is s := by
  obtain ⟨rp, r1, r2⟩ := IKey.readLookup_spec hr hrs
  obtain ⟨cp, c1, c2⟩ := IKey.readLookup_spec hc hcs
  obtain ⟨o, s, e1, e2, e3⟩ := take_shaped cfg hp hmr hmc known nan unnamed h r2 c2 hd
  refine ⟨o, s, ?_, ?_, e3⟩
  · unfold LFrame.ilocAt
    rw [h.getIndex, h.getColumns, show df.index.length = df.nrows from rfl, show df.columns.length = df.ncols from rfl, r1,
      Option.bind_some, c1, Option.bind_some, e1]
  · unfold Frame.ilocAt
    rw [show df.index.length = df.nrows from rfl, show df.columns.length = df.ncols from rfl, hr, Option.bind_some, hc, Option.bind_some, e2]

theorem locAt_spec [DecidableEq L] (P : LabelOps L) (minus : L → Nat → L) (cfg : Cfg) (hp : 1 ≤ cfg.nPartitions) (hmr : 1 ≤ cfg.minRow)
    (hmc : 1 ≤ cfg.minCol) (known : Nat → Nat → Bool × Bool) (nan : α) (unnamed : L) {m : LFrame L L α} {df : Frame L L α} (h : m.Shows df)
    {r c : LocKey L} {p q : Pick} (hr : r.picked P df.index = some p) (hc : c.picked P df.columns = some q)
    (hrs : r.Proper P minus df.index) (hcs : c.Proper P minus df.columns) (hd : DistinctIf known p q) :
    ∃ o s, m.locAt P minus cfg known nan unnamed r c = some o ∧ df.locAt P r c = some s ∧ o.Is s := by
  obtain ⟨rp, r1, r2⟩ := LocKey.readLookup_spec hr hrs
  obtain ⟨cp, c1, c2⟩ := LocKey.readLookup_spec hc hcs
  obtain ⟨o, s, e1, e2, e3⟩ := take_shaped cfg hp hmr hmc known nan unnamed h r2 c2 hd
  refine ⟨o, s, ?_, ?_, e3⟩
  · unfold LFrame.locAt
    rw [h.getIndex, h.getColumns, r1, Option.bind_some, c1, Option.bind_some, e1]
  · unfold Frame.locAt
    rw [hr, Option.bind_some, hc, Option.bind_some, e2]

/-! ### labels that are not there -/

theorem mapM_id_missing {τ : Type} {l : List (Option τ)} (h : none ∈ l) : l.mapM id = none := by
  induction l with
  | nil => cases h
  | cons x l ih =>
    rw [List.mapM_cons]
    cases x with
    | none => rfl
    | some a =>
      have : none ∈ l := by simpa using h
      rw [ih this]
      rfl

theorem lookup_missing [DecidableEq L] {labels : List L} {xs : List L} (h : ∃ x ∈ xs, x ∉ labels) :
    (getIndexerFor labels xs).mapM id = none := by
  obtain ⟨x, h1, h2⟩ := h
  apply mapM_id_missing
  unfold getIndexerFor
  rw [List.mem_flatMap]
  refine ⟨x, h1, ?_⟩
  have : (List.range labels.length).filter (fun p => labels[p]? == some x) = [] := by
    rw [List.filter_eq_nil_iff]
    intro p hp hx
    exact h2 (List.mem_of_getElem? (by simpa using hx))
  simp [this]

/-- the labels a key names -/
def LocKey.named : LocKey L → List L
  | .key (.label x) => [x]
  | .key (.list xs) => xs
  | _ => []

theorem LocKey.readLookup_missing [DecidableEq L] (P : LabelOps L) (minus : L → Nat → L) {labels : List L} {k : LocKey L}
    (h : ∃ x ∈ k.named, x ∉ labels) : k.readLookup P minus labels = none := by
  cases k with
  | key k =>
    cases k with
    | label x =>
      simp only [LocKey.readLookup, LKey.lookup]
      rw [lookup_missing (by simpa [LocKey.named] using h)]
      rfl
    | list xs =>
      simp only [LocKey.readLookup, LKey.lookup]
      rw [lookup_missing (by simpa [LocKey.named] using h)]
      rfl
    | mask _ => simp [LocKey.named] at h
    | all => simp [LocKey.named] at h
  | slice _ _ _ => simp [LocKey.named] at h
  | range _ _ _ => simp [LocKey.named] at h
  | rangeIndex _ _ _ => simp [LocKey.named] at h

theorem LocKey.picked_missing [DecidableEq L] (P : LabelOps L) {labels : List L} {k : LocKey L} (h : ∃ x ∈ k.named, x ∉ labels) :
    k.picked P labels = none := by
  cases k with
  | key k =>
    cases k with
    | label x =>
      obtain ⟨y, h1, h2⟩ := h
      simp only [LocKey.named, List.mem_singleton] at h1
      subst h1
      simp [LocKey.picked, LKey.picked, LKey.addressed, h2]
    | list xs =>
      obtain ⟨y, h1, h2⟩ := h
      simp only [LocKey.named] at h1
      simp only [LocKey.picked, LKey.picked, LKey.addressed]
      rw [if_neg (fun hall => h2 (hall y h1))]
      rfl
    | mask _ => simp [LocKey.named] at h
    | all => simp [LocKey.named] at h
  | slice _ _ _ => simp [LocKey.named] at h
  | range _ _ _ => simp [LocKey.named] at h
  | rangeIndex _ _ _ => simp [LocKey.named] at h

/-! ### slices of integer labels -/

theorem intBound_le {labels : List Int} {side : Bool} {x : Int} {a : Nat} (h : intBound labels side x = some a) : a ≤ labels.length := by
  unfold intBound at h
  have hm : ∀ k ∈ (List.range labels.length).filter (fun k => labels[k]? == some x), k < labels.length := by
    intro k hk
    exact List.mem_range.1 (List.mem_filter.1 hk).1
  simp only at h
  split at h
  · rename_i u v h1 h2
    have hu := hm u (List.mem_of_mem_head? h1)
    have hv := hm v (List.mem_of_getLast? h2)
    split at h
    · cases h
      split <;> omega
    · cases h
  · split at h
    · cases h; exact List.countP_le_length
    · split at h
      · cases h; exact List.countP_le_length
      · cases h

theorem intSlicer_le {labels : List Int} {a b : Option Int} {e : Nat × Nat} (h : intSlicer labels a b = some e) : e.2 ≤ labels.length := by
  unfold intSlicer at h
  rw [Option.bind_eq_some_iff] at h
  obtain ⟨u, _, h⟩ := h
  rw [Option.map_eq_some_iff] at h
  obtain ⟨v, hv, rfl⟩ := h
  cases b with
  | none => cases hv; exact Nat.le_refl _
  | some b => exact intBound_le hv

/-! ### `df[key]` -/

theorem itemAt_spec [DecidableEq L] (P : LabelOps L) (cfg : Cfg) (hp : 1 ≤ cfg.nPartitions) (hmr : 1 ≤ cfg.minRow) (hmc : 1 ≤ cfg.minCol)
    (known : Nat → Nat → Bool × Bool) (nan : α) (unnamed : L) {m : LFrame L L α} {df : Frame L L α} (h : m.Shows df) {key : ItemKey L}
    {s : Selected L α} (hs : df.itemAt P key = some s)
    (hd : ∀ xs, key = .columns xs → xs.Nodup)
    (hsl : ∀ a b, key = .rows a b → ∀ ps, (IKey.slice a b).addressed df.nrows = some ps → ps ≠ []) (hnc : 0 < df.ncols) :
    ∃ o, m.itemAt cfg known nan unnamed key = some o ∧ o.Is s := by
  have hall : takeList df.index (List.range df.nrows) = df.index := takeList_range df.index
  have hallr : df.takeRows (List.range df.nrows) = df := by
    unfold Frame.takeRows
    rw [hall, show df.nrows = df.rows.length from h.wf.rows_len.symm, takeList_range]
  have hallc : df.takeCols (List.range df.ncols) = df := by
    unfold Frame.takeCols
    rw [show df.ncols = df.columns.length from rfl, takeList_range]
    have : df.rows.map (takeList · (List.range df.columns.length)) = df.rows := by
      conv => rhs; rw [← List.map_id df.rows]
      apply List.map_congr_left
      intro r hr
      rw [← h.wf.row_width r hr, takeList_range]
      rfl
    rw [this]
  cases key with
  | column x =>
    simp only [Frame.itemAt, Frame.locAt] at hs
    simp only [LFrame.itemAt]
    rw [Option.bind_eq_some_iff] at hs
    obtain ⟨p, h1, hs⟩ := hs
    rw [Option.bind_eq_some_iff] at hs
    obtain ⟨q, h2, hs⟩ := hs
    have hpp : p = .many (List.range df.nrows) := by
      simp only [LocKey.picked, LKey.picked, LKey.addressed, Option.map_some, Option.some.injEq] at h1
      exact h1.symm
    have hx : x ∈ df.columns := by
      apply Decidable.byContradiction
      intro hn
      rw [LocKey.picked_missing P (k := .key (.label x)) ⟨x, by simp [LocKey.named], hn⟩] at h2
      cases h2
    obtain ⟨v, e1, e2⟩ := takeColLabels_shows cfg hp hmr hmc known h (labels := [x]) (by simpa using hx) (by simp)
    obtain ⟨h3, hf⟩ := LKey.picked_list h2
    simp only [LKey.addressed, if_pos hx, Option.some.injEq] at h3
    have h4 : [x].flatMap (positionsOf df.columns) = q.list := by
      rw [List.flatMap_cons, List.flatMap_nil, List.append_nil, ← h3]
      rfl
    rw [h4] at e2
    have e2' : v.Shows ((df.takeRows (Pick.list p)).takeCols q.list) := by
      rw [hpp]
      show v.Shows ((df.takeRows (List.range df.nrows)).takeCols q.list)
      rw [hallr]
      exact e2
    obtain ⟨o, s', g1, g2, g3⟩ := shaped_spec nan unnamed h.wf (p := p) (q := q)
      (by rw [hpp]; intro y hy; exact List.mem_range.1 hy)
      (by
        intro y hy
        rw [← h3] at hy
        exact List.mem_range.1 (List.mem_filter.1 hy).1)
      (rs := false) (cs := true) (by rw [hpp]; intro e; cases e) hf e2'
    rw [hs] at g2
    cases g2
    refine ⟨o, ?_, g3⟩
    rw [h.getColumns, if_pos hx, e1, Option.bind_some]
    simpa [LFrame.shaped] using g1
  | columns xs =>
    simp only [Frame.itemAt, Frame.locAt] at hs
    simp only [LFrame.itemAt]
    rw [Option.bind_eq_some_iff] at hs
    obtain ⟨p, h1, hs⟩ := hs
    rw [Option.bind_eq_some_iff] at hs
    obtain ⟨q, h2, hs⟩ := hs
    have hpp : p = .many (List.range df.nrows) := by
      simp only [LocKey.picked, LKey.picked, LKey.addressed, Option.map_some, Option.some.injEq] at h1
      exact h1.symm
    have hx : ∀ x ∈ xs, x ∈ df.columns := by
      intro x hx
      apply Decidable.byContradiction
      intro hn
      rw [LocKey.picked_missing P (k := .key (.list xs)) ⟨x, hx, hn⟩] at h2
      cases h2
    obtain ⟨v, e1, e2⟩ := takeColLabels_shows cfg hp hmr hmc known h (labels := xs) hx (hd xs rfl)
    have hq : q = .many (xs.flatMap (positionsOf df.columns)) := by
      simp only [LocKey.picked, LKey.picked, LKey.addressed, if_pos hx, Option.map_some, Option.some.injEq] at h2
      exact h2.symm
    subst hpp hq
    simp only [Frame.located, Option.some.injEq] at hs
    subst hs
    refine ⟨.frame v, ?_, ?_⟩
    · rw [h.getColumns, if_pos (by rw [List.all_eq_true]; intro x hx'; simpa using hx x hx'), e1]
      rfl
    · show v.Shows _
      rw [hallr]
      exact e2
  | rows a b =>
    simp only [Frame.itemAt] at hs
    have hs0 := hs
    simp only [Frame.ilocAt] at hs
    rw [Option.bind_eq_some_iff] at hs
    obtain ⟨p, h1, hs⟩ := hs
    rw [Option.bind_eq_some_iff] at hs
    obtain ⟨q, h2, hs⟩ := hs
    have hcol : (IKey.slice none none).addressed df.ncols = some (List.range df.ncols) := by
      simp [IKey.addressed, List.range_eq_range']
    have hq : q = .many (List.range df.ncols) := by
      simp only [IKey.picked] at h2
      rw [show df.columns.length = df.ncols from rfl, hcol] at h2
      simpa using h2.symm
    simp only [IKey.picked, Option.map_eq_some_iff] at h1
    obtain ⟨ps, h3, h4⟩ := h1
    have hpsne := hsl a b rfl ps h3
    simp only [LFrame.itemAt]
    by_cases hfull : fullGrab m.getIndex.length a b = true
    · rw [if_pos hfull]
      obtain ⟨v, ev, hv⟩ := copy_shows h
      refine ⟨.frame v, by rw [ev]; rfl, ?_⟩
      have hps : ps = List.range df.nrows := by
        rw [h.getIndex, show df.index.length = df.nrows from rfl] at hfull
        simp only [fullGrab, Bool.and_eq_true] at hfull
        simp only [IKey.addressed, Option.some.injEq] at h3
        rw [← h3, List.range_eq_range']
        have ha : (a.map (sliceBound df.nrows)).getD 0 = 0 := by
          cases a with
          | none => rfl
          | some a =>
            have : a = 0 := by simpa using hfull.1
            subst this
            simp [sliceBound]
        have hb : (b.map (sliceBound df.nrows)).getD df.nrows = df.nrows := by
          cases b with
          | none => rfl
          | some b =>
            have : (df.nrows : Int) ≤ b := by simpa using hfull.2
            simp only [Option.map_some, Option.getD_some]
            unfold sliceBound
            rw [if_neg (by omega)]
            omega
        simp only [show df.index.length = df.nrows from rfl, ha, hb, Nat.sub_zero]
      subst h4 hq
      simp only [Frame.located, Option.some.injEq] at hs
      subst hs
      show v.Shows _
      rw [hps, hallr, hallc]
      exact hv
    · rw [if_neg hfull]
      subst h4 hq
      have hk : (IKey.slice a b).picked df.nrows = some (.many ps) := by simp only [IKey.picked, show (IKey.slice a b).addressed df.nrows = some ps from h3, Option.map_some]
      have hnd : ps.Nodup := by
        simp only [IKey.addressed, Option.some.injEq] at h3
        rw [← h3]
        exact List.nodup_range'
      obtain ⟨o, s', g1, g2, g3⟩ := ilocAt_spec cfg hp hmr hmc known nan unnamed h (r := .slice a b) (c := .slice none none) (q := .many (List.range df.ncols)) hk
        (by simp only [IKey.picked, hcol, Option.map_some]) (fun _ => hpsne)
        (fun _ => by
          show List.range df.ncols ≠ []
          intro e
          have := congrArg List.length e
          simp at this
          omega) (Or.inr ⟨hnd, List.nodup_range⟩)
      rw [hs0] at g2
      cases g2
      exact ⟨o, g1, g3⟩

/-! ### ranges of default labels -/

/-- the labels `0, 1, ...` -/
def defaultLabels (n : Nat) : List Int := (List.range n).map fun (i : Nat) => (i : Int)

theorem defaultLabels_length (n : Nat) : (defaultLabels n).length = n := by simp [defaultLabels]

theorem defaultLabels_getElem? (n i : Nat) (k : Int) : (defaultLabels n)[i]? = some k ↔ i < n ∧ (i : Int) = k := by
  unfold defaultLabels
  rw [List.getElem?_map]
  by_cases hi : i < n
  · rw [List.getElem?_range hi]
    simp [hi]
  · rw [List.getElem?_eq_none (by simpa using hi)]
    simp [hi]

theorem defaultLabels_positions {n k : Nat} (hk : k < n) : positionsOf (defaultLabels n) (k : Int) = [k] := by
  unfold positionsOf
  rw [defaultLabels_length]
  apply filter_range_one _ hk
  · rw [beq_iff_eq, defaultLabels_getElem?]
    exact ⟨hk, rfl⟩
  · intro j _ hj
    rw [beq_iff_eq, defaultLabels_getElem?] at hj
    omega

theorem defaultLabels_picked {n a b s : Nat} (hb : b ≤ n) (hs : 1 ≤ s) :
    (LKey.list ((stepRange a b s).map fun (i : Nat) => (i : Int))).picked (defaultLabels n) = some (.many (stepRange a b s)) := by
  have hin : ∀ x ∈ (stepRange a b s).map (fun (i : Nat) => (i : Int)), x ∈ defaultLabels n := by
    intro x hx
    rw [List.mem_map] at hx
    obtain ⟨i, hi, rfl⟩ := hx
    have := stepRange_lt hs hi
    unfold defaultLabels
    rw [List.mem_map]
    exact ⟨i, List.mem_range.2 (by omega), rfl⟩
  simp only [LKey.picked, LKey.addressed, if_pos hin, Option.map_some, Option.some.injEq, Pick.many.injEq]
  have : ∀ l : List Nat, (∀ x ∈ l, x < n) → (l.map fun (i : Nat) => (i : Int)).flatMap (positionsOf (defaultLabels n)) = l := by
    intro l
    induction l with
    | nil => intro _; rfl
    | cons x l ih =>
      intro hl
      rw [List.map_cons, List.flatMap_cons, defaultLabels_positions (hl x (by simp)), ih fun y hy => hl y (List.mem_cons_of_mem _ hy)]
      rfl
  exact this _ fun x hx => Nat.lt_of_lt_of_le (stepRange_lt hs hx) hb

theorem intBound_default {n k : Nat} (hk : k < n) (side : Bool) : intBound (defaultLabels n) side (k : Int) = some (if side then k + 1 else k) := by
  have h := defaultLabels_positions hk
  unfold positionsOf at h
  unfold intBound
  simp only [h]
  simp

theorem range_default {n a b : Nat} (hab : a < b) (hb : b ≤ n) :
    (LocKey.range a b 1 : LocKey Int).readLookup intOps (fun x s => x - s) (defaultLabels n) = some (some (.range a b)) := by
  simp only [LocKey.readLookup, intOps]
  unfold intSlicer
  rw [show ((b : Int) - ((1 : Nat) : Int)) = ((b - 1 : Nat) : Int) by omega]
  simp only [Option.map_some, Option.getD_some]
  rw [intBound_default (by omega), intBound_default (by omega)]
  simp [rangePositions]
  omega

/-- a range of labels along rows that carry the default labels -/
theorem locAt_default (cfg : Cfg) (hp : 1 ≤ cfg.nPartitions) (hmr : 1 ≤ cfg.minRow) (hmc : 1 ≤ cfg.minCol)
    (known : Nat → Nat → Bool × Bool) (nan : α) (unnamed : Int) {m : LFrame Int Int α} {df : Frame Int Int α} (h : m.Shows df)
    (hlab : df.index = defaultLabels df.nrows) {a b s : Nat} (hab : a < b) (hb : b ≤ df.nrows) (hs : 1 ≤ s) {r : LocKey Int}
    (hr : r = .rangeIndex a b s ∨ (s = 1 ∧ r = .range a b s)) :
    ∃ o t, m.locAt intOps (fun x s => x - s) cfg known nan unnamed r (.key .all) = some o ∧ df.locAt intOps r (.key .all) = some t ∧
      o.Is t := by
  have hpk : r.picked intOps df.index = some (.many (stepRange a b s)) := by
    rw [hlab]
    rcases hr with rfl | ⟨_, rfl⟩ <;> exact defaultLabels_picked hb hs
  have hrp : r.readLookup intOps (fun x s => x - s) df.index = some (some (rangePositions a b s)) := by
    rcases hr with rfl | ⟨rfl, rfl⟩
    · rfl
    · rw [hlab, range_default hab hb]
      rfl
  have hsc : r.isScalar = false := by rcases hr with rfl | ⟨_, rfl⟩ <;> rfl
  have hnd : (stepRange a b s).Nodup := by
    unfold stepRange List.Nodup
    rw [List.pairwise_map]
    exact List.nodup_range.imp fun {x y} hxy e => hxy (Nat.eq_of_mul_eq_mul_right (show 0 < s by omega) (by omega))
  have hcp : (LocKey.key .all : LocKey Int).picked intOps df.columns = some (.many (List.range df.ncols)) := rfl
  obtain ⟨cp, c1, c2⟩ := LocKey.readLookup_spec (minus := fun (x : Int) (s : Nat) => x - s) hcp (by trivial)
  obtain ⟨o, t, e1, e2, e3⟩ := take_shaped cfg hp hmr hmc known nan unnamed h (p := .many (stepRange a b s)) (q := .many (List.range df.ncols))
    (rangePositions_spec hab hb hs) c2 (Or.inr ⟨hnd, List.nodup_range⟩)
  refine ⟨o, t, ?_, ?_, e3⟩
  · unfold LFrame.locAt
    rw [h.getIndex, h.getColumns, hrp, Option.bind_some, c1, Option.bind_some, hsc, e1]
  · unfold Frame.locAt
    rw [hpk, Option.bind_some, hcp, Option.bind_some, e2]

/-! ### a `pandas.Index` as key -/

theorem locIndex_spec [DecidableEq L] (P : LabelOps L) (minus : L → Nat → L) (cfg : Cfg) (hp : 1 ≤ cfg.nPartitions) (hmr : 1 ≤ cfg.minRow)
    (hmc : 1 ≤ cfg.minCol) (known : Nat → Nat → Bool × Bool) (nan : α) (unnamed : L) {m : LFrame L L α} {df : Frame L L α} (h : m.Shows df)
    {key : List L} (hin : ∀ x ∈ key, df.index.count x = 1) (hd : key.Nodup ∨ ∀ i j, known i j = (false, false)) :
    ∃ o s, m.locIndex P minus cfg known nan unnamed key = some o ∧ df.locAt P (.key (.list key)) (.key .all) = some s ∧ o.Is s := by
  have hmem : ∀ x ∈ key, x ∈ df.index := by
    intro x hx
    exact List.count_pos_iff.1 (by rw [hin x hx]; omega)
  have hpk : (LocKey.key (.list key)).picked P df.index = some (.many (key.flatMap (positionsOf df.index))) := by
    simp only [LocKey.picked, LKey.picked, LKey.addressed, if_pos hmem, Option.map_some]
    rfl
  have hcp : (LocKey.key .all : LocKey L).picked P df.columns = some (.many (List.range df.ncols)) := rfl
  obtain ⟨o, s, e1, e2, e3⟩ := locAt_spec P minus cfg hp hmr hmc known nan unnamed h hpk hcp trivial trivial
    (by
      rcases hd with hd | hd
      · exact Or.inr ⟨flatMap_positionsOf_nodup _ hd, List.nodup_range⟩
      · exact Or.inl hd)
  have e2' := e2
  unfold Frame.locAt at e2'
  rw [hpk, Option.bind_some, hcp, Option.bind_some] at e2'
  simp only [Frame.located, Option.some.injEq] at e2'
  subst e2'
  have hlab : takeList df.index (key.flatMap (positionsOf df.index)) = key := by
    have : ∀ l : List L, (∀ x ∈ l, df.index.count x = 1) → takeList df.index (l.flatMap (positionsOf df.index)) = l := by
      intro l
      induction l with
      | nil => intro _; rfl
      | cons x l ih =>
        intro hl
        have hx : x ∈ df.index := List.count_pos_iff.1 (by rw [hl x (by simp)]; omega)
        obtain ⟨p, hp', hpx⟩ := List.getElem_of_mem hx
        rw [List.flatMap_cons, takeList_append, ih fun y hy => hl y (List.mem_cons_of_mem _ hy),
          positionsOf_unique (q := p) (by simp [hp', hpx]) (hl x (by simp))]
        simp [takeList, hp', hpx]
    exact this key hin
  cases o with
  | frame v =>
    have hv : v.Shows _ := e3
    obtain ⟨v', g1, g2⟩ := setIndex_shows hv key (df' := (df.takeRows (key.flatMap (positionsOf df.index))).takeCols (List.range df.ncols)) (by
      unfold Frame.setIndex
      have : ((df.takeRows (key.flatMap (positionsOf df.index))).takeCols (List.range df.ncols)).index = key := hlab
      rw [if_pos (by rw [this])]
      congr 1
      have hset : ∀ (f : Frame L L α), f.index = key → ({ f with index := key } : Frame L L α) = f := by
        intro f hf
        subst hf
        rfl
      exact hset _ this)
    refine ⟨.frame v', _, ?_, e2, g2⟩
    unfold LFrame.locIndex
    rw [e1, Option.bind_some]
    simp only [g1, Option.map_some]
  | series _ => exact e3.elim
  | scalar _ => exact e3.elim
