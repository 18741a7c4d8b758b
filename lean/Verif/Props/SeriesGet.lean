import Verif.Model.SeriesGet
import Verif.Props.LocGet
/-
C105: `s[key]` and `s.item()`.
-/

variable {L α : Type}

theorem serMapM_mem {A B : Type} {f : A → Option B} : ∀ {l : List A} {r : List B}, l.mapM f = some r → ∀ b ∈ r, ∃ a ∈ l, f a = some b
  | [], r, h, b, hb => by cases h; cases hb
  | a :: l, r, h, b, hb => by
    rw [List.mapM_cons] at h
    cases ha : f a with
    | none => rw [ha] at h; cases h
    | some x =>
      cases hl : l.mapM f with
      | none => rw [ha, hl] at h; cases h
      | some y =>
        rw [ha, hl] at h
        cases h
        rcases List.mem_cons.1 hb with rfl | hb
        · exact ⟨a, by simp, ha⟩
        · obtain ⟨c, hc, e⟩ := serMapM_mem hl b hb
          exact ⟨c, List.mem_cons_of_mem _ hc, e⟩

theorem serMapM_none {A B : Type} {f : A → Option B} : ∀ {l : List A}, (∃ a ∈ l, f a = none) → l.mapM f = none
  | [], h => by obtain ⟨a, ha, _⟩ := h; cases ha
  | a :: l, h => by
    rw [List.mapM_cons]
    cases ha : f a with
    | none => rfl
    | some x =>
      have : l.mapM f = none := by
        obtain ⟨b, hb, e⟩ := h
        rcases List.mem_cons.1 hb with rfl | hb
        · rw [ha] at e; cases e
        · exact serMapM_none ⟨b, hb, e⟩
      rw [this]
      rfl

theorem serAxisPos_inside {n : Nat} {i : Int} {p : Nat} (h : axisPos n i = some p) : p < n := by
  unfold axisPos at h
  split at h
  · split at h
    · cases h; assumption
    · cases h
  · split at h
    · cases h; omega
    · cases h

/-- the rows at positions inside the Series -/
theorem rowsAt_shows [DecidableEq L] (cfg : Cfg) (hp : 1 ≤ cfg.nPartitions) (hmr : 1 ≤ cfg.minRow) (hmc : 1 ≤ cfg.minCol)
    (known : Nat → Nat → Bool × Bool) {m : LFrame L L α} {c : L} {index : List L} {values : List α}
    (h : m.Shows (Frame.ofColumn index c values)) {ps : List Nat} (hps : ∀ p ∈ ps, p < index.length)
    (hd : (∀ i j, known i j = (false, false)) ∨ ps.Nodup) :
    ∃ r, m.rowsAt cfg known ps = some r ∧ r.Shows (Frame.ofColumn (takeList index ps) c (takeList values ps)) := by
  have hres : ((Frame.ofColumn index c values).takeRows (reqList (Frame.ofColumn index c values).nrows (some (.array ps)))).takeCols
      (reqList (Frame.ofColumn index c values).ncols none) = Frame.ofColumn (takeList index ps) c (takeList values ps) := by
    simp only [reqList, Positions.toList, Frame.takeRows, Frame.takeCols, Frame.ofColumn, Frame.ncols, Frame.mk.injEq, true_and]
    refine ⟨by simp [takeList, List.range_succ], ?_⟩
    simp only [takeList, List.map_filterMap, List.getElem?_map]
    congr 1
    funext p
    cases values[p]? with
    | none => rfl
    | some v => simp [List.range_succ]
  unfold LFrame.rowsAt
  rw [h.getIndex, if_pos (by rw [List.all_eq_true]; intro p hp; exact decide_eq_true (hps p hp))]
  have hv : ∀ q, some (Positions.array ps) = some q → q.Valid (Frame.ofColumn index c values).nrows := by
    intro q hq; cases hq; exact hps
  rcases hd with hk | hn
  · obtain ⟨r, e1, e2⟩ := take2d_shows cfg hp hmr hmc h (known := known) (kn := false) (rows := some (.array ps)) (cols := none)
      (by intro i j hij; simp [hk i j] at hij) hv (fun q hq => by cases hq) (fun a b hq => by cases hq) (fun a b hq => by cases hq)
      (fun hq => by cases hq) (fun hq => by cases hq)
    rw [hres] at e2
    exact ⟨r, e1, e2⟩
  · obtain ⟨r, e1, e2⟩ := take2d_shows cfg hp hmr hmc h (known := known) (kn := true) (rows := some (.array ps)) (cols := none)
      (fun _ _ _ => rfl) hv (fun q hq => by cases hq) (fun a b hq => by cases hq) (fun a b hq => by cases hq)
      (fun _ q hq => by cases hq; exact hn) (fun _ q hq => by cases hq)
    rw [hres] at e2
    exact ⟨r, e1, e2⟩

/-- the keys of a list for which the code agrees with pandas: all are labels, or one is not an integer, or
    no label is an integer (then the integers are positions, here not negative) -/
def ListKeyFits (intOf : L → Option Int) (index xs : List L) : Prop :=
  (∀ x ∈ xs, x ∈ index) ∨ (∃ x ∈ xs, intOf x = none) ∨
    ((∀ x ∈ index, intOf x = none) ∧ ∀ x ∈ xs, ∀ i, intOf x = some i → 0 ≤ i)

theorem rowPositions_list [DecidableEq L] (intOf : L → Option Int) (index xs : List L) (hk : ListKeyFits intOf index xs) :
    rowPositions intOf index xs = serPositions intOf index (.list xs) := by
  unfold rowPositions serPositions
  simp only [LKey.addressed, IKey.addressed]
  by_cases hall : ∀ x ∈ xs, x ∈ index
  · rw [if_pos (by simpa using hall), if_pos hall]
    cases hpos : index.all fun x => (intOf x).isNone with
    | false => rfl
    | true =>
      cases hm : xs.mapM intOf with
      | none => rfl
      | some is =>
        cases xs with
        | nil => cases hm; rfl
        | cons x xs =>
          have hx : intOf x = none := by
            have := List.all_eq_true.1 hpos x (hall x (by simp))
            simpa using this
          rw [serMapM_none ⟨x, by simp, hx⟩] at hm
          cases hm
  · rw [if_neg (by simpa using hall), if_neg hall]
    rcases hk with hk | hk | ⟨hk, _⟩
    · exact absurd hk hall
    · rw [serMapM_none hk]
      cases index.all fun x => (intOf x).isNone <;> rfl
    · have hpos : (index.all fun x => (intOf x).isNone) = true := by
        rw [List.all_eq_true]; intro x hx; rw [hk x hx]; rfl
      rw [hpos]
      cases xs.mapM intOf <;> rfl

theorem rowPositions_one [DecidableEq L] (intOf : L → Option Int) (index : List L) (x : L)
    (hk : x ∈ index ∨ intOf x = none ∨ ∀ y ∈ index, intOf y = none) :
    rowPositions intOf index [x] = serPositions intOf index (.one x) := by
  unfold rowPositions serPositions
  simp only [LKey.addressed, IKey.addressed]
  by_cases hx : x ∈ index
  · rw [if_pos (by simpa using hx), if_pos hx]
    cases hpos : index.all fun x => (intOf x).isNone with
    | false => simp
    | true =>
      have : intOf x = none := by simpa using List.all_eq_true.1 hpos x hx
      rw [this]
      simp
  · rw [if_neg (by simpa using hx), if_neg hx]
    cases hi : intOf x with
    | none =>
      rw [serMapM_none ⟨x, by simp, hi⟩]
      cases index.all fun x => (intOf x).isNone <;> rfl
    | some i =>
      have hk : ∀ y ∈ index, intOf y = none := by
        rcases hk with hk | hk | hk
        · exact absurd hk hx
        · rw [hi] at hk; cases hk
        · exact hk
      have hpos : (index.all fun x => (intOf x).isNone) = true := by
        rw [List.all_eq_true]; intro y hy; rw [hk y hy]; rfl
      rw [hpos]
      simp only [List.mapM_cons, List.mapM_nil, hi, Option.pure_def, Option.bind_eq_bind, Option.bind_some]
      cases axisPos index.length i <;> rfl

theorem serPositions_inside [DecidableEq L] (intOf : L → Option Int) (index : List L) (key : SerKey L) {ps : List Nat}
    (h : serPositions intOf index key = some ps) : ∀ p ∈ ps, p < index.length := by
  have hI : ∀ (is : List Int), is.mapM (axisPos index.length) = some ps → ∀ p ∈ ps, p < index.length := by
    intro is his p hp
    obtain ⟨i, _, e⟩ := serMapM_mem his p hp
    exact serAxisPos_inside e
  have hF : ∀ (g : Nat → Bool), ∀ p ∈ (List.range index.length).filter g, p < index.length := by
    intro g p hp
    exact List.mem_range.1 (List.mem_filter.1 hp).1
  have hL : ∀ (xs : List L), (LKey.list xs).addressed index = some ps → ∀ p ∈ ps, p < index.length := by
    intro xs hxs p hp
    simp only [LKey.addressed] at hxs
    split at hxs
    · cases hxs
      obtain ⟨x, _, hp⟩ := List.mem_flatMap.1 hp
      exact hF _ p hp
    · cases hxs
  have hO : ∀ (x : L), (LKey.label x).addressed index = some ps → ∀ p ∈ ps, p < index.length := by
    intro x hx p hp
    simp only [LKey.addressed] at hx
    split at hx
    · cases hx; exact hF _ p hp
    · cases hx
  unfold serPositions at h
  cases key with
  | one x =>
    simp only at h
    split at h
    · simp only [IKey.addressed] at h
      intro p hp
      cases ha : axisPos index.length _ with
      | none => rw [ha] at h; cases h
      | some q =>
        rw [ha] at h; cases h
        rw [List.mem_singleton.1 hp]
        exact serAxisPos_inside ha
    · exact hO x h
  | list xs =>
    simp only at h
    split at h
    · exact hI _ h
    · exact hL xs h
  | mask bs =>
    simp only [LKey.addressed] at h
    split at h
    · cases h; exact hF _
    · cases h

/-- **C105**, `s[key]`.  Reading a Series with a label, a list of labels or a list of booleans, or with integers as positions when no label is
    an integer, gives pandas' value or Series (values, labels and name) on every partitioning, and raises exactly when pandas raises.

    Partial.  Left out: an integer that is not a label of a Series with integers among its labels (`hkey`, witness below: the code takes it
    for a position); a label in several places of a Series without a name (`hkey`, witness below); lists with negative integers as positions;
    positions that repeat when block sizes are cached (`hd`, as in C08).  An empty Series is handed to pandas.  For a label in several places
    the code returns a pandas object instead of a Modin one; `observe` does not tell them apart. -/
theorem C105_getitem_partial [DecidableEq L] (intOf : L → Option Int) (cfg : Cfg) (hp : 1 ≤ cfg.nPartitions) (hmr : 1 ≤ cfg.minRow)
    (hmc : 1 ≤ cfg.minCol) (known : Nat → Nat → Bool × Bool) (nan : α) (unnamed : L) (m : LFrame L L α) (name : Option L)
    (hname : name ≠ some unnamed) (index : List L) (values : List α) (h : m.Shows (Frame.ofColumn index (name.getD unnamed) values))
    (key : SerKey L)
    (hkey : match key with
      | .one x => (x ∈ index ∨ intOf x = none ∨ ∀ y ∈ index, intOf y = none) ∧
          (name.isSome ∨ ∀ ps, serPositions intOf index (.one x) = some ps → ps.length = 1)
      | .list xs => ListKeyFits intOf index xs
      | .mask _ => True)
    (hd : (∀ i j, known i j = (false, false)) ∨ ∀ ps, serPositions intOf index key = some ps → ps.Nodup) :
    (m.serGetitem intOf cfg known nan key).bind (SerOut.observe nan unnamed) = serGetitem intOf name index values key := by
  have hlen : values.length = index.length := by
    have := h.wf.rows_len
    simpa [Frame.ofColumn, Frame.nrows] using this
  have hidx : m.getIndex = index := h.getIndex
  have hcol : (if name.getD unnamed = unnamed then none else some (name.getD unnamed)) = name := by
    cases name with
    | none => simp
    | some c => simp only [Option.getD_some]; rw [if_neg]; intro e; exact hname (by rw [e])
  have take := fun {ps : List Nat} (hps : serPositions intOf index key = some ps) =>
    rowsAt_shows cfg hp hmr hmc known h (serPositions_inside intOf index key hps) (hd.imp_right fun f => f ps hps)
  have obs : ∀ {r : LFrame L L α} {ps : List Nat}, r.Shows (Frame.ofColumn (takeList index ps) (name.getD unnamed) (takeList values ps)) →
      (SerOut.series r).observe nan unnamed = some (.series name (takeList index ps) (takeList values ps)) := by
    intro r ps hr
    simp only [SerOut.observe, (hr.observed nan).1, Option.bind_some, Frame.ofColumn, hcol, flatten_boxed]
  unfold LFrame.serGetitem serGetitem
  rw [hidx]
  cases key with
  | mask bs =>
    by_cases hl : bs.length = index.length
    · have hps : serPositions intOf index (.mask bs) = some ((List.range index.length).filter fun k => bs[k]? == some true) := by
        simp [serPositions, LKey.addressed, hl]
      obtain ⟨r, e1, e2⟩ := take hps
      simp only [if_pos hl]
      rw [e1, hps]
      exact obs e2
    · have hps : serPositions intOf index (.mask bs) = none := by simp [serPositions, LKey.addressed, hl]
      simp only [if_neg hl, hps]
      rfl
  | list xs =>
    simp only
    rw [rowPositions_list intOf index xs hkey]
    cases hps : serPositions intOf index (.list xs) with
    | none => rfl
    | some ps =>
      obtain ⟨r, e1, e2⟩ := take hps
      rw [Option.bind_some, e1]
      exact obs e2
  | one x =>
    simp only
    rw [rowPositions_one intOf index x hkey.1]
    cases hps : serPositions intOf index (.one x) with
    | none => rfl
    | some ps =>
      obtain ⟨r, e1, e2⟩ := take hps
      rw [Option.bind_some, e1, Option.bind_some]
      have hin := serPositions_inside intOf index (.one x) hps
      unfold LFrame.reduceDimension
      rw [(e2.observed nan).1, Option.bind_some]
      match ps, hin, e2, hkey.2 with
      | [p], hin, e2, _ =>
        have hv : p < values.length := by rw [hlen]; exact hin p (by simp)
        simp [Frame.ofColumn, takeList, hv, SerOut.observe]
      | [], hin, e2, hn =>
        have hs : name.isSome := hn.resolve_right fun f => absurd (f [] hps) (by simp)
        obtain ⟨c, rfl⟩ := Option.isSome_iff_exists.1 hs
        simp [Frame.ofColumn, takeList, SerOut.observe]
      | p :: q :: ps, hin, e2, hn =>
        have hs : name.isSome := hn.resolve_right fun f => absurd (f _ hps) (by simp)
        obtain ⟨c, rfl⟩ := Option.isSome_iff_exists.1 hs
        have h1 : p < values.length := by rw [hlen]; exact hin p (by simp)
        have h2 : q < values.length := by rw [hlen]; exact hin q (by simp)
        simp [Frame.ofColumn, takeList, h1, h2, SerOut.observe, flatten_boxed]

/-- **C105**, `s.item()` of a Series with exactly one value is that value, whatever its label is.

    Partial: for several values pandas raises, see the witness. -/
theorem C105_item_partial [DecidableEq L] (intOf : L → Option Int) (zero : L) (hz : intOf zero = some 0) (cfg : Cfg)
    (hp : 1 ≤ cfg.nPartitions) (hmr : 1 ≤ cfg.minRow) (hmc : 1 ≤ cfg.minCol) (known : Nat → Nat → Bool × Bool) (nan : α) (unnamed : L)
    (m : LFrame L L α) (c : L) (index : List L) (a : α) (h : m.Shows (Frame.ofColumn index c [a])) :
    (m.serItem intOf zero cfg known nan).bind (SerOut.observe nan unnamed) = (serItem [a]).map .scalar := by
  have hlen : index.length = 1 := by
    have := h.wf.rows_len
    simpa [Frame.ofColumn, Frame.nrows] using this.symm
  match index, hlen with
  | [x], _ =>
    have hidx : m.getIndex = [x] := h.getIndex
    have hps : rowPositions intOf [x] [zero] = some [0] := by
      unfold rowPositions
      by_cases hx : zero = x
      · subst hx
        rw [if_pos (by simp)]
        simp [List.range_succ]
      · rw [if_neg (by simpa using hx)]
        simp [hz, axisPos]
    obtain ⟨r, e1, e2⟩ := rowsAt_shows cfg hp hmr hmc known h (ps := [0]) (by simp) (Or.inr (by simp))
    unfold LFrame.serItem LFrame.serGetitem
    simp only
    rw [hidx, hps, Option.bind_some, e1, Option.bind_some]
    unfold LFrame.reduceDimension
    rw [(e2.observed nan).1]
    simp [Frame.ofColumn, takeList, SerOut.observe, serItem]

namespace SeriesGetDemo

/-- labels: integers and strings -/
inductive Lab where
  | int (i : Int)
  | str (s : String)
deriving DecidableEq, Repr

def Lab.intOf : Lab → Option Int
  | .int i => some i
  | .str _ => none

def unnamedLab : Lab := .str "__reduced__"

/-- a Series of three values in two blocks -/
def ser (index : List Lab) (name : Option Lab) : LFrame Lab Lab Nat :=
  LFrame.mk (MFrame.mk ((Frame.ofColumn index (name.getD unnamedLab) [10, 11, 12]).cut [2, 1] [1]) none none none none) false false

theorem ser_shows (a b c : Lab) (name : Option Lab) :
    (ser [a, b, c] name).Shows (Frame.ofColumn [a, b, c] (name.getD unnamedLab) [10, 11, 12]) := by
  refine ⟨⟨rfl, ?_⟩, ⟨Frame.ofColumn [a, b, c] (name.getD unnamedLab) [10, 11, 12], [2, 1], [1], ⟨rfl, ?_⟩, rfl, rfl,
    ⟨by decide, by decide, rfl, rfl⟩, rfl, Or.inl rfl, Or.inl rfl, fun _ => rfl, fun _ => rfl⟩, Or.inl ⟨rfl, rfl⟩, Or.inl ⟨rfl, rfl⟩⟩ <;>
  · intro r hr
    simp only [Frame.ofColumn, List.map_cons, List.map_nil, List.mem_cons, List.not_mem_nil, or_false] at hr
    rcases hr with rfl | rfl | rfl <;> rfl

def serKnown : Nat → Nat → Bool × Bool := fun _ _ => (true, true)

/-- what `s[key]` shows -/
def got (index : List Lab) (name : Option Lab) (key : SerKey Lab) : Option (SerGot Lab Nat) :=
  ((ser index name).serGetitem Lab.intOf ⟨4, 1, 1⟩ serKnown 0 key).bind (SerOut.observe 0 unnamedLab)

/-- the hypotheses of `C105_getitem_partial` are met: a list of labels, in another order -/
example : got [.str "a", .str "b", .str "c"] none (.list [.str "c", .str "a"]) = some (.series none [.str "c", .str "a"] [12, 10]) := by
  have e := C105_getitem_partial Lab.intOf ⟨4, 1, 1⟩ (by decide) (by decide) (by decide) serKnown 0 unnamedLab _ none (by simp)
    [.str "a", .str "b", .str "c"] [10, 11, 12] (ser_shows (.str "a") (.str "b") (.str "c") none) (.list [.str "c", .str "a"])
    (Or.inl (by decide)) (Or.inr (by
      rw [show serPositions Lab.intOf [.str "a", .str "b", .str "c"] (.list [.str "c", .str "a"]) = some [2, 0] by decide +kernel]
      intro ps hps; cases hps; decide))
  unfold got
  rw [e]
  decide +kernel

/-- a label in two places of a named Series, a position, an integer label, a mask, a label that is not there -/
example :
    got [.str "a", .str "b", .str "a"] (some (.str "n")) (.one (.str "a")) = some (.series (some (.str "n")) [.str "a", .str "a"] [10, 12]) ∧
    got [.str "a", .str "b", .str "c"] none (.one (.int 1)) = some (.scalar 11) ∧
    got [.int 2, .int 1, .int 0] none (.one (.int 2)) = some (.scalar 10) ∧
    got [.int 2, .int 1, .int 0] none (.mask [true, false, true]) = some (.series none [.int 2, .int 0] [10, 12]) ∧
    got [.str "a", .str "b", .str "c"] none (.one (.str "z")) = none := by decide +kernel

/-- the hypotheses of `C105_item_partial` are met -/
example : Lab.intOf (.int 0) = some 0 ∧ (LFrame.mk (MFrame.mk ((Frame.ofColumn [Lab.int 7] unnamedLab [5]).cut [1] [1]) none none none none) false
    false : LFrame Lab Lab Nat).Shows (Frame.ofColumn [Lab.int 7] unnamedLab [5]) :=
  ⟨rfl, ⟨by decide +kernel, by decide +kernel⟩, ⟨Frame.ofColumn [Lab.int 7] unnamedLab [5], [1], [1], ⟨by decide +kernel, by decide +kernel⟩, rfl, rfl,
    ⟨by decide, by decide, rfl, rfl⟩, rfl, Or.inl rfl, Or.inl rfl, fun _ => rfl, fun _ => rfl⟩, Or.inl ⟨rfl, rfl⟩, Or.inl ⟨rfl, rfl⟩⟩

/-! ### where the full statement fails -/

/-- **C105 fails for integers that are not labels.**  On the labels `10, 20, 30`, `s[0]` and `s[[0, 10]]` raise `KeyError` in pandas; the code
    takes `0` for a position, and returns the first value for `s[0]`; on the labels `1, 2, 3`, `s[[0, 1]]` gives the rows at the positions
    0 and 1. -/
theorem C105_integer_taken_for_position :
    got [.int 10, .int 20, .int 30] none (.one (.int 0)) = some (.scalar 10) ∧
    serGetitem Lab.intOf none [.int 10, .int 20, .int 30] [10, 11, 12] (.one (.int 0)) = none ∧
    got [.int 1, .int 2, .int 3] none (.list [.int 0, .int 1]) = some (.series none [.int 1, .int 2] [10, 11]) ∧
    serGetitem Lab.intOf none [.int 1, .int 2, .int 3] [10, 11, 12] (.list [.int 0, .int 1]) = none := by decide +kernel

/-- **C105 fails for a label in several places of a Series without a name.**  The result is named `__reduced__`; in pandas it has no name. -/
theorem C105_internal_name_shown :
    got [.str "a", .str "b", .str "a"] none (.one (.str "a")) = some (.series (some unnamedLab) [.str "a", .str "a"] [10, 12]) ∧
    serGetitem Lab.intOf none [.str "a", .str "b", .str "a"] [10, 11, 12] (.one (.str "a")) = some (.series none [.str "a", .str "a"] [10, 12]) := by
  decide +kernel

/-- **C105 fails for `item` of several values.**  pandas raises `ValueError`; the code returns the value with the label 0, or the first. -/
theorem C105_item_of_several :
    ((ser [.int 2, .int 1, .int 0] none).serItem Lab.intOf (.int 0) ⟨4, 1, 1⟩ serKnown 0).bind (SerOut.observe 0 unnamedLab) = some (.scalar 12) ∧
    ((ser [.str "a", .str "b", .str "c"] none).serItem Lab.intOf (.int 0) ⟨4, 1, 1⟩ serKnown 0).bind (SerOut.observe 0 unnamedLab)
      = some (.scalar 10) ∧
    serItem [10, 11, 12] = none := by decide +kernel

end SeriesGetDemo
