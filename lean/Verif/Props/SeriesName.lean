import Verif.Model.SeriesName
import Verif.Props.LocGet
/-
C106: the name of a Series, `to_frame`, `DataFrame(s)` and `repeat`.
-/

variable {L α : Type}

theorem serName_shows [DecidableEq L] {unnamed : L} {m : LFrame L L α} {name : Option L} (hname : name ≠ some unnamed) {index : List L}
    {values : List α} (h : m.Shows (Frame.ofColumn index (name.getD unnamed) values)) : m.serName unnamed = some name := by
  unfold LFrame.serName
  rw [h.getColumns]
  simp only [Frame.ofColumn, List.head?_cons, Option.map_some]
  cases name with
  | none => simp
  | some c => simp only [Option.getD_some]; rw [if_neg]; intro e; exact hname (by rw [e])

theorem setSerName_shows [DecidableEq L] {m : LFrame L L α} {c0 : L} {index : List L} {values : List α}
    (h : m.Shows (Frame.ofColumn index c0 values)) (c : L) : ∃ m', m.setColumns [c] = some m' ∧ m'.Shows (Frame.ofColumn index c values) :=
  setColumns_shows h [c] rfl

theorem frameOfSeries_shows [DecidableEq L] {unnamed : L} (zero : L) {m : LFrame L L α} {name : Option L} (hname : name ≠ some unnamed)
    {index : List L} {values : List α} (h : m.Shows (Frame.ofColumn index (name.getD unnamed) values)) :
    ∃ m', m.frameOfSeries unnamed zero = some m' ∧ m'.Shows (Frame.ofColumn index (name.getD zero) values) := by
  unfold LFrame.frameOfSeries
  obtain ⟨r, e1, e2⟩ := copy_shows h
  rw [e1, serName_shows hname h]
  cases name with
  | none =>
    obtain ⟨m', e3, e4⟩ := setSerName_shows e2 zero
    exact ⟨m', e3, e4⟩
  | some c => exact ⟨r, rfl, e2⟩

/-- **C106**, the name.  After `s.name = x` the name is `x` (`None` included), and values and labels are as before.  Partial: the name must not
    be the string that stands for no name, `"__reduced__"`. -/
theorem C106_name_partial [DecidableEq L] (nan : α) (unnamed : L) (m : LFrame L L α) (c : L) (index : List L) (values : List α)
    (h : m.Shows (Frame.ofColumn index c values)) (name : Option L) (hname : name ≠ some unnamed) :
    ∃ m', m.setSerName unnamed name = some m' ∧ m'.serName unnamed = some name ∧
      (m'.toPandas nan).map (fun f => (f.index, f.rows)) = some (index, values.map ([·])) := by
  obtain ⟨m', e1, e2⟩ := setSerName_shows h (name.getD unnamed)
  refine ⟨m', e1, serName_shows hname e2, ?_⟩
  rw [(LFrame.Shows.observed e2 nan).1]
  rfl

/-- **C106**, `to_frame` and `DataFrame(s)`, on every partitioning: the frame of one column that pandas makes, labelled by the argument, by the
    name, or `0`.  Partial: not for the argument `None` (witness below), and not for the name `"__reduced__"`. -/
theorem C106_to_frame_partial [DecidableEq L] (nan : α) (unnamed zero noneLabel : L) (m : LFrame L L α) (name : Option L)
    (hname : name ≠ some unnamed) (index : List L) (values : List α) (h : m.Shows (Frame.ofColumn index (name.getD unnamed) values))
    (arg : Option (Option L)) (harg : arg ≠ some none) (hargn : arg ≠ some (some unnamed)) :
    (m.serToFrame unnamed zero arg).bind (·.toPandas nan) = some (serToFrame zero noneLabel name index values arg) ∧
    (m.frameOfSeries unnamed zero).bind (·.toPandas nan) = some (serToFrame zero noneLabel name index values none) := by
  constructor
  · unfold LFrame.serToFrame
    obtain ⟨cp, e1, e2⟩ := copy_shows h
    rw [e1, Option.bind_some]
    match arg, harg, hargn with
    | none, _, _ =>
      obtain ⟨m', e3, e4⟩ := frameOfSeries_shows zero hname e2
      simp only [Option.join_none, Option.bind_some, e3]
      rw [(LFrame.Shows.observed e4 nan).1]
      rfl
    | some (some c), _, hn =>
      obtain ⟨m1, e3, e4⟩ := setSerName_shows e2 c
      obtain ⟨m', e5, e6⟩ := frameOfSeries_shows (unnamed := unnamed) (name := some c) zero (by intro e; exact hn (by rw [e])) e4
      simp only [Option.join_some, LFrame.setSerName, Option.getD_some, e3, Option.bind_some, e5]
      rw [(LFrame.Shows.observed e6 nan).1]
      rfl
    | some none, hh, _ => exact absurd rfl hh
  · obtain ⟨m', e3, e4⟩ := frameOfSeries_shows zero hname h
    rw [e3, Option.bind_some, (LFrame.Shows.observed e4 nan).1]
    rfl

/-- **C106**, `repeat`, on every partitioning and for every number or list of numbers, the exception for a list that does not fit included.
    Partial: repeating 0 times keeps no name (witness below), so the Series must have none then. -/
theorem C106_repeat_partial [DecidableEq L] (nan : α) (unnamed : L) (m : LFrame L L α) (name : Option L) (hname : name ≠ some unnamed)
    (index : List L) (values : List α) (h : m.Shows (Frame.ofColumn index (name.getD unnamed) values)) (arg : RepeatArg)
    (hz : name = none ∨ (arg ≠ .int 0 ∧ arg ≠ .list [0])) :
    m.serRepeat nan unnamed arg = serRepeat name index values arg := by
  have each0 : ∀ {τ : Type} (l : List τ) (k : Nat), repeatEach l (List.replicate k 0) = [] := by
    intro τ l k
    unfold repeatEach
    rw [List.flatMap_eq_nil_iff]
    intro p hp
    have := List.of_mem_zip hp
    rw [(List.mem_replicate.1 this.2).2]
    rfl
  unfold LFrame.serRepeat
  by_cases h0 : arg = .int 0 ∨ arg = .list [0]
  · rw [if_pos h0]
    have hn : name = none := by
      rcases hz with hz | ⟨h1, h2⟩
      · exact hz
      · rcases h0 with e | e
        · exact absurd e h1
        · exact absurd e h2
    subst hn
    rcases h0 with rfl | rfl <;> simp [serRepeat, each0]
  · rw [if_neg h0, (LFrame.Shows.observed h nan).1, Option.bind_some, serName_shows hname h, Option.bind_some]
    simp only [Frame.ofColumn, flatten_boxed]

namespace SeriesNameDemo

/-- a Series of three values in two blocks; `-1` stands for no name and `-2` is the label `None` -/
def ser (c : Int) : LFrame Int Int Nat :=
  LFrame.mk (MFrame.mk ((Frame.ofColumn [7, 8, 9] c [10, 11, 12]).cut [2, 1] [1]) none none none none) false false

theorem ser_shows (c : Int) : (ser c).Shows (Frame.ofColumn [7, 8, 9] c [10, 11, 12]) := by
  refine ⟨⟨rfl, ?_⟩, ⟨Frame.ofColumn [7, 8, 9] c [10, 11, 12], [2, 1], [1], ⟨rfl, ?_⟩, rfl, rfl,
    ⟨by decide, by decide, rfl, rfl⟩, rfl, Or.inl rfl, Or.inl rfl, fun _ => rfl, fun _ => rfl⟩, Or.inl ⟨rfl, rfl⟩, Or.inl ⟨rfl, rfl⟩⟩ <;>
  · intro r hr
    simp only [Frame.ofColumn, List.map_cons, List.map_nil, List.mem_cons, List.not_mem_nil, or_false] at hr
    rcases hr with rfl | rfl | rfl <;> rfl

/-- hypotheses are met: a Series without a name and one that is given a name -/
example : ((ser (-1)).serToFrame (-1) 0 none).bind (·.toPandas 0) = some ⟨[7, 8, 9], [0], [[10], [11], [12]]⟩ ∧
    ((ser 5).serToFrame (-1) 0 (some (some 6))).bind (·.toPandas 0) = some ⟨[7, 8, 9], [6], [[10], [11], [12]]⟩ :=
  ⟨(C106_to_frame_partial 0 (-1) 0 (-2) _ none (by decide) [7, 8, 9] [10, 11, 12] (ser_shows (-1)) none (by decide) (by decide)).1,
   (C106_to_frame_partial 0 (-1) 0 (-2) _ (some 5) (by decide) [7, 8, 9] [10, 11, 12] (ser_shows 5) (some (some 6)) (by decide) (by decide)).1⟩

example : ∃ m', (ser 5).setSerName (-1) none = some m' ∧ m'.serName (-1) = some none := by
  obtain ⟨m', e1, e2, _⟩ := C106_name_partial 0 (-1) (ser 5) 5 [7, 8, 9] [10, 11, 12] (ser_shows 5) none (by decide)
  exact ⟨m', e1, e2⟩

example : (ser 5).serRepeat 0 (-1) (.list [2, 0, 1]) = some (.series (some 5) [7, 7, 9] [10, 10, 12]) ∧
    (ser 5).serRepeat 0 (-1) (.list [2, 0]) = none := by
  rw [C106_repeat_partial 0 (-1) (ser 5) (some 5) (by decide) [7, 8, 9] [10, 11, 12] (ser_shows 5) (.list [2, 0, 1]) (Or.inr (by decide)),
    C106_repeat_partial 0 (-1) (ser 5) (some 5) (by decide) [7, 8, 9] [10, 11, 12] (ser_shows 5) (.list [2, 0]) (Or.inr (by decide))]
  decide +kernel

/-- **C106 fails for `to_frame(name=None)`.**  pandas labels the column `None`; the code keeps the name of the Series. -/
theorem C106_to_frame_none :
    ((ser 5).serToFrame (-1) 0 (some none)).bind (·.toPandas 0) = some ⟨[7, 8, 9], [5], [[10], [11], [12]]⟩ ∧
    serToFrame 0 (-2) (some 5) [7, 8, 9] [10, 11, 12] (some none) = (⟨[7, 8, 9], [-2], [[10], [11], [12]]⟩ : Frame Int Int Nat) := by
  decide +kernel

/-- **C106 fails for `repeat(0)`.**  The result has lost the name of the Series. -/
theorem C106_repeat_zero_loses_name :
    (ser 5).serRepeat 0 (-1) (.int 0) = some (.series none [] []) ∧
    serRepeat (some 5) [7, 8, 9] [10, 11, 12] (.int 0) = some (SerGot.series (some (5 : Int)) [] ([] : List Nat)) := by decide +kernel

/-- **C106 fails for a Series named `"__reduced__"`.**  Its name is shown as `None`. -/
theorem C106_reserved_name :
    ((ser 5).setSerName (-1) (some (-1))).bind (·.serName (-1)) = some none := by decide +kernel

end SeriesNameDemo
