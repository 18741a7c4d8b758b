import Verif.Lemmas.Convert
import Verif.Props.Readers

/-!
C94: functions of single values that may raise, and the conversions `to_numeric`, `to_timedelta`, `to_datetime` of a
Series, which Modin runs on every block by itself.
-/

variable {ι κ α β φ : Type} [DecidableEq ι] [DecidableEq κ]

omit [DecidableEq ι] [DecidableEq κ] in
/-- **C94, what is compared with.** `mapCellsM g` answers exactly when no value makes `g` raise; then the labels are
    those of the frame and every value is the answer of `g` for the value in that place. -/
theorem C94_meaning (g : α → Option β) (df : Frame ι κ α) (df' : Frame ι κ β) :
    (df.mapCellsM g = some df' ↔
      df'.index = df.index ∧ df'.columns = df.columns ∧ df.rows.map (fun r => r.map g) = df'.rows.map fun r => r.map some) ∧
    (df.mapCellsM g = none ↔ ∃ r ∈ df.rows, ∃ a ∈ r, g a = none) := by
  have hrow : ∀ (r : List α) (r' : List β), r.mapM g = some r' ↔ r.map g = r'.map some := by
    intro r
    induction r with
    | nil => intro r'; cases r' <;> simp
    | cons a r ih =>
      intro r'
      rw [List.mapM_cons]
      cases r' with
      | nil => cases g a <;> cases r.mapM g <;> simp
      | cons b r' =>
        have := ih r'
        cases hg : g a with
        | none => simp [hg]
        | some c =>
          cases hr : r.mapM g with
          | none => simp only [hr] at this; simp [hg, ← this]
          | some q => simp only [hr, Option.some.injEq] at this; simp [hg, ← this]
  have hrows : ∀ (l : List (List α)) (l' : List (List β)), (l.mapM fun r : List α => r.mapM g) = some l' ↔
      l.map (fun r => r.map g) = l'.map fun r => r.map some := by
    intro l
    induction l with
    | nil => intro l'; cases l' <;> simp
    | cons r l ih =>
      intro l'
      rw [List.mapM_cons]
      cases l' with
      | nil => cases r.mapM g <;> cases (l.mapM fun r : List α => r.mapM g) <;> simp
      | cons r' l' =>
        have h1 := ih l'
        have h2 := hrow r r'
        cases hr : r.mapM g with
        | none => simp only [hr] at h2; simp [← h2]
        | some c =>
          cases hl : (l.mapM fun r : List α => r.mapM g) with
          | none => simp only [hl] at h1; simp [← h1]
          | some q => simp only [hr, hl, Option.some.injEq] at h1 h2; simp [← h1, ← h2]
  constructor
  · unfold Frame.mapCellsM
    constructor
    · intro h
      obtain ⟨rows, h1, rfl⟩ := Option.map_eq_some_iff.1 h
      exact ⟨rfl, rfl, (hrows _ _).1 h1⟩
    · rintro ⟨h1, h2, h3⟩
      rw [(hrows _ _).2 h3, Option.map_some, ← h1, ← h2]
  · rw [mapCellsM_none]
    constructor
    · rintro ⟨a, ha, h⟩
      obtain ⟨r, hr, har⟩ := List.mem_flatten.1 ha
      exact ⟨r, hr, a, har, h⟩
    · rintro ⟨r, hr, a, ha, h⟩
      exact ⟨a, List.mem_flatten.2 ⟨r, hr, ha⟩, h⟩

/-- **C94, functions of single values.** For every frame however divided, every function of single values that may raise
    and every plan of execution, Modin's answer is pandas', and Modin raises exactly when pandas does. -/
theorem C94_elementwise [Nonempty β] (cfg : Cfg) (dyn : Bool) (cpu : Nat) (nan : β) (g : α → Option β) (m : LFrame ι κ α)
    (df : Frame ι κ α) (h : m.Shows df) :
    (∀ m', m.mapBlocksM cfg dyn cpu (Frame.mapCellsM g) = some m' → ∃ df', df.mapCellsM g = some df' ∧ m'.Shows df') ∧
    (m.mapBlocksM cfg dyn cpu (Frame.mapCellsM g)).bind (·.toPandas nan) = df.mapCellsM g := by
  obtain ⟨h1, h2⟩ := mapCellsM_shows cfg dyn cpu g h
  cases hd : df.mapCellsM g with
  | none => rw [h2 hd]; exact ⟨by simp, rfl⟩
  | some df' =>
    obtain ⟨m', e1, e2⟩ := h1 df' hd
    rw [e1]
    refine ⟨?_, (e2.observed nan).1⟩
    intro m'' e; cases e
    exact ⟨df', rfl, e2⟩

omit [DecidableEq ι] [DecidableEq κ] in
theorem convert_congr {conv conv' : α → Option α} {f : Frame ι κ α} (e : ∀ a ∈ f.cellList, conv a = conv' a) (onBad : OnBad) (nan : α) :
    f.convert onBad nan conv = f.convert onBad nan conv' := by
  have hM : f.mapCellsM conv = f.mapCellsM conv' := by
    unfold Frame.mapCellsM
    rw [mapM_congr_mem fun r hr => mapM_congr_mem fun a ha => e a (List.mem_flatten.2 ⟨r, hr, ha⟩)]
  cases onBad with
  | raise => exact hM
  | ignore => simp only [Frame.convert, hM]
  | coerce =>
    simp only [Frame.convert, Frame.mapCells]
    congr 2
    refine List.map_congr_left fun r hr => List.map_congr_left fun a ha => ?_
    rw [e a (List.mem_flatten.2 ⟨r, hr, ha⟩)]

/-- **C94, `to_numeric` and `to_timedelta`.** With `errors="raise"` and `errors="coerce"` Modin's Series is pandas' and
    Modin raises exactly when pandas does, however the Series is divided.  (Partial: with `errors="ignore"` only if all values
    can be converted or none; otherwise see `C94_ignore_by_block`.) -/
theorem C94_convert_partial (cfg : Cfg) (dyn : Bool) (cpu : Nat) (onBad : OnBad) (nan : α) (conv : α → Option α) (m : LFrame ι κ α)
    (df : Frame ι κ α) (h : m.Shows df)
    (hign : onBad = .ignore → (∀ a ∈ df.cellList, conv a ≠ none) ∨ (∀ a ∈ df.cellList, conv a = none)) :
    (∀ m', m.convert cfg dyn cpu onBad nan conv = some m' → ∃ df', df.convert onBad nan conv = some df' ∧ m'.Shows df') ∧
    (m.convert cfg dyn cpu onBad nan conv).bind (·.toPandas nan) = df.convert onBad nan conv := by
  have total : ∀ g : α → α, (∀ f : Frame ι κ α, (∀ a ∈ f.cellList, a ∈ df.cellList) → f.convert onBad nan conv = some (f.mapCells g)) →
      (∀ m', m.convert cfg dyn cpu onBad nan conv = some m' → ∃ df', df.convert onBad nan conv = some df' ∧ m'.Shows df') ∧
      (m.convert cfg dyn cpu onBad nan conv).bind (·.toPandas nan) = df.convert onBad nan conv := by
    intro g e
    obtain ⟨m', e1, e2⟩ := mapBlocksM_some cfg dyn cpu h e
    unfold LFrame.convert
    rw [e1, e df fun _ ha => ha]
    refine ⟨?_, (e2.observed nan).1⟩
    intro m'' e'; cases e'
    exact ⟨_, rfl, e2⟩
  cases onBad with
  | raise =>
    haveI : Nonempty α := ⟨nan⟩
    exact C94_elementwise cfg dyn cpu nan conv m df h
  | coerce => exact total _ fun f _ => rfl
  | ignore =>
    rcases hign rfl with hall | hnone
    · refine total (fun a => (conv a).getD nan) fun f hf => ?_
      simp only [Frame.convert]
      rw [mapCellsM_some (h := fun a => (conv a).getD nan)]
      · rfl
      · intro a ha
        cases hc : conv a with
        | none => exact absurd hc (hall a (hf a ha))
        | some b => rfl
    · refine total id fun f hf => ?_
      have hid : f.mapCells id = f := by simp [Frame.mapCells]
      simp only [Frame.convert, hid]
      cases hc : f.mapCellsM conv with
      | none => rfl
      | some f' =>
        have hem : ∀ a ∈ f.cellList, conv a = some (id a) := by
          intro a ha
          rw [mapCellsM_none.2 ⟨a, ha, hnone a (hf a ha)⟩] at hc
          cases hc
        rw [mapCellsM_some hem, hid] at hc
        cases hc
        rfl

/-- **C94, `to_datetime` with a format.**  Pandas' Series, and raising exactly when pandas does, however the Series is divided.
    (Partial: `errors="ignore"` as in `C94_convert_partial`.) -/
theorem C94_dates_with_format_partial (cfg : Cfg) (dyn : Bool) (cpu : Nat) (onBad : OnBad) (nat : α) (isna : α → Bool) (guess : α → Option φ)
    (parse : Option φ → α → Option α) (p : φ) (m : LFrame ι κ α) (df : Frame ι κ α) (h : m.Shows df)
    (hign : onBad = .ignore → (∀ a ∈ df.cellList, parse (some p) a ≠ none) ∨ (∀ a ∈ df.cellList, parse (some p) a = none)) :
    (∀ m', m.convertDates cfg dyn cpu onBad nat isna guess parse (some p) = some m' →
      ∃ df', df.convertDates onBad nat isna guess parse (some p) = some df' ∧ m'.Shows df') ∧
    (m.convertDates cfg dyn cpu onBad nat isna guess parse (some p)).bind (·.toPandas nat)
      = df.convertDates onBad nat isna guess parse (some p) :=
  C94_convert_partial cfg dyn cpu onBad nat (parse (some p)) m df h hign

/-- **C94, `to_datetime` without a format.**  If pandas would guess the same format from each of the values that are not missing
    (and missing values become missing under every format), Modin's Series is pandas', and Modin raises exactly when pandas
    does.  (Partial: otherwise the blocks use different formats, see `C94_format_guessed_by_block`.) -/
theorem C94_dates_guessed_partial (cfg : Cfg) (dyn : Bool) (cpu : Nat) (onBad : OnBad) (nat : α) (isna : α → Bool) (guess : α → Option φ)
    (parse : Option φ → α → Option α) (p : Option φ) (m : LFrame ι κ α) (df : Frame ι κ α) (h : m.Shows df)
    (hsame : ∀ a ∈ df.cellList, isna a = false → guess a = p)
    (hmiss : ∀ a ∈ df.cellList, isna a = true → ∀ q, parse q a = some nat)
    (hign : onBad = .ignore → (∀ a ∈ df.cellList, parse p a ≠ none) ∨ (∀ a ∈ df.cellList, parse p a = none)) :
    (∀ m', m.convertDates cfg dyn cpu onBad nat isna guess parse none = some m' →
      ∃ df', df.convertDates onBad nat isna guess parse none = some df' ∧ m'.Shows df') ∧
    (m.convertDates cfg dyn cpu onBad nat isna guess parse none).bind (·.toPandas nat)
      = df.convertDates onBad nat isna guess parse none := by
  have e : ∀ f : Frame ι κ α, (∀ a ∈ f.cellList, a ∈ df.cellList) →
      f.convertDates onBad nat isna guess parse none = f.convert onBad nat (parse p) := by
    intro f hf
    simp only [Frame.convertDates]
    apply convert_congr
    intro a ha
    cases hq : f.cellList.find? fun a => !isna a with
    | none =>
      have := List.find?_eq_none.1 hq a ha
      have hna : isna a = true := by simpa using this
      rw [hmiss a (hf a ha) hna, hmiss a (hf a ha) hna]
    | some b =>
      have h1 := List.find?_some hq
      have h2 := List.mem_of_find?_eq_some hq
      rw [Option.bind_some, hsame b (hf b h2) (by simpa using h1)]
  have e' : m.convertDates cfg dyn cpu onBad nat isna guess parse none = m.convert cfg dyn cpu onBad nat (parse p) := by
    unfold LFrame.convertDates LFrame.convert
    exact mapBlocksM_congr cfg dyn cpu h e
  rw [e', e df fun _ ha => ha]
  exact C94_convert_partial cfg dyn cpu onBad nat (parse p) m df h hign

namespace ConvertDemo

/-- texts `x/y`, days `d` of month `m`, and the missing value -/
inductive V
  | text (x y : Nat) | day (m d : Nat) | nat
deriving DecidableEq, Repr

/-- `true`: the month comes first -/
def parse : Option Bool → V → Option V
  | _, .nat => some .nat
  | some true, .text x y => if x ≤ 12 then some (.day x y) else none
  | some false, .text x y => if y ≤ 12 then some (.day y x) else none
  | none, .text x y => if x ≤ 12 then some (.day x y) else if y ≤ 12 then some (.day y x) else none
  | _, .day m d => some (.day m d)

def isna (v : V) : Bool := decide (v = .nat)

/-- month first unless that is impossible -/
def guess : V → Option Bool
  | .text x _ => some (decide (x ≤ 12))
  | _ => none

/-- a Series in row partitions -/
def ser (rl : List Nat) (vs : List V) : LFrame Nat String V :=
  ⟨⟨(Frame.mk (List.range vs.length) ["s"] (vs.map fun v => [v])).cut rl [1], some (List.range vs.length), some ["s"], none, none⟩, false, false⟩

def dates : List V := [.text 1 2, .nat, .text 3 31, .nat, .text 12 5]

def datesFrame : Frame Nat String V := ⟨[0, 1, 2, 3, 4], ["s"], dates.map fun v => [v]⟩

theorem ser_shows : (ser [1, 1, 2, 1] dates).Shows datesFrame :=
  ⟨⟨rfl, by decide⟩, ⟨datesFrame, [1, 1, 2, 1], [1], ⟨rfl, by decide⟩, rfl, rfl,
    ⟨by decide, by decide, by decide, by decide⟩, rfl, Or.inl rfl, Or.inl rfl, by decide, by decide⟩, Or.inr rfl, Or.inr rfl⟩

-- `pd.to_datetime(s)`, every value month first, with and without joined blocks
example (dyn : Bool) (cpu : Nat) : ((ser [1, 1, 2, 1] dates).convertDates ⟨4, 1, 1⟩ dyn cpu .raise .nat isna guess parse none).bind (·.toPandas .nat)
    = some ⟨[0, 1, 2, 3, 4], ["s"], [[.day 1 2], [.nat], [.day 3 31], [.nat], [.day 12 5]]⟩ := by
  rw [(C94_dates_guessed_partial ⟨4, 1, 1⟩ dyn cpu .raise .nat isna guess parse (some true) _ datesFrame ser_shows (by decide)
    (by intro a _ h q; simp only [isna, decide_eq_true_eq] at h; subst h; cases q <;> rfl) (by simp)).2]
  decide

-- `pd.to_datetime(s, format="%d/%m", errors=…)`: `3/31` is no day
example (dyn : Bool) (cpu : Nat) :
    (((ser [1, 1, 2, 1] dates).convertDates ⟨4, 1, 1⟩ dyn cpu .raise .nat isna guess parse (some false)).bind (·.toPandas .nat) = none) ∧
    ((ser [1, 1, 2, 1] dates).convertDates ⟨4, 1, 1⟩ dyn cpu .coerce .nat isna guess parse (some false)).bind (·.toPandas .nat)
      = some ⟨[0, 1, 2, 3, 4], ["s"], [[.day 2 1], [.nat], [.nat], [.nat], [.day 5 12]]⟩ := by
  rw [(C94_dates_with_format_partial ⟨4, 1, 1⟩ dyn cpu .raise .nat isna guess parse false _ datesFrame ser_shows (by simp)).2,
    (C94_dates_with_format_partial ⟨4, 1, 1⟩ dyn cpu .coerce .nat isna guess parse false _ datesFrame ser_shows (by simp)).2]
  decide

-- an elementwise function that raises for one value, and one that does not
example (dyn : Bool) (cpu : Nat) :
    ((ser [1, 1, 2, 1] dates).mapBlocksM ⟨4, 1, 1⟩ dyn cpu (Frame.mapCellsM (parse (some false)))).bind (·.toPandas .nat) = none ∧
    ((ser [1, 1, 2, 1] dates).mapBlocksM ⟨4, 1, 1⟩ dyn cpu (Frame.mapCellsM (parse (some true)))).bind (·.toPandas .nat)
      = some ⟨[0, 1, 2, 3, 4], ["s"], [[.day 1 2], [.nat], [.day 3 31], [.nat], [.day 12 5]]⟩ := by
  haveI : Nonempty V := ⟨.nat⟩
  rw [(C94_elementwise ⟨4, 1, 1⟩ dyn cpu .nat (parse (some false)) _ datesFrame ser_shows).2,
    (C94_elementwise ⟨4, 1, 1⟩ dyn cpu .nat (parse (some true)) _ datesFrame ser_shows).2]
  decide

-- `errors="ignore"` where every value can be converted
example (dyn : Bool) (cpu : Nat) :
    ((ser [1, 1, 2, 1] dates).convert ⟨4, 1, 1⟩ dyn cpu .ignore .nat (parse (some true))).bind (·.toPandas .nat)
      = some ⟨[0, 1, 2, 3, 4], ["s"], [[.day 1 2], [.nat], [.day 3 31], [.nat], [.day 12 5]]⟩ := by
  rw [(C94_convert_partial ⟨4, 1, 1⟩ dyn cpu .ignore .nat (parse (some true)) _ datesFrame ser_shows (fun _ => Or.inl (by decide))).2]
  decide

/-- **C94, violated.** `errors="ignore"`: pandas returns the input as it is, Modin converts the blocks in which all values can be
    converted. -/
theorem C94_ignore_by_block :
    ((ser [1, 1] [.text 1 2, .text 13 1]).convert ⟨4, 1, 1⟩ false 4 .ignore .nat (parse (some true))).bind (·.toPandas .nat)
      = some ⟨[0, 1], ["s"], [[.day 1 2], [.text 13 1]]⟩ ∧
    Frame.convert .ignore .nat (parse (some true)) (⟨[0, 1], ["s"], [[.text 1 2], [.text 13 1]]⟩ : Frame Nat String V)
      = some ⟨[0, 1], ["s"], [[.text 1 2], [.text 13 1]]⟩ := by decide +kernel

/-- **C94, violated.** `pd.to_datetime` without a format: pandas takes the first value's format for all and raises at `13/1`; Modin,
    with the second value in another block, reads it the other way round and returns a day. -/
theorem C94_format_guessed_by_block :
    ((ser [1, 1] [.text 1 2, .text 13 1]).convertDates ⟨4, 1, 1⟩ false 4 .raise .nat isna guess parse none).bind (·.toPandas .nat)
      = some ⟨[0, 1], ["s"], [[.day 1 2], [.day 1 13]]⟩ ∧
    Frame.convertDates .raise .nat isna guess parse none (⟨[0, 1], ["s"], [[.text 1 2], [.text 13 1]]⟩ : Frame Nat String V) = none := by
  decide +kernel

/-- **C94, violated.** The other way round: after `13/1` pandas reads `1/2` as the first of February, Modin as the second of January. -/
theorem C94_format_changes_in_column :
    ((ser [1, 1] [.text 13 1, .text 1 2]).convertDates ⟨4, 1, 1⟩ false 4 .raise .nat isna guess parse none).bind (·.toPandas .nat)
      = some ⟨[0, 1], ["s"], [[.day 1 13], [.day 1 2]]⟩ ∧
    Frame.convertDates .raise .nat isna guess parse none (⟨[0, 1], ["s"], [[.text 13 1], [.text 1 2]]⟩ : Frame Nat String V)
      = some ⟨[0, 1], ["s"], [[.day 1 13], [.day 2 1]]⟩ := by decide +kernel

end ConvertDemo
