import Verif.Lemmas.Unstack
/-
C82: `stack`, `unstack` and `pivot`.
-/

variable {ι κ κ' α A B : Type}

/-- **C82 (`stack`).**  For every frame with one level of column labels, however cut and whatever labels are still to be written:
    `stack` gives the cells row by row, each labelled by its row and its column, without the missing ones if `dropna` asks so;
    repeated row or column labels do no harm. -/
theorem C82_stack [DecidableEq ι] [DecidableEq κ] (cfg : Cfg) (hmc : 1 ≤ cfg.minCol) (nan : α) (isna : α → Bool) (drop : Bool)
    (m : LFrame ι κ α) (df : Frame ι κ α) (h : m.Shows df) :
    (m.stack cfg isna drop).bind (·.toPandas nan) = some (df.stack isna drop) := by
  obtain ⟨m', e1, e2⟩ := stack_shows cfg hmc isna drop h
  rw [e1, Option.bind_some, (e2.observed nan).1]

/-- **C82 (`unstack`).**  For every frame with one level of row labels and of column labels, neither repeated, however cut and
    whatever labels are still to be written: although each row partition is unstacked for itself, which gives the cells partition
    by partition, the result has them column by column like pandas'.  Missing (hence `_partial`): repeated column labels, for which
    pandas has an answer (`C82_unstack_repeated_columns`); repeated row labels of a frame with one column, for which it has none
    (`C82_unstack_one_column`). -/
theorem C82_unstack_partial [DecidableEq ι] [DecidableEq κ] (cfg : Cfg) (hp : 1 ≤ cfg.nPartitions) (hmr : 1 ≤ cfg.minRow)
    (hmc : 1 ≤ cfg.minCol) (nan : α) (m : LFrame ι κ α) (df : Frame ι κ α) (h : m.Shows df) (hc : df.columns.Nodup)
    (hi : df.index.Nodup) : (m.unstackFlat cfg nan).bind (·.toPandas nan) = df.unstackFlat := by
  obtain ⟨m', e1, e2⟩ := unstackFlat_shows cfg hp hmr hmc nan h hc hi
  rw [e1, Option.bind_some, (e2.observed nan).1]
  exact (if_pos hi).symm

/-- **C82 (`unstack` refuses).**  Repeated row labels are refused as pandas refuses them, wherever in the frame they are, if the
    frame has two columns or more. -/
theorem C82_unstack_refused [DecidableEq ι] [DecidableEq κ] (cfg : Cfg) (hmc : 1 ≤ cfg.minCol) (nan : α) (m : LFrame ι κ α)
    (df : Frame ι κ α) (h : m.Shows df) (hc : df.columns.Nodup) (h2 : 2 ≤ df.columns.length) (hi : ¬df.index.Nodup) :
    m.unstackFlat cfg nan = none ∧ df.unstackFlat = none :=
  ⟨unstackFlat_refused cfg hmc nan h hc h2 hi, if_neg hi⟩

/-- **C82 (`unstack` of a level).**  For every frame with two levels of row labels, however cut and whatever labels are still to be
    written, and either level: `unstack` gives pandas' frame, and raises when pandas does (repeated row labels). -/
theorem C82_unstack_level [DecidableEq A] [DecidableEq B] [DecidableEq κ] (cfg : Cfg) (hp : 1 ≤ cfg.nPartitions)
    (hmr : 1 ≤ cfg.minRow) (leA : A → A → Bool) (leB : B → B → Bool) (nan fill : α) (m : LFrame (A × B) κ α) (df : Frame (A × B) κ α)
    (h : m.Shows df) :
    (m.unstackInner cfg leA leB fill Prod.mk).bind (·.toPandas nan) = df.unstackInner leA leB fill Prod.mk ∧
    (m.unstackOuter cfg leA leB fill Prod.mk).bind (·.toPandas nan) = df.unstackOuter leA leB fill Prod.mk := by
  by_cases hn : df.index.Nodup
  · obtain ⟨m1, e1, e2⟩ := unstackInner_shows cfg hp hmr leA leB fill (Prod.mk (α := κ) (β := B)) h hn
    obtain ⟨m2, e3, e4⟩ := unstackOuter_shows cfg hp hmr leA leB fill (Prod.mk (α := κ) (β := A)) h hn
    rw [e1, e3, Option.bind_some, Option.bind_some, (e2.observed nan).1, (e4.observed nan).1]
    exact ⟨(if_pos hn).symm, (if_pos (swapped_nodup.2 hn)).symm⟩
  · rw [unstackInner_refused cfg leA leB fill _ h hn, unstackOuter_refused cfg leA leB fill _ h hn]
    exact ⟨(if_neg hn).symm, (if_neg fun e => hn (swapped_nodup.1 e)).symm⟩

/-- the `values` argument of `pivot` names columns other than the two used as labels, each once; and not a list of less than two -/
def PivotValues.fits [DecidableEq κ] (i c : κ) (all : List κ) : PivotValues κ → Prop
  | .missing => (PivotValues.missing.labels i c all).length ≠ 1
  | .column v => v ∈ all ∧ v ≠ i ∧ v ≠ c
  | .columns vs => vs.Nodup ∧ (∀ v ∈ vs, v ∈ all ∧ v ≠ i ∧ v ≠ c) ∧ 2 ≤ vs.length

/-- the argument is a list, or no other column's label is a part of it (as a text) -/
def KeyArg.Precise [DecidableEq κ] (inLabel : κ → κ → Option Bool) (all : List κ) (arg : KeyArg κ) : Prop :=
  arg.isList = true ∨ ∀ v ∈ all, inLabel v arg.label = some (decide (v = arg.label))

/-- **C82 (`pivot`).**  For every frame with distinct column labels, however cut and whatever labels are still to be written, every
    two of its columns as row and column labels, and other columns to spread out: `pivot` gives pandas' frame, and raises when
    pandas does (a pair of labels that repeats).  Missing (hence `_partial`): `values` left out and another column's label being a
    part of `index` or `columns` (`C82_pivot_substring`), or a single column being left (`C82_pivot_one_column`); lists of one
    (`C82_pivot_list_of_one`) or of no column (`C82_pivot_empty_list`). -/
theorem C82_pivot_partial [DecidableEq ι] [DecidableEq κ] [DecidableEq α] (cfg : Cfg) (hp : 1 ≤ cfg.nPartitions)
    (hmr : 1 ≤ cfg.minRow) (hmc : 1 ≤ cfg.minCol) (known : Nat → Nat → Bool × Bool) (inLabel : κ → κ → Option Bool) (le : α → α → Bool)
    (nan : α) (index columns : KeyArg κ) (values : PivotValues κ) (m : LFrame ι κ α) (df : Frame ι κ α) (h : m.Shows df)
    (hn : df.columns.Nodup) (hi : index.label ∈ df.columns) (hc : columns.label ∈ df.columns) (hic : index.label ≠ columns.label)
    (hv : values.fits index.label columns.label df.columns)
    (hin : values = .missing → index.Precise inLabel df.columns ∧ columns.Precise inLabel df.columns) :
    (m.pivot cfg known inLabel le nan index columns values).bind (·.toPandas nan) =
      df.pivot le nan index.label columns.label values := by
  have hom : ∀ arg : KeyArg κ, arg.Precise inLabel df.columns → ∀ v ∈ df.columns, arg.omits inLabel v = some (decide (v ≠ arg.label)) := by
    intro arg ha v hv
    unfold KeyArg.omits
    rcases ha with ha | ha
    · rw [if_pos ha]
    · by_cases hl : arg.isList = true
      · rw [if_pos hl]
      · rw [if_neg hl, ha v hv]; simp
  have hlab : pivotLabels inLabel index columns m.getColumns values = some (values.labels index.label columns.label df.columns) := by
    rw [h.getColumns]
    cases values with
    | missing =>
      obtain ⟨h1, h2⟩ := hin rfl
      unfold pivotLabels
      simp only
      rw [filterPy_some (hom index h1), Option.bind_some,
        filterPy_some (fun v hv => hom columns h2 v (List.mem_filter.1 hv).1), List.filter_filter]
      unfold PivotValues.labels
      simp only [Option.some.injEq]
      apply List.filter_congr
      intro v _
      rw [Bool.and_comm]
    | column v => rfl
    | columns vs => rfl
  have hfit : (values.labels index.label columns.label df.columns).Nodup ∧
      (∀ v ∈ values.labels index.label columns.label df.columns, v ∈ df.columns ∧ v ≠ index.label ∧ v ≠ columns.label) ∧
      (values.labels index.label columns.label df.columns = [] →
        (df.columns.filter fun k => decide (k ≠ index.label) && decide (k ≠ columns.label)) = []) ∧
      (spreadLabel (values.labels index.label columns.label df.columns).length : κ → α → Option κ × α) = values.label := by
    cases values with
    | missing =>
      refine ⟨hn.sublist List.filter_sublist, ?_, fun h0 => h0, ?_⟩
      · intro v hv'
        have := List.mem_filter.1 hv'
        simp only [Bool.and_eq_true, decide_eq_true_eq] at this
        exact this
      · funext k b
        unfold spreadLabel
        rw [if_neg hv]
        rfl
    | column v =>
      refine ⟨by simp [PivotValues.labels], ?_, ?_, ?_⟩
      · intro w hw
        rw [List.mem_singleton.1 hw]
        exact hv
      · intro h0
        cases h0
      · rfl
    | columns vs =>
      obtain ⟨h1, h2, h3⟩ := hv
      refine ⟨h1, h2, ?_, ?_⟩
      · intro h0
        have h0 : vs = [] := h0
        rw [h0] at h3
        simp at h3
      · funext k b
        unfold spreadLabel
        rw [if_neg (by show vs.length ≠ 1; omega)]
        rfl
  obtain ⟨f1, f2, f3, f4⟩ := hfit
  unfold LFrame.pivot
  rw [hlab, Option.bind_some, pivotCompiled_spec cfg hp hmr hmc known le nan h hn hi hc hic f1 f2 f3, f4]
  exact (pivot_eq le nan hn hi hc hic values (fun v hv => (f2 v hv).1)).symm

namespace UnstackDemo

def cfg : Cfg := ⟨4, 1, 1⟩
def le : Int → Int → Bool := fun a b => decide (a ≤ b)

/-- three rows, two columns; -1 is missing -/
def df : Frame Int Int Int := ⟨[10, 20, 30], [1, 2], [[5, -1], [6, 7], [-1, 8]]⟩
def m : LFrame Int Int Int := ⟨⟨df.cut [2, 1] [1, 1], none, none, none, none⟩, false, false⟩
theorem m_shows : m.Shows df :=
  represents_shows (m := ⟨df.cut [2, 1] [1, 1], none, none, none, none⟩)
    ⟨by constructor <;> decide, ⟨[2, 1], [1, 1], by constructor <;> decide, rfl, Or.inl rfl, Or.inl rfl⟩, Or.inl rfl, Or.inl rfl⟩

example : (m.stack cfg (· == -1) true).bind (·.toPandas (-1)) =
    some ⟨[(10, 1), (20, 1), (20, 2), (30, 2)], [()], [[5], [6], [7], [8]]⟩ := by
  rw [C82_stack cfg (by decide) (-1) _ _ m df m_shows]; decide +kernel

example : (m.unstackFlat cfg (-1)).bind (·.toPandas (-1)) =
    some ⟨[(1, 10), (1, 20), (1, 30), (2, 10), (2, 20), (2, 30)], [()], [[5], [6], [-1], [-1], [7], [8]]⟩ := by
  rw [C82_unstack_partial cfg (by decide) (by decide) (by decide) (-1) m df m_shows (by decide) (by decide)]; decide +kernel

/-- a row label repeated across the partitions -/
def rep : Frame Int Int Int := ⟨[10, 20, 10], [1, 2], [[5, -1], [6, 7], [-1, 8]]⟩
def mrep : LFrame Int Int Int := ⟨⟨rep.cut [2, 1] [1, 1], none, none, none, none⟩, false, false⟩
theorem mrep_shows : mrep.Shows rep :=
  represents_shows (m := ⟨rep.cut [2, 1] [1, 1], none, none, none, none⟩)
    ⟨by constructor <;> decide, ⟨[2, 1], [1, 1], by constructor <;> decide, rfl, Or.inl rfl, Or.inl rfl⟩, Or.inl rfl, Or.inl rfl⟩
example : mrep.unstackFlat cfg (-1) = none :=
  (C82_unstack_refused cfg (by decide) (-1) mrep rep mrep_shows (by decide) (by decide) (by decide)).1

/-- **A repeated column label**: pandas answers, modin raises if there are two row partitions. -/
def twin : Frame Int Int Int := ⟨[10, 20], [1, 1], [[5, 6], [7, 8]]⟩
theorem C82_unstack_repeated_columns :
    (LFrame.unstackFlat cfg (-1) ⟨⟨twin.cut [1, 1] [2], none, none, none, none⟩, false, false⟩).isNone = true ∧
    twin.unstackFlat = some ⟨[(1, 10), (1, 20), (1, 10), (1, 20)], [()], [[5], [7], [6], [8]]⟩ := by decide +kernel

/-- **Repeated row labels of a frame with one column**: pandas refuses them, modin does only within one row partition. -/
def one : Frame Int Int Int := ⟨[10, 10], [1], [[5], [6]]⟩
theorem C82_unstack_one_column :
    ((LFrame.unstackFlat cfg (-1) ⟨⟨one.cut [1, 1] [1], none, none, none, none⟩, false, false⟩).bind (·.toPandas (-1))) =
      some ⟨[(1, 10), (1, 10)], [()], [[5], [6]]⟩ ∧
    (LFrame.unstackFlat cfg (-1) ⟨⟨one.cut [2] [1], none, none, none, none⟩, false, false⟩).isNone = true ∧
    one.unstackFlat = none := by decide +kernel

/-- two levels of row labels -/
def two : Frame (Int × Int) Int Int := ⟨[(1, 8), (2, 9), (1, 9)], [1, 2], [[5, 50], [6, 60], [7, 70]]⟩
def mtwo : LFrame (Int × Int) Int Int := ⟨⟨two.cut [2, 1] [1, 1], none, none, none, none⟩, false, false⟩
theorem mtwo_shows : mtwo.Shows two :=
  represents_shows (m := ⟨two.cut [2, 1] [1, 1], none, none, none, none⟩)
    ⟨by constructor <;> decide, ⟨[2, 1], [1, 1], by constructor <;> decide, rfl, Or.inl rfl, Or.inl rfl⟩, Or.inl rfl, Or.inl rfl⟩
example : (mtwo.unstackInner cfg le le (-1) Prod.mk).bind (·.toPandas (-1)) =
    some ⟨[1, 2], [(1, 8), (1, 9), (2, 8), (2, 9)], [[5, 7, 50, 70], [-1, 6, -1, 60]]⟩ := by
  rw [(C82_unstack_level cfg (by decide) (by decide) le le (-1) (-1) mtwo two mtwo_shows).1]; decide +kernel
example : (mtwo.unstackOuter cfg le le (-1) Prod.mk).bind (·.toPandas (-1)) =
    some ⟨[8, 9], [(1, 1), (1, 2), (2, 1), (2, 2)], [[5, -1, 50, -1], [7, 6, 70, 60]]⟩ := by
  rw [(C82_unstack_level cfg (by decide) (by decide) le le (-1) (-1) mtwo two mtwo_shows).2]; decide +kernel

/-- `v in k` for texts, written as lists of characters -/
def inText (v k : List Nat) : Option Bool := some ((List.range (k.length + 1)).any fun s => (k.drop s).take v.length == v)

/-- the columns "ab", "cd", "x" and "y" -/
def long : Frame Int (List Nat) Int :=
  ⟨[0, 1, 2], [[1, 2], [3, 4], [7], [8]], [[10, 20, 1, 5], [10, 21, 2, 6], [11, 20, 3, 7]]⟩
def mlong : LFrame Int (List Nat) Int := ⟨⟨long.cut [2, 1] [1, 3], none, none, none, none⟩, false, false⟩
theorem mlong_shows : mlong.Shows long :=
  represents_shows (m := ⟨long.cut [2, 1] [1, 3], none, none, none, none⟩)
    ⟨by constructor <;> decide, ⟨[2, 1], [1, 3], by constructor <;> decide, rfl, Or.inl rfl, Or.inl rfl⟩, Or.inl rfl, Or.inl rfl⟩

example : (mlong.pivot cfg (fun _ _ => (true, true)) inText le (-1) ⟨[1, 2], false⟩ ⟨[3, 4], false⟩ .missing).bind (·.toPandas (-1)) =
    some ⟨[10, 11], [(some [7], 20), (some [7], 21), (some [8], 20), (some [8], 21)], [[1, 2, 5, 6], [3, -1, 7, -1]]⟩ := by
  rw [C82_pivot_partial cfg (by decide) (by decide) (by decide) _ inText le (-1) _ _ .missing mlong long mlong_shows (by decide)
    (by decide) (by decide) (by decide) (by unfold PivotValues.fits; decide) (fun _ => ⟨Or.inr (by decide), Or.inr (by decide)⟩)]
  decide +kernel

example : (mlong.pivot cfg (fun _ _ => (true, true)) inText le (-1) ⟨[1, 2], false⟩ ⟨[3, 4], false⟩ (.column [7])).bind (·.toPandas (-1)) =
    some ⟨[10, 11], [(none, 20), (none, 21)], [[1, 2], [3, -1]]⟩ := by
  rw [C82_pivot_partial cfg (by decide) (by decide) (by decide) _ inText le (-1) _ _ (.column [7]) mlong long mlong_shows (by decide)
    (by decide) (by decide) (by decide) (by unfold PivotValues.fits; decide) (fun h0 => by cases h0)]
  decide +kernel

/-- **`values` left out and a column whose label is a part of another**: the columns are "ab", "cd", "a" and "y"; the column "a"
    is lost, since `"a" in "ab"`. -/
def part : Frame Int (List Nat) Int :=
  ⟨[0, 1], [[1, 2], [3, 4], [1], [8], [9]], [[10, 20, 1, 5, 2], [11, 20, 3, 7, 4]]⟩
theorem C82_pivot_substring :
    ((LFrame.pivot cfg (fun _ _ => (true, true)) inText le (-1) ⟨[1, 2], false⟩ ⟨[3, 4], false⟩ .missing
      ⟨⟨part.cut [2] [5], none, none, none, none⟩, false, false⟩).bind (·.toPandas (-1))).map (·.columns) =
      some [(some [8], 20), (some [9], 20)] ∧
    (part.pivot le (-1) [1, 2] [3, 4] .missing).map (·.columns) = some [(some [1], 20), (some [8], 20), (some [9], 20)] := by
  decide +kernel

/-- the columns "ab", "cd" and "x" -/
def single : Frame Int (List Nat) Int := ⟨[0, 1], [[1, 2], [3, 4], [7]], [[10, 20, 1], [11, 20, 3]]⟩
def msingle : LFrame Int (List Nat) Int := ⟨⟨single.cut [2] [3], none, none, none, none⟩, false, false⟩

/-- **`values` left out and a single column left**: pandas' column labels have two levels, modin's one. -/
theorem C82_pivot_one_column :
    ((msingle.pivot cfg (fun _ _ => (true, true)) inText le (-1) ⟨[1, 2], false⟩ ⟨[3, 4], false⟩ .missing).bind
      (·.toPandas (-1))).map (·.columns) = some [(none, 20)] ∧
    (single.pivot le (-1) [1, 2] [3, 4] .missing).map (·.columns) = some [(some [7], 20)] := by decide +kernel

/-- **`values` a list of one column**: the same -/
theorem C82_pivot_list_of_one :
    ((mlong.pivot cfg (fun _ _ => (true, true)) inText le (-1) ⟨[1, 2], false⟩ ⟨[3, 4], false⟩ (.columns [[7]])).bind
      (·.toPandas (-1))).map (·.columns) = some [(none, 20), (none, 21)] ∧
    (long.pivot le (-1) [1, 2] [3, 4] (.columns [[7]])).map (·.columns) = some [(some [7], 20), (some [7], 21)] := by decide +kernel

/-- **`values` an empty list**: pandas' frame has no columns, modin spreads out all of them. -/
theorem C82_pivot_empty_list :
    ((mlong.pivot cfg (fun _ _ => (true, true)) inText le (-1) ⟨[1, 2], false⟩ ⟨[3, 4], false⟩ (.columns [])).bind
      (·.toPandas (-1))).map (·.columns.length) = some 4 ∧
    (long.pivot le (-1) [1, 2] [3, 4] (.columns [])).map (·.columns.length) = some 0 := by decide +kernel

end UnstackDemo
