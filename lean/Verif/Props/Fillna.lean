import Verif.Lemmas.Fillna

variable {ι κ α : Type}

/-- **C60.** `df.fillna(v)` and `df.fillna(v, limit=n, axis=...)` with a scalar: pandas' result, whatever the partitioning, the plan
    and the state of the cached labels.  With a limit the missing cells are counted over whole columns (rows). -/
theorem C60_fillna_scalar [DecidableEq ι] [DecidableEq κ] (le : ι → ι → Bool) (cfg : Cfg) (hp : 1 ≤ cfg.nPartitions)
    (hmr : 1 ≤ cfg.minRow) (hmc : 1 ≤ cfg.minCol) (dyn : Bool) (cpu : Nat) (nan : α) (isna : α → Bool) (v : α) (limit : Option Nat)
    (hlim : ∀ n, limit = some n → 0 < n) (axis0 : Bool) (m : LFrame ι κ α) (df : Frame ι κ α) (h : m.Shows df) :
    ∃ m', m.fillna le cfg dyn cpu nan isna (.scalar v) (limit.map Int.ofNat) axis0 = some m' ∧
      m'.Shows (df.fillScalar isna v limit axis0) ∧ m'.toPandas nan = some (df.fillScalar isna v limit axis0) := by
  suffices ∃ m', m.fillScalar cfg dyn cpu isna v limit axis0 = some m' ∧ m'.Shows (df.fillScalar isna v limit axis0) by
    obtain ⟨m', e1, e2⟩ := this
    refine ⟨m', ?_, e2, (e2.observed nan).1⟩
    unfold LFrame.fillna
    cases limit with
    | none => simpa using e1
    | some n => 
      have := hlim n rfl
      simp only [Option.map_some, Option.getD_some]
      rw [if_neg (by simp; omega)]
      exact e1
  unfold LFrame.fillScalar
  cases limit with
  | none => exact mapCells_shows cfg dyn cpu _ h
  | some n =>
    have hf := fillFirst_length isna v n
    cases axis0
    · exact fold_lines_shows cfg hp hmc h (F := fun b => b.mapRows id (fillFirst isna v n))
        (rowLocal_mapRows id _ fun cs r e => by rw [hf, e]; rfl)
        (fun a b => Frame.mapRows_ilocRows _ _ _ _ _) (fun _ _ => rfl) rfl rfl
    · exact fold_rows_shows cfg hp hmr h (F := fun b => b.mapColumns id (fillFirst isna v n))
        (columnLocal_mapColumns id _ fun cs r e => by rw [hf, e]; rfl)
        (fun a b => h.wf.mapColumns_ilocCols _ _ (fun cs r e => by rw [hf, e]; rfl) _ _) (fun _ _ => rfl) rfl rfl

/-- **C60.** The meaning of the limit: a missing cell is replaced when fewer than `n` cells before it in its column were missing;
    every other cell stays. -/
theorem C60_limit_cells (isna : α → Bool) (v : α) (n : Nat) (c : List α) (i : Nat) :
    (fillFirst isna v n c)[i]? = c[i]?.map fun x => if isna x && decide ((c.take i).countP isna < n) then v else x := by
  induction c generalizing n i with
  | nil => cases n <;> simp [fillFirst]
  | cons x xs ih =>
    cases n with
    | zero => cases h : (x :: xs)[i]? <;> simp [fillFirst, h]
    | succ n =>
      unfold fillFirst
      cases hx : isna x with
      | true =>
        simp only [↓reduceIte]
        cases i with
        | zero => simp [hx]
        | succ i =>
          simp [ih, hx]
      | false =>
        simp only [Bool.false_eq_true, ↓reduceIte]
        cases i with
        | zero => simp [hx]
        | succ i =>
          simp [ih, hx]

/-- **C60.** `df.fillna({name: value})` and `df.fillna(series)`: every column named is filled with its own value, in whichever
    block it lies.  Missing: without a limit the columns' names in the blocks must be up to date (`C60_fillna_dict_stale`). -/
theorem C60_fillna_dict_partial [DecidableEq ι] [DecidableEq κ] (le : ι → ι → Bool) (cfg : Cfg) (hp : 1 ≤ cfg.nPartitions)
    (hmr : 1 ≤ cfg.minRow) (dyn : Bool) (cpu : Nat) (nan : α) (isna : α → Bool) (d : List (κ × α)) (limit : Option Nat)
    (hlim : ∀ n, limit = some n → 0 < n) (m : LFrame ι κ α) (df : Frame ι κ α) (h : m.Shows df)
    (hst : limit = none → m.defColumns = false) :
    ∃ m', m.fillna le cfg dyn cpu nan isna (.named d) (limit.map Int.ofNat) true = some m' ∧
      m'.Shows (df.fillDict isna d limit) ∧ m'.toPandas nan = some (df.fillDict isna d limit) := by
  suffices ∃ m', m.fillDict cfg dyn cpu isna d limit true = some m' ∧ m'.Shows (df.fillDict isna d limit) by
    obtain ⟨m', e1, e2⟩ := this
    refine ⟨m', ?_, e2, (e2.observed nan).1⟩
    unfold LFrame.fillna
    cases limit with
    | none => simpa using e1
    | some n => 
      have := hlim n rfl
      simp only [Option.map_some, Option.getD_some]
      rw [if_neg (by simp; omega)]
      exact e1
  unfold LFrame.fillDict
  cases limit with
  | none => exact mapCellsL_shows cfg dyn cpu _ h (Or.inr fun _ _ => rfl) (Or.inl (hst rfl))
  | some n =>
    have hf : ∀ (k : κ) (c : List α), (match valueFor d k with
        | some v => fillFirst isna v n c
        | none => c).length = c.length := by
      intro k c
      cases valueFor d k with
      | none => rfl
      | some v => exact fillFirst_length isna v n c
    exact fold_rows_shows cfg hp hmr h (F := fun b => b.fillDict isna d (some n)) (columnLocal_mapNamed hf)
      (fun a b => h.wf.mapNamed_ilocCols hf a b) (fun _ _ => rfl) rfl rfl

/-- **C60.** `df.fillna(other)` with a frame: every missing cell becomes the cell of `other` with the same row and column label.
    The columns of `other` are distinct (pandas raises otherwise unless they are those of `df`).
    Missing: row labels that differ from those of `df` must be distinct and `df`'s must be sorted
    (`C60_fillna_frame_misplaces`); `DynamicPartitioning` off. -/
theorem C60_fillna_frame_partial [DecidableEq ι] [DecidableEq κ] (le : ι → ι → Bool) (cfg : Cfg) (hp : 1 ≤ cfg.nPartitions)
    (hmr : 1 ≤ cfg.minRow) (cpu : Nat) (nan : α) (isna : α → Bool) (axis0 : Bool) (m v : LFrame ι κ α) (df other : Frame ι κ α)
    (h : m.Shows df) (hv : v.Shows other) (_hcols : other.columns.Nodup)
    (hl : other.index = df.index ∨ (df.index.Pairwise (le · ·) ∧ other.index.Nodup)) :
    ∃ m', m.fillna le cfg false cpu nan isna (.frame v) none axis0 = some m' ∧ m'.Shows (df.fillFrame nan isna other) ∧
      m'.toPandas nan = some (df.fillFrame nan isna other) := by
  obtain ⟨m', e1, e2⟩ := fillFrame_shows le cfg hp hmr nan isna h hv hl
  exact ⟨m', by simpa [LFrame.fillna] using e1, e2, (e2.observed nan).1⟩

/-- **C60.** A list or tuple, no value at all, a limit below 1, and a dictionary with `axis=1` raise. -/
theorem C60_fillna_rejects [DecidableEq ι] [DecidableEq κ] (le : ι → ι → Bool) (cfg : Cfg) (dyn : Bool) (cpu : Nat) (nan : α)
    (isna : α → Bool) (axis0 : Bool) (m : LFrame ι κ α) :
    (∀ limit, m.fillna le cfg dyn cpu nan isna .listLike limit axis0 = none) ∧
    (∀ limit, m.fillna le cfg dyn cpu nan isna .missing limit axis0 = none) ∧
    (∀ value (n : Int), n ≤ 0 → m.fillna le cfg dyn cpu nan isna value (some n) axis0 = none) ∧
    (∀ d limit, m.fillna le cfg dyn cpu nan isna (.named d) limit false = none) := by
  refine ⟨?_, ?_, ?_, ?_⟩
  · intro limit; unfold LFrame.fillna; split <;> rfl
  · intro limit; unfold LFrame.fillna; split <;> rfl
  · intro value n hn
    unfold LFrame.fillna
    rw [if_pos (by simpa using hn)]
  · intro d limit; unfold LFrame.fillna; split <;> rfl

/-- **C60** fails when the labels differ and those of `df` are not sorted: `pd.DataFrame({"a": [None, 20]}, index=[2, 1])
    .fillna(pd.DataFrame({"a": [5, 6]}, index=[1, 2]))`.  pandas gives 6 and 20 under 2 and 1.  Modin sorts the rows to align them but
    keeps the old row labels: `df.iloc[0]` shows 20 and putting the frame together fails its consistency check. -/
theorem C60_fillna_frame_misplaces :
    let df : Frame Nat String (Option Int) := ⟨[2, 1], ["a"], [[none], [some 20]]⟩
    let other : Frame Nat String (Option Int) := ⟨[1, 2], ["a"], [[some 5], [some 6]]⟩
    let m : LFrame Nat String (Option Int) := ⟨⟨df.cut [2] [1], some [2, 1], some ["a"], none, none⟩, false, false⟩
    let v : LFrame Nat String (Option Int) := ⟨⟨other.cut [2] [1], some [1, 2], some ["a"], none, none⟩, false, false⟩
    let out := m.fillna (fun a b => decide (a ≤ b)) ⟨4, 32, 32⟩ false 4 none (·.isNone) (.frame v) none true
    (df.fillFrame none (·.isNone) other).rows = [[some 6], [some 20]] ∧
    out.map (·.index) = some (some [2, 1]) ∧ (out.map fun r => r.parts.flatten.flatMap (·.rows)) = some [[some 20], [some 6]] ∧
    (out.bind (·.toPandas none)) = none := by
  decide +kernel

/-- **C60** fails when new column names are still pending: after `df.columns = ["b"]` on a frame with the column "a",
    `df.fillna({"b": 0})` leaves the column unfilled. -/
theorem C60_fillna_dict_stale :
    let df : Frame Nat String (Option Int) := ⟨[0, 1], ["b"], [[none], [some 2]]⟩
    let m : LFrame Nat String (Option Int) :=
      ⟨⟨(⟨[0, 1], ["a"], [[none], [some 2]]⟩ : Frame Nat String (Option Int)).cut [2] [1], some [0, 1], some ["b"], none, none⟩, false, true⟩
    let out := m.fillna (fun a b => decide (a ≤ b)) ⟨4, 32, 32⟩ false 4 none (·.isNone) (.named [("b", some 0)]) none true
    (df.fillDict (·.isNone) [("b", some 0)] none).rows = [[some 0], [some 2]] ∧
    ((out.bind (·.toPandas none)).map (·.rows)) = some [[none], [some 2]] := by
  decide +kernel

def fillDemo : Frame Nat String (Option Int) :=
  ⟨[1, 2, 3], ["a", "b", "c"], [[none, some 2, none], [none, some 3, none], [some 4, none, none]]⟩

/-- Non-vacuity: a frame of four blocks; a scalar with a limit crosses a block boundary; a dictionary names columns of two blocks;
    a frame with other labels. -/
example :
    let m : LFrame Nat String (Option Int) := ⟨⟨fillDemo.cut [1, 2] [2, 1], some [1, 2, 3], none, none, none⟩, false, false⟩
    let other : Frame Nat String (Option Int) := ⟨[3, 1], ["c", "z", "a"], [[some 33, some 0, some 31], [some 13, some 0, none]]⟩
    let v : LFrame Nat String (Option Int) := ⟨⟨other.cut [2] [1, 2], none, some ["c", "z", "a"], none, none⟩, false, false⟩
    let le := fun a b : Nat => decide (a ≤ b)
    let rows := fun (o : Option (LFrame Nat String (Option Int))) => (o.bind (·.toPandas none)).map (·.rows)
    fillDemo.WF ∧ fillDemo.IsCut [1, 2] [2, 1] ∧ fillDemo.index.Pairwise (le · ·) ∧ other.index.Nodup ∧
    rows (m.fillna le ⟨4, 1, 1⟩ false 4 none (·.isNone) (.scalar (some 0)) none true) =
      some [[some 0, some 2, some 0], [some 0, some 3, some 0], [some 4, some 0, some 0]] ∧
    rows (m.fillna le ⟨4, 1, 1⟩ false 4 none (·.isNone) (.scalar (some 0)) (some 2) true) =
      some [[some 0, some 2, some 0], [some 0, some 3, some 0], [some 4, some 0, none]] ∧
    rows (m.fillna le ⟨4, 1, 1⟩ false 4 none (·.isNone) (.scalar (some 0)) (some 1) false) =
      some [[some 0, some 2, none], [some 0, some 3, none], [some 4, some 0, none]] ∧
    rows (m.fillna le ⟨4, 1, 1⟩ true 2 none (·.isNone) (.named [("c", some 7), ("a", some 8)]) none true) =
      some [[some 8, some 2, some 7], [some 8, some 3, some 7], [some 4, none, some 7]] ∧
    rows (m.fillna le ⟨4, 1, 1⟩ false 4 none (·.isNone) (.named [("c", some 7), ("a", some 8)]) (some 1) true) =
      some [[some 8, some 2, some 7], [none, some 3, none], [some 4, none, none]] ∧
    rows (m.fillna le ⟨4, 1, 1⟩ false 4 none (·.isNone) (.frame v) none true) =
      some [[none, some 2, some 13], [none, some 3, none], [some 4, none, some 33]] := by
  refine ⟨⟨rfl, by decide⟩, ⟨by decide, by decide, by decide, by decide⟩, by decide, by decide, ?_, ?_, ?_, ?_, ?_, ?_⟩ <;>
    decide +kernel
