import Verif.Lemmas.Query
/-
C64: `df.query(expr)` and `df.explode(columns)`.
-/

variable {ι κ α : Type}

theorem bandsOf_mem {rl : List Nat} {df b : Frame ι κ α} (h : b ∈ bandsOf rl df) : ∃ p ∈ sliceBounds rl, b = df.ilocRows p.1 p.2 := by
  obtain ⟨p, hp, rfl⟩ := List.mem_map.1 h
  exact ⟨p, hp, rfl⟩

/-- **C64, query.** If the value of the expression at a row depends on that row only, `query` keeps the rows where it is true, however
    the frame is divided, and raises if pandas does. -/
theorem C64_query_partial [DecidableEq ι] [DecidableEq κ] (cfg : Cfg) (hmc : 1 ≤ cfg.minCol) (o : QOps α) (env : κ → Option (QVal α))
    (fallback : LFrame ι κ α → Option (LFrame ι κ α)) (e : QExpr κ α) (he : e.Rowwise env) {m : LFrame ι κ α} {df : Frame ι κ α}
    (h : m.Shows df) :
    (∀ R, df.query o env e = some R → ∃ m', m.query cfg o env fallback e = some m' ∧ m'.Shows R) ∧
    (df.query o env e = none → m.query cfg o env fallback e = none) := by
  unfold LFrame.query
  rw [if_pos ((isRowWiseQuery_iff e).2 he.noCalls)]
  constructor
  · intro R hR
    unfold Frame.query at hR
    split at hR
    · rename_i xs hxs
      obtain ⟨h1, h2⟩ := eval_ilocRows o env h.wf e he hxs
      rw [Option.map_eq_some_iff] at hR
      obtain ⟨flags, hf, rfl⟩ := hR
      apply operation_shows h
      intro m1 hm1
      apply filterAxis_rows_spec cfg hmc hm1
      · rw [mapM_length2 hf, show xs.length = _ from h1, h.wf.rows_len]; rfl
      · intro a b
        unfold Frame.query
        rw [h2 a b]
        simp only [QVal.slice]
        rw [mapM_pySlice hf a b]
        rfl
    · cases hR
  · intro hn
    apply operation_none h
    intro m1 hm1
    apply filterAxis_rows_none cfg hm1
    intro rl cw hc
    obtain ⟨b0, hb0⟩ := List.exists_mem_of_ne_nil _ (bandsOf_ne hc.rl_ne df)
    obtain ⟨p0, _, rfl⟩ := bandsOf_mem hb0
    cases hv : e.eval o env df with
    | none =>
      refine ⟨_, hb0, ?_⟩
      unfold Frame.query
      rw [eval_ilocRows_none o env h.wf e he hv]
    | some v =>
      obtain ⟨h1, h2⟩ := eval_ilocRows o env h.wf e he hv
      cases v with
      | array xs => exact h1.elim
      | scalar x =>
        refine ⟨_, hb0, ?_⟩
        unfold Frame.query
        rw [h2]
        rfl
      | column xs =>
        unfold Frame.query at hn
        rw [hv] at hn
        simp only [Option.map_eq_none_iff] at hn
        obtain ⟨x, hx, hx2⟩ := mapM_none_mem hn
        have hcov := covers_lens rl xs (by rw [show xs.length = _ from h1, h.wf.rows_len]; exact hc.rl_sum.symm)
        rw [← hcov, List.mem_flatten] at hx
        obtain ⟨l, hl, hxl⟩ := hx
        obtain ⟨p, hp, rfl⟩ := List.mem_map.1 hl
        refine ⟨df.ilocRows p.1 p.2, List.mem_map.2 ⟨p, hp, rfl⟩, ?_⟩
        unfold Frame.query
        rw [h2]
        simp only [QVal.slice, Option.map_eq_none_iff]
        exact mapM_mem_none hxl hx2

/-- **C64, calls.** An expression in which a method is called is never evaluated on parts of the rows. -/
theorem C64_query_calls [DecidableEq ι] [DecidableEq κ] (cfg : Cfg) (o : QOps α) (env : κ → Option (QVal α))
    (fallback : LFrame ι κ α → Option (LFrame ι κ α)) (e : QExpr κ α) (he : e.Calls) (m : LFrame ι κ α) :
    m.query cfg o env fallback e = fallback m := by
  unfold LFrame.query
  rw [if_neg]
  intro h
  exact (isRowWiseQuery_iff e).1 h he

/-- **C64, explode.** `explode` makes of every row the rows pandas makes, under the same labels and in the same order, however the frame
    is divided, and raises if pandas does. -/
theorem C64_explode [DecidableEq ι] [DecidableEq κ] (cfg : Cfg) (hmc : 1 ≤ cfg.minCol) (items : α → List α) (columns : List κ)
    (num : Nat → ι) (ignore : Bool) {m : LFrame ι κ α} {df : Frame ι κ α} (h : m.Shows df) :
    (∀ R, df.explodeI items columns num ignore = some R → ∃ m', m.explode cfg items columns num ignore = some m' ∧ m'.Shows R) ∧
    (df.explodeI items columns num ignore = none → m.explode cfg items columns num ignore = none) := by
  unfold Frame.explodeI LFrame.explode
  constructor
  · intro R hR
    rw [Option.map_eq_some_iff] at hR
    obtain ⟨r, hr, rfl⟩ := hR
    obtain ⟨m', e1, e2⟩ := operation_shows h (op := fun m1 => m1.explode cfg (Frame.explode items columns)) (df' := r)
      fun m1 hm1 => explode_spec cfg hmc items columns hm1 hr
    rw [e1, Option.bind_some]
    cases ignore with
    | false => exact ⟨m', rfl, e2⟩
    | true =>
      obtain ⟨c, c1, c2⟩ := copy_shows e2
      simp only [↓reduceIte, c1, Option.bind_some]
      rw [shows_rowLens c2]
      apply setIndex_shows c2
      unfold Frame.setIndex
      rw [if_pos (by simp), e2.wf.rows_len]
  · intro hn
    rw [Option.map_eq_none_iff] at hn
    rw [operation_none h fun m1 hm1 => explode_spec_none cfg items columns hm1 hn]
    rfl

/-! ### instances: the columns are numbered, the cells are integers, 1 and 0 stand for true and false -/

def queryOps : QOps Int := ⟨fun x y => x == y, fun b => if b then 1 else 0, fun x => if x = 1 then some true else if x = 0 then some false else none⟩
def queryEnv : Nat → Option (QVal Int) := fun s => if s = 0 then some (.scalar 2) else if s = 1 then some (.array [5, 1, 7]) else none
def queryFrame : Frame Nat Nat Int := ⟨[10, 20, 30], [0, 1], [[1, 5], [3, 1], [5, 6]]⟩
def queryModin : LFrame Nat Nat Int := ⟨⟨queryFrame.cut [2, 1] [1, 1], none, none, none, none⟩, false, false⟩

theorem queryModin_shows : queryModin.Shows queryFrame :=
  ⟨⟨rfl, by decide⟩, ⟨queryFrame, [2, 1], [1, 1], ⟨rfl, by decide⟩, rfl, rfl,
    ⟨by decide, by decide, by decide, by decide⟩, rfl, Or.inl rfl, Or.inl rfl, fun _ => rfl, fun _ => rfl⟩, Or.inl ⟨rfl, rfl⟩, Or.inl ⟨rfl, rfl⟩⟩

/-- `a > @x and b in @vals` -/
def queryGood : QExpr Nat Int :=
  .bin (fun x y => x * y) (.bin (fun x y => if x > y then 1 else 0) (.name 0) (.var 0)) (.mem (.name 1) (.var 1))

example : queryFrame.query queryOps queryEnv queryGood = some ⟨[20], [0, 1], [[3, 1]]⟩ := by decide

example : ∃ m', queryModin.query ⟨4, 1, 1⟩ queryOps queryEnv (fun _ => none) queryGood = some m' ∧ m'.Shows ⟨[20], [0, 1], [[3, 1]]⟩ :=
  (C64_query_partial ⟨4, 1, 1⟩ (by decide) queryOps queryEnv _ queryGood
    ⟨⟨trivial, 2, rfl⟩, trivial, 1, [5, 1, 7], rfl, rfl⟩ queryModin_shows).1 _ (by decide)

/-- a column that is not there -/
example : queryModin.query ⟨4, 1, 1⟩ queryOps queryEnv (fun m => some m) (.name 7) = none :=
  (C64_query_partial ⟨4, 1, 1⟩ (by decide) queryOps queryEnv _ (.name 7) trivial queryModin_shows).2 (by decide)

/-- `a > a.mean()` is left to the fallback -/
def queryMean : QExpr Nat Int := .bin (fun x y => if x > y then 1 else 0) (.name 0) (.call (fun l => l.foldr (· + ·) 0 / 3) (.name 0))

example : queryModin.query ⟨4, 1, 1⟩ queryOps queryEnv (fun _ => none) queryMean = none :=
  C64_query_calls _ _ _ _ queryMean (Or.inr trivial) _

/-- **Witness.** `df.query("b in a")`: pandas looks the cells of `b` up in the whole column `a`; Modin takes a comparison for row-wise
    whatever its operator and looks them up in the part of `a` in the same row partition, silently losing the row 10. -/
theorem C64_query_in_column :
    queryModin.Shows queryFrame ∧
    queryFrame.query queryOps queryEnv (.mem (.name 1) (.name 0)) = some ⟨[10, 20], [0, 1], [[1, 5], [3, 1]]⟩ ∧
    (queryModin.query ⟨4, 1, 1⟩ queryOps queryEnv (fun _ => none) (.mem (.name 1) (.name 0))).bind (·.toPandas 0) =
      some ⟨[20], [0, 1], [[3, 1]]⟩ :=
  ⟨queryModin_shows, by decide, by decide +kernel⟩

/-- **Witness.** `df.query("a < @array")` with an array as long as the frame: pandas compares position by position; in Modin a row
    partition is shorter than the array and raises. -/
theorem C64_query_array :
    queryModin.Shows queryFrame ∧
    queryFrame.query queryOps queryEnv (.bin (fun x y => if x < y then 1 else 0) (.name 0) (.var 1)) =
      some ⟨[10, 30], [0, 1], [[1, 5], [5, 6]]⟩ ∧
    (queryModin.query ⟨4, 1, 1⟩ queryOps queryEnv (fun _ => none) (.bin (fun x y => if x < y then 1 else 0) (.name 0) (.var 1))).isNone = true :=
  ⟨queryModin_shows, by decide, by decide +kernel⟩

/-! cells of `explode`: numbers, and lists of numbers -/

inductive ECell where
  | num (n : Int)
  | list (l : List Int)
  | nan
deriving DecidableEq, Repr

def ECell.items : ECell → List ECell
  | .list [] => [.nan]
  | .list l => l.map .num
  | x => [x]

def explodeFrame : Frame Nat Nat ECell :=
  ⟨[10, 10, 30], [0, 1], [[.num 1, .list [5, 6]], [.num 2, .num 7], [.list [8], .list []]]⟩
def explodeModin : LFrame Nat Nat ECell := ⟨⟨explodeFrame.cut [2, 1] [1, 1], none, some [0, 1], none, some [1, 1]⟩, false, false⟩

theorem explodeModin_shows : explodeModin.Shows explodeFrame :=
  ⟨⟨rfl, by decide⟩, ⟨explodeFrame, [2, 1], [1, 1], ⟨rfl, by decide⟩, rfl, rfl,
    ⟨by decide, by decide, by decide, by decide⟩, rfl, Or.inl rfl, Or.inr rfl, fun _ => rfl, fun _ => rfl⟩, Or.inl ⟨rfl, rfl⟩, Or.inr rfl⟩

example : explodeFrame.explodeI ECell.items [1] id false = some
    ⟨[10, 10, 10, 30], [0, 1], [[.num 1, .num 5], [.num 1, .num 6], [.num 2, .num 7], [.list [8], .nan]]⟩ := by decide

example : ∃ m', explodeModin.explode ⟨4, 1, 1⟩ ECell.items [1] id true = some m' ∧ m'.Shows
    ⟨[0, 1, 2, 3], [0, 1], [[.num 1, .num 5], [.num 1, .num 6], [.num 2, .num 7], [.list [8], .nan]]⟩ :=
  (C64_explode ⟨4, 1, 1⟩ (by decide) ECell.items [1] id true explodeModin_shows).1 _ (by decide)

/-- the first row has one item in column 0 and two in column 1 -/
example : explodeModin.explode ⟨4, 1, 1⟩ ECell.items [0, 1] id true = none :=
  (C64_explode ⟨4, 1, 1⟩ (by decide) ECell.items [0, 1] id true explodeModin_shows).2 (by decide)
