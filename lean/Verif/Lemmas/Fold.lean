import Verif.Lemmas.SortIndex
import Verif.Model.Fold

variable {ι κ α β ι' κ' : Type}

/-! ### the functions keep the length -/

theorem cumulate_length (skip : α → Bool) (op : α → α → α) (t : Option α) (c : List α) : (cumulate skip op t c).length = c.length := by
  induction c generalizing t with
  | nil => rfl
  | cons x xs ih =>
    unfold cumulate
    split
    · simp [ih]
    · cases t <;> simp [ih]

theorem diffBy_length (sub : α → α → α) (nan : α) (p : Int) (c : List α) : (diffBy sub nan p c).length = c.length := by
  simp [diffBy]

theorem forwardFill_length (isna : α → Bool) (limit : Option Nat) (last : Option α) (run : Nat) (c : List α) :
    (forwardFill isna limit last run c).length = c.length := by
  induction c generalizing last run with
  | nil => rfl
  | cons x xs ih =>
    unfold forwardFill
    split <;> simp [ih]

theorem backwardFill_length (isna : α → Bool) (limit : Option Nat) (c : List α) : (backwardFill isna limit c).length = c.length := by
  simp [backwardFill, forwardFill_length]

theorem fillMethod_length (isna : α → Bool) (limit : Option Nat) (f : FillMethod) (c : List α) : (f.run isna limit c).length = c.length := by
  cases f
  · exact forwardFill_length _ _ _ _ _
  · exact backwardFill_length _ _ _
  · rfl

theorem rollingBy_length (nan : α) (n : Nat) (f : List α → α) (c : List α) : (rollingBy nan n f c).length = c.length := by
  simp [rollingBy]

theorem expandingBy_length (nan : α) (n : Nat) (f : List α → α) (c : List α) : (expandingBy nan n f c).length = c.length := by
  simp [expandingBy]

/-! ### `fold` -/

/-- a function of whole columns that keeps both labels -/
theorem fold_rows_shows [DecidableEq ι] [DecidableEq κ] (cfg : Cfg) (hp : 1 ≤ cfg.nPartitions)
    (hr : 1 ≤ cfg.minRow) {m : LFrame ι κ α} {df : Frame ι κ α} (h : m.Shows df) {func : Frame ι κ α → Option (Frame ι κ β)}
    {F : Frame ι κ α → Frame ι κ β} (hF : ColumnLocal F) (hcomm : ∀ a b, F (df.ilocCols a b) = (F df).ilocCols a b)
    (hfunc : ∀ a b, func (df.ilocCols a b) = some (F (df.ilocCols a b))) (hi : (F df).index = df.index) (hcl : (F df).columns = df.columns) :
    ∃ m', m.fold cfg true func = some m' ∧ m'.Shows (F df) := by
  unfold LFrame.fold
  apply operation_shows h
  intro m1 h1
  obtain ⟨rl, cw, hc, hpp, hrl, hcw⟩ := h1.blocks
  obtain ⟨lens, ⟨h2, h3, h4, _, _⟩, h5⟩ := mapAxis_rows_cut' cfg hp hr hF h.wf hc true none (by simp) none (by simp) (by simp)
  rw [← mapAxis_rows_congr cfg h.wf hc true none none hfunc] at h5
  have h6 : ((sliceBounds lens).map fun p => (sliceBounds cw).map fun q => (F (df.ilocCols q.1 q.2)).ilocRows p.1 p.2)
      = (F df).cut lens cw := by
    unfold Frame.cut
    simp only [hcomm, Frame.ilocCols_ilocRows]
  rw [h6] at h5
  have hnr : (F df).nrows = df.nrows := by unfold Frame.nrows; rw [hi]
  have hnc : (F df).ncols = df.ncols := by unfold Frame.ncols; rw [hcl]
  obtain rfl := deployLens_same rfl (h4 rfl rfl) (by rw [hnr, hc.rl_sum])
  rw [hpp, h5, Option.bind_some]
  have hwf' := hF.1 df h.wf
  exact represents_mk' ⟨hwf', ⟨lens, cw, ⟨h2, hc.cw_ne, h3, by rw [hc.cw_sum, hnc]⟩, rfl, hrl, hcw⟩, by rw [hi]; exact h1.index,
    by rw [hcl]; exact h1.columns⟩

/-- a function of whole rows that keeps both labels -/
theorem fold_lines_shows [DecidableEq ι] [DecidableEq κ] (cfg : Cfg) (hp : 1 ≤ cfg.nPartitions)
    (hr : 1 ≤ cfg.minCol) {m : LFrame ι κ α} {df : Frame ι κ α} (h : m.Shows df) {func : Frame ι κ α → Option (Frame ι κ β)}
    {F : Frame ι κ α → Frame ι κ β} (hF : RowLocal F) (hcomm : ∀ a b, F (df.ilocRows a b) = (F df).ilocRows a b)
    (hfunc : ∀ a b, func (df.ilocRows a b) = some (F (df.ilocRows a b))) (hi : (F df).index = df.index) (hcl : (F df).columns = df.columns) :
    ∃ m', m.fold cfg false func = some m' ∧ m'.Shows (F df) := by
  unfold LFrame.fold
  apply operation_shows h
  intro m1 h1
  obtain ⟨rl, cw, hc, hpp, hrl, hcw⟩ := h1.blocks
  obtain ⟨lens, ⟨h2, h3, h4, _, _⟩, h5⟩ := mapAxis_cols_cut' cfg hp hr hF h.wf hc true none (by simp) none (by simp) (by simp)
  rw [← mapAxis_cols_congr cfg h.wf hc true none none hfunc] at h5
  have h6 : ((sliceBounds rl).map fun p => (sliceBounds lens).map fun q => (F (df.ilocRows p.1 p.2)).ilocCols q.1 q.2)
      = (F df).cut rl lens := by
    unfold Frame.cut
    simp only [hcomm]
  rw [h6] at h5
  have hnr : (F df).nrows = df.nrows := by unfold Frame.nrows; rw [hi]
  have hnc : (F df).ncols = df.ncols := by unfold Frame.ncols; rw [hcl]
  obtain rfl := deployLens_same rfl (h4 rfl rfl) (by rw [hnc, hc.cw_sum])
  rw [hpp, h5, Option.bind_some]
  have hwf' := hF.1 df h.wf
  exact represents_mk' ⟨hwf', ⟨rl, lens, ⟨hc.rl_ne, h2, by rw [hc.rl_sum, hnr], h3⟩, rfl, hrl, hcw⟩, by rw [hi]; exact h1.index,
    by rw [hcl]; exact h1.columns⟩

/-- a function that runs along an axis and keeps the length -/
theorem fold_along_shows [DecidableEq ι] [DecidableEq κ] (cfg : Cfg) (hp : 1 ≤ cfg.nPartitions) (hr : 1 ≤ cfg.minRow) (hc : 1 ≤ cfg.minCol)
    {m : LFrame ι κ α} {df : Frame ι κ α} (h : m.Shows df) (axis0 : Bool) {f : List α → List β} (hf : ∀ c, (f c).length = c.length) :
    ∃ m', m.foldRegistered cfg axis0 axis0 f = some m' ∧ m'.Shows (df.along axis0 f) := by
  unfold LFrame.foldRegistered
  cases axis0
  · exact fold_lines_shows cfg hp hc h (F := fun b => b.mapRows id f) (rowLocal_mapRows id f fun cs r e => by rw [hf, e]; rfl)
      (fun a b => Frame.mapRows_ilocRows _ _ _ _ _) (fun _ _ => rfl) rfl rfl
  · exact fold_rows_shows cfg hp hr h (F := fun b => b.mapColumns id f) (columnLocal_mapColumns id f fun cs r e => by rw [hf, e]; rfl)
      (fun a b => h.wf.mapColumns_ilocCols _ _ (fun cs r e => by rw [hf, e]; rfl) _ _) (fun _ _ => rfl) rfl rfl

/-! ### `rolling` with `on` -/

theorem deploy_congr_rows [DecidableEq ι] [DecidableEq κ] {func func' : Frame ι κ α → Option (Frame ι' κ' β)} (k : Nat) (keep : Bool)
    {parts : List (Frame ι κ α)} (mb : Nat) (ll : Option (List Nat)) (manual : Bool) {X : Frame ι κ α} (hX : Frame.vcat parts = some X)
    (h : func X = func' X) : deployAxisFunc true func k keep parts mb ll manual = deployAxisFunc true func' k keep parts mb ll manual := by
  unfold deployAxisFunc
  simp only [axisConcat, ↓reduceIte, hX, Option.bind_eq_bind, Option.bind_some, h]

/-- a frame held in one column of blocks: any function that keeps the number of rows -/
theorem mapAxis_rows_single [DecidableEq ι] [DecidableEq κ] (cfg : Cfg) {func : Frame ι κ α → Option (Frame ι κ β)}
    {df : Frame ι κ α} (hwf : df.WF) {R : Frame ι κ β} (hR : R.WF) (hn : R.nrows = df.nrows) (hcn : R.ncols = df.ncols)
    (hf : func df = some R) {rl : List Nat} {w : Nat}
    (hcut : df.IsCut rl [w]) : mapAxisPartitions cfg true func (df.cut rl [w]) true none none = some (R.cut rl [w]) := by
  have hw : w = df.ncols := by simpa using hcut.cw_sum
  have hrb := sliceBounds_ne_nil hcut.rl_ne
  unfold mapAxisPartitions truthyLengths axisNumSplits
  simp only [Option.isSome_none, Bool.and_false, Bool.false_eq_true, ↓reduceIte, Option.isNone_none, Bool.and_self]
  rw [colBlocks_cut hcut.rl_ne]
  have hv : Frame.vcat ((sliceBounds rl).map fun p => (df.ilocRows p.1 p.2).ilocCols 0 w) = some df := by
    have := Frame.vcat_ilocCols (vcat_rows_cut hwf hcut) 0 w
    rw [List.map_map, hw, hwf.ilocCols_all] at this
    rw [hw]
    exact this
  have hlen : (df.cut rl [w]).length = rl.length := by simp [Frame.cut, sliceBounds_length]
  rw [hlen, sliceBounds_single, mapM_map_some (g := fun q => (sliceBounds rl).map fun p => (R.ilocRows p.1 p.2).ilocCols q.1 q.2)]
  · simp only [Option.bind_eq_bind, Option.bind_some, Option.pure_def]
    rw [colBlocks_matrix _ _ _ (by simp)]
    unfold Frame.cut
    rw [sliceBounds_single]
  · intro q hq
    obtain rfl : q = (0, w) := by simpa using hq
    rw [deploy_congr_rows (func' := fun _ => some R) _ _ _ _ _ hv hf, deploy_rows_eq (fun _ => R) _ _ _ _ _ _ _ hv hR]
    have hpl : (((sliceBounds rl).map fun p => (df.ilocRows p.1 p.2).ilocCols 0 w).map (·.nrows)) = rl := by
      have := sliceBounds_lengths df.index rl (Nat.le_of_eq hcut.rl_sum)
      rw [List.map_map]
      exact this
    rw [hpl, show (⟨0, w⟩ : Nat × Nat).1 = 0 from rfl]
    have hl' : deployLens rl.length true rl R.nrows cfg.minRow none false = some rl := by
      unfold deployLens
      by_cases h1 : rl.length = 1
      · rw [if_pos h1]
        match rl, h1, hcut.rl_sum with
        | [x], _, hx => rw [hn, ← hx]; simp
      · rw [if_neg h1]
        simp [hn, hcut.rl_sum]
    rw [hl', Option.map_some]
    congr 1
    apply List.map_congr_left
    intro p _
    have := (hR.ilocRows p.1 p.2).ilocCols_all
    rw [show (R.ilocRows p.1 p.2).ncols = w from hcn.trans hw.symm] at this
    exact this.symm

theorem rollingOn_wf [DecidableEq κ] {key : κ} {h : List α → List α → List α} (hh : ∀ k c, (h k c).length = c.length) {df R : Frame ι κ α}
    (hwf : df.WF) (e : df.rollingOn key h = some R) : R.WF ∧ R.index = df.index ∧ R.columns = df.columns := by
  unfold Frame.rollingOn at e
  split at e
  · simp only [Option.some.injEq] at e
    subst e
    refine ⟨⟨by simp [Frame.nrows], ?_⟩, rfl, rfl⟩
    intro r hr
    simp only [List.mem_map, List.mem_range] at hr
    obtain ⟨i, hi, rfl⟩ := hr
    rw [filterMap_length_of_some]
    · simp [Frame.ncols]
    · intro j hj
      simp only [List.mem_range] at hj
      have := hwf.column_length hj
      split
      · simp [this, hi]
      · simp [hh, this, hi]
  · exact absurd e (by simp)

/-! ### the functions cell by cell -/

/-- the total of some cells -/
def totalOf (op : α → α → α) : List α → Option α
  | [] => none
  | x :: xs => some (xs.foldl op x)

theorem totalOf_snoc (op : α → α → α) (l : List α) (x : α) :
    totalOf op (l ++ [x]) = some (match totalOf op l with | none => x | some t => op t x) := by
  cases l <;> simp [totalOf]

theorem cumulate_from (skip : α → Bool) (op : α → α → α) (P c : List α) (i : Nat) (x : α) (h : c[i]? = some x) :
    (cumulate skip op (totalOf op (P.filter fun y => !skip y)) c)[i]?
      = if skip x then some x else totalOf op ((P ++ c.take (i + 1)).filter fun y => !skip y) := by
  induction c generalizing P i with
  | nil => simp at h
  | cons y ys ih =>
    unfold cumulate
    cases i with
    | zero =>
      obtain rfl : y = x := by simpa using h
      by_cases hs : skip y
      · simp [hs]
      · simp only [hs, Bool.false_eq_true, ↓reduceIte, Nat.zero_add, List.take_succ_cons, List.take_zero, List.filter_append]
        rw [show List.filter (fun y => !skip y) [y] = [y] by simp [hs], totalOf_snoc]
        cases totalOf op (P.filter fun y => !skip y) <;> simp
    | succ i =>
      have h' : ys[i]? = some x := by simpa using h
      have hP := ih (P ++ [y]) i h'
      rw [List.append_assoc, List.singleton_append] at hP
      rw [List.take_succ_cons, ← hP]
      by_cases hs : skip y
      · simp only [hs, ↓reduceIte, List.getElem?_cons_succ, List.filter_append]
        rw [show List.filter (fun y => !skip y) [y] = [] by simp [hs], List.append_nil]
      · simp only [hs, Bool.false_eq_true, ↓reduceIte, List.filter_append]
        rw [show List.filter (fun y => !skip y) [y] = [y] by simp [hs], totalOf_snoc]
        cases totalOf op (P.filter fun y => !skip y) <;> simp

theorem forwardFill_from (isna : α → Bool) (limit : Option Nat) (P c : List α) (i : Nat) (x : α) (h : c[i]? = some x) :
    (forwardFill isna limit (P.filter fun y => !isna y).getLast? (P.reverse.takeWhile isna).length c)[i]?
      = some (if isna x ∧ ∀ n, limit = some n → ((P ++ c.take i).reverse.takeWhile isna).length < n
          then (((P ++ c.take i).filter fun y => !isna y).getLast?).getD x else x) := by
  induction c generalizing P i with
  | nil => simp at h
  | cons y ys ih =>
    unfold forwardFill
    cases i with
    | zero =>
      obtain rfl : y = x := by simpa using h
      by_cases hs : isna y
      · cases limit <;> simp [hs]
      · simp [hs]
    | succ i =>
      have h' : ys[i]? = some x := by simpa using h
      have hP := ih (P ++ [y]) i h'
      rw [List.append_assoc, List.singleton_append] at hP
      rw [List.take_succ_cons, ← hP]
      by_cases hs : isna y
      · simp only [hs, ↓reduceIte, List.getElem?_cons_succ, List.filter_append, List.reverse_append, List.reverse_singleton,
          List.singleton_append, List.takeWhile_cons, List.length_cons]
        rw [show List.filter (fun y => !isna y) [y] = [] by simp [hs], List.append_nil]
      · simp only [hs, Bool.false_eq_true, ↓reduceIte, List.getElem?_cons_succ, List.filter_append, List.reverse_append,
          List.reverse_singleton, List.singleton_append, List.takeWhile_cons, List.length_nil]
        rw [show List.filter (fun y => !isna y) [y] = [y] by simp [hs], List.getLast?_concat]

/-- a cell of the result of a function along the columns, and along the rows -/
theorem along_cell {df : Frame ι κ α} (hwf : df.WF) {f : List α → List β} (hf : ∀ c, (f c).length = c.length) {i j : Nat}
    (hi : i < df.nrows) (hj : j < df.ncols) :
    (((df.along true f).rows[i]?).bind fun r => r[j]?) = (f (df.column j))[i]? ∧
    (((df.along false f).rows[i]?).bind fun r => r[j]?) = (df.rows[i]?).bind fun r => (f r)[j]? := by
  constructor
  · have hl : ∀ c : List α, c.length = df.nrows → (f c).length = (id df.index).length := fun c e => by rw [hf, e]; rfl
    have h1 := Frame.WF.mapColumns hwf id f (fun idx c e => by rw [hf, e]; rfl)
    have h2 := hwf.column_mapColumns (id : List ι → List ι) f hl hj
    have h3 := h1.column_getElem? (j := j) hj i
    rw [h2] at h3
    exact h3.symm
  · show ((df.rows.map f)[i]?).bind _ = _
    rw [List.getElem?_map]
    cases df.rows[i]? <;> rfl
