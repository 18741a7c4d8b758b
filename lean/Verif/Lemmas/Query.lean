import Verif.Model.Query
import Verif.Lemmas.Dropna
import Verif.Lemmas.SetMask

variable {ι κ α : Type}

/-! ### the walk -/

theorem QExpr.size_pos (e : QExpr κ α) : 1 ≤ e.size := by
  cases e <;> simp [QExpr.size]

theorem rowWiseWalk_iff (n : Nat) (nodes : List (QExpr κ α)) (h : (nodes.map QExpr.size).sum ≤ n) :
    rowWiseWalk n nodes = true ↔ ∀ e ∈ nodes, ¬ e.Calls := by
  induction n generalizing nodes with
  | zero =>
    cases nodes with
    | nil => simp [rowWiseWalk]
    | cons e nodes =>
      have := e.size_pos
      simp at h
      omega
  | succ n ih =>
    cases nodes with
    | nil => simp [rowWiseWalk]
    | cons e nodes =>
      rw [List.map_cons, List.sum_cons] at h
      cases e with
      | name k => 
        simp only [rowWiseWalk, QExpr.size] at h ⊢
        rw [ih nodes (by omega)]
        simp [QExpr.Calls]
      | var k => 
        simp only [rowWiseWalk, QExpr.size] at h ⊢
        rw [ih nodes (by omega)]
        simp [QExpr.Calls]
      | const k => 
        simp only [rowWiseWalk, QExpr.size] at h ⊢
        rw [ih nodes (by omega)]
        simp [QExpr.Calls]
      | unary op e =>
        simp only [rowWiseWalk, QExpr.size] at h ⊢
        rw [ih _ (by simp; omega)]
        simp [QExpr.Calls]
      | bin op l r =>
        simp only [rowWiseWalk, QExpr.size] at h ⊢
        rw [ih _ (by simp; omega)]
        simp only [List.forall_mem_cons, QExpr.Calls, not_or]
        constructor
        · rintro ⟨a, b, c⟩; exact ⟨⟨b, a⟩, c⟩
        · rintro ⟨⟨b, a⟩, c⟩; exact ⟨a, b, c⟩
      | mem l r =>
        simp only [rowWiseWalk, QExpr.size] at h ⊢
        rw [ih _ (by simp; omega)]
        simp only [List.forall_mem_cons, QExpr.Calls, not_or]
        constructor
        · rintro ⟨a, b, c⟩; exact ⟨⟨b, a⟩, c⟩
        · rintro ⟨⟨b, a⟩, c⟩; exact ⟨a, b, c⟩
      | call fn e =>
        simp [rowWiseWalk, QExpr.Calls]

theorem isRowWiseQuery_iff (e : QExpr κ α) : isRowWiseQuery e = true ↔ ¬ e.Calls := by
  unfold isRowWiseQuery
  rw [rowWiseWalk_iff _ _ (by simp)]
  simp

theorem QExpr.Rowwise.noCalls {env : κ → Option (QVal α)} {e : QExpr κ α} (h : e.Rowwise env) : ¬ e.Calls := by
  induction e with
  | name => exact id
  | var => exact id
  | const => exact id
  | unary op e ih => exact ih h
  | bin op l r ih1 ih2 => exact fun g => g.elim (ih1 h.1) (ih2 h.2)
  | mem l r ih1 ih2 =>
    obtain ⟨h1, s, vals, rfl, _⟩ := h
    exact fun g => g.elim (ih1 h1) id
  | call => cases h

/-! ### values at a part of the rows -/

/-- the part of a value that belongs to some of the rows -/
def QVal.slice (a b : Nat) : QVal α → QVal α
  | .scalar x => .scalar x
  | .column xs => .column (pySlice xs a b)
  | .array xs => .array xs

/-- a value belonging to `n` rows -/
def QVal.Fits (n : Nat) : QVal α → Prop
  | .scalar _ => True
  | .column xs => xs.length = n
  | .array _ => False

theorem lastPosition_lt [DecidableEq κ] {columns : List κ} {k : κ} {p : Nat} (h : lastPosition columns k = some p) : p < columns.length := by
  unfold lastPosition at h
  have := List.mem_of_getLast? h
  exact List.mem_range.1 (List.mem_filter.1 this).1

theorem eval_ilocRows [DecidableEq κ] (o : QOps α) (env : κ → Option (QVal α)) {f : Frame ι κ α} (hwf : f.WF) (e : QExpr κ α)
    (h : e.Rowwise env) {v : QVal α} (hv : e.eval o env f = some v) :
    v.Fits f.rows.length ∧ ∀ a b, e.eval o env (f.ilocRows a b) = some (v.slice a b) := by
  induction e generalizing v with
  | name k =>
    simp only [QExpr.eval, Option.map_eq_some_iff] at hv
    obtain ⟨p, hp, rfl⟩ := hv
    have hlt : ∀ r ∈ f.rows, p < r.length := fun r hr => by rw [hwf.row_width r hr]; exact lastPosition_lt hp
    refine ⟨columnCells_length hlt, ?_⟩
    intro a b
    simp only [QExpr.eval, Frame.ilocRows, hp, Option.map_some, QVal.slice, Option.some.injEq, QVal.column.injEq]
    unfold columnCells
    rw [← pySlice_filterMap_total (fun r : List α => r[p]?) f.rows]
    intro r hr
    simp [hlt r hr]
  | var s =>
    obtain ⟨x, hx⟩ := h
    simp only [QExpr.eval] at hv ⊢
    rw [hx] at hv
    cases hv
    exact ⟨trivial, fun _ _ => hx⟩
  | const x =>
    cases hv
    exact ⟨trivial, fun _ _ => rfl⟩
  | unary op e ih =>
    simp only [QExpr.eval, Option.map_eq_some_iff] at hv
    obtain ⟨x, hx, rfl⟩ := hv
    obtain ⟨h1, h2⟩ := ih h hx
    cases x with
    | scalar x => exact ⟨trivial, fun a b => by simp [QExpr.eval, h2, QVal.slice, QVal.map]⟩
    | column xs =>
      refine ⟨?_, fun a b => by simp [QExpr.eval, h2, QVal.slice, QVal.map, pySlice_map]⟩
      show (xs.map op).length = _
      rw [List.length_map]; exact h1
    | array xs => exact h1.elim
  | bin op l r ih1 ih2 =>
    simp only [QExpr.eval] at hv
    cases hx : l.eval o env f with
    | none => rw [hx] at hv; cases hv
    | some x =>
    cases hy : r.eval o env f with
    | none => rw [hx, hy] at hv; cases hv
    | some y =>
    rw [hx, hy, Option.bind_some, Option.bind_some] at hv
    obtain ⟨f1, s1⟩ := ih1 h.1 hx
    obtain ⟨f2, s2⟩ := ih2 h.2 hy
    cases x with
    | array xs => exact f1.elim
    | scalar x =>
      cases y with
      | array ys => exact f2.elim
      | scalar y =>
        cases hv
        exact ⟨trivial, fun a b => by simp [QExpr.eval, s1, s2, QVal.slice, QVal.map₂]⟩
      | column ys =>
        cases hv
        refine ⟨?_, fun a b => by simp [QExpr.eval, s1, s2, QVal.slice, QVal.map₂, pySlice_map]⟩
        show (ys.map _).length = _
        rw [List.length_map]; exact f2
    | column xs =>
      cases y with
      | array ys => exact f2.elim
      | scalar y =>
        cases hv
        refine ⟨?_, fun a b => by simp [QExpr.eval, s1, s2, QVal.slice, QVal.map₂, pySlice_map]⟩
        show (xs.map _).length = _
        rw [List.length_map]; exact f1
      | column ys =>
        cases hv
        refine ⟨?_, fun a b => by simp [QExpr.eval, s1, s2, QVal.slice, QVal.map₂, pySlice_zipWith]⟩
        show (List.zipWith _ _ _).length = _
        rw [List.length_zipWith, show xs.length = _ from f1, show ys.length = _ from f2, Nat.min_self]
  | mem l r ih1 _ =>
    obtain ⟨hl, s, vals, rfl, hs⟩ := h
    simp only [QExpr.eval, hs] at hv
    cases hx : l.eval o env f with
    | none => rw [hx] at hv; cases hv
    | some x =>
    rw [hx, Option.bind_some, Option.bind_some] at hv
    obtain ⟨f1, s1⟩ := ih1 hl hx
    cases x with
    | array xs => exact f1.elim
    | scalar x => cases hv
    | column xs =>
      cases hv
      refine ⟨?_, fun a b => by simp [QExpr.eval, s1, hs, QVal.slice, QVal.isin, pySlice_map]⟩
      show (xs.map _).length = _
      rw [List.length_map]; exact f1
  | call => cases h

theorem eval_ilocRows_none [DecidableEq κ] (o : QOps α) (env : κ → Option (QVal α)) {f : Frame ι κ α} (hwf : f.WF) (e : QExpr κ α)
    (h : e.Rowwise env) (hv : e.eval o env f = none) (a b : Nat) : e.eval o env (f.ilocRows a b) = none := by
  induction e with
  | name k =>
    simp only [QExpr.eval, Option.map_eq_none_iff] at hv ⊢
    exact hv
  | var s =>
    obtain ⟨x, hx⟩ := h
    simp only [QExpr.eval, hx] at hv
    cases hv
  | const x => cases hv
  | unary op e ih =>
    simp only [QExpr.eval, Option.map_eq_none_iff] at hv ⊢
    exact ih h hv
  | bin op l r ih1 ih2 =>
    simp only [QExpr.eval] at hv ⊢
    cases hx : l.eval o env f with
    | none => rw [ih1 h.1 hx]; rfl
    | some x =>
      cases hy : r.eval o env f with
      | none => rw [ih2 h.2 hy]; cases l.eval o env (f.ilocRows a b) <;> rfl
      | some y =>
        exfalso
        rw [hx, hy, Option.bind_some, Option.bind_some] at hv
        have f1 := (eval_ilocRows o env hwf l h.1 hx).1
        have f2 := (eval_ilocRows o env hwf r h.2 hy).1
        cases x with
        | array xs => exact f1.elim
        | scalar x =>
          cases y with
          | array ys => exact f2.elim
          | scalar y => cases hv
          | column ys => cases hv
        | column xs =>
          cases y with
          | array ys => exact f2.elim
          | scalar y => cases hv
          | column ys => cases hv
  | mem l r ih1 _ =>
    obtain ⟨hl, s, vals, rfl, hs⟩ := h
    simp only [QExpr.eval, hs] at hv ⊢
    cases hx : l.eval o env f with
    | none => rw [ih1 hl hx]; rfl
    | some x =>
      obtain ⟨f1, s1⟩ := eval_ilocRows o env hwf l hl hx
      rw [s1]
      cases x with
      | array xs => exact f1.elim
      | scalar x => rfl
      | column xs => rw [hx] at hv; cases hv
  | call => cases h

/-! ### filtering rows -/

/-- a function that picks rows of every row partition by its part of one mask -/
theorem filterAxis_rows_spec [DecidableEq ι] [DecidableEq κ] (cfg : Cfg) (hmc : 1 ≤ cfg.minCol) {m : MFrame ι κ α} {df : Frame ι κ α}
    (h : m.Represents df) (func : Frame ι κ α → Option (Frame ι κ α)) (flags : List Bool) (hl : flags.length = df.nrows)
    (hf : ∀ a b, func (df.ilocRows a b) = some ((df.ilocRows a b).pickRows (pySlice flags a b))) :
    ∃ m', m.filterAxis cfg false func = some m' ∧ m'.Represents (df.pickRows flags) := by
  obtain ⟨rl, cw, hc, hp, hrl, hcw⟩ := h.blocks
  have hk : 1 ≤ axisNumSplits cfg true none none cw.length := by
    have : 0 < cw.length := List.length_pos_iff.2 hc.cw_ne
    simp [axisNumSplits]; omega
  obtain ⟨lens, h1, h2, h3, h4⟩ := applyRowBands_cut cfg hmc
    (fun i b => ((sliceBounds rl)[i]?).elim b fun p => b.pickRows (pySlice flags p.1 p.2)) h.wf hc (fun _ => func) df.columns
    (fun i b hb => by
      obtain ⟨b1, b2⟩ := bandsOf_wf h.wf rl b (List.mem_of_getElem? hb)
      simp only [bandsOf, List.getElem?_map, Option.map_eq_some_iff] at hb
      obtain ⟨p, hpp, rfl⟩ := hb
      rw [hpp]
      exact ⟨hf _ _, Frame.pickRows_wf b1 _, rfl⟩) true none hk
  have hlens : lens = cw := by
    have : axisNumSplits cfg true none none cw.length = cw.length := by simp [axisNumSplits]
    rw [this] at h3
    exact (deployLens_keep h3 hmc).1 hc.cw_sum.symm
  subst hlens
  have hb : ((bandsOf rl df).mapIdx fun i b => ((sliceBounds rl)[i]?).elim b fun p => b.pickRows (pySlice flags p.1 p.2)) =
      (sliceBounds rl).map fun p => (df.ilocRows p.1 p.2).pickRows (pySlice flags p.1 p.2) := by
    apply List.ext_getElem?
    intro i
    simp only [List.getElem?_mapIdx, bandsOf, List.getElem?_map]
    cases (sliceBounds rl)[i]? <;> rfl
  have hst := stackRows_pickRows h.wf hc.rl_sum flags hl
  have hne : (sliceBounds rl).map (fun p => (df.ilocRows p.1 p.2).pickRows (pySlice flags p.1 p.2)) ≠ [] := by
    simpa using sliceBounds_ne_nil hc.rl_ne
  have hs := stackRows_isCut df.columns hne h1 h2
  unfold MFrame.filterAxis
  rw [hp, mapAxis_bands, h4, Option.bind_some]
  rw [hb]
  rw [hst] at hs ⊢
  exact mk'_blocks (Frame.pickRows_wf h.wf _) hs rfl (Or.inl rfl) hcw (Or.inl rfl) h.columns

theorem mapM_length2 {τ σ : Type} {f : τ → Option σ} {l : List τ} {r : List σ} (h : l.mapM f = some r) : r.length = l.length := by
  induction l generalizing r with
  | nil => cases h; rfl
  | cons x l ih =>
    rw [List.mapM_cons] at h
    cases hx : f x with
    | none => rw [hx] at h; cases h
    | some y =>
      cases hl : l.mapM f with
      | none => rw [hx, hl] at h; cases h
      | some ys =>
        rw [hx, hl] at h
        cases h
        simp [ih hl]

theorem mapM_pySlice {τ σ : Type} {f : τ → Option σ} {l : List τ} {r : List σ} (h : l.mapM f = some r) (a b : Nat) :
    (pySlice l a b).mapM f = some (pySlice r a b) := by
  have : ∀ (l : List τ) (r : List σ), l.mapM f = some r → ∀ n, (l.take n).mapM f = some (r.take n) ∧ (l.drop n).mapM f = some (r.drop n) := by
    intro l
    induction l with
    | nil => intro r h n; cases h; simp
    | cons x l ih =>
      intro r h n
      rw [List.mapM_cons] at h
      cases hx : f x with
      | none => rw [hx] at h; cases h
      | some y =>
        cases hl : l.mapM f with
        | none => rw [hx, hl] at h; cases h
        | some ys =>
          rw [hx, hl] at h
          cases h
          cases n with
          | zero => simp [hx, hl]
          | succ n =>
            obtain ⟨h1, h2⟩ := ih ys hl n
            simp [hx, h1, h2]
  exact (this _ _ (this l r h a).2 (b - a)).1

theorem filterAxis_rows_none [DecidableEq ι] [DecidableEq κ] (cfg : Cfg) {m : MFrame ι κ α} {df : Frame ι κ α}
    (h : m.Represents df) (func : Frame ι κ α → Option (Frame ι κ α))
    (hf : ∀ rl cw, df.IsCut rl cw → ∃ b ∈ bandsOf rl df, func b = none) : m.filterAxis cfg false func = none := by
  obtain ⟨rl, cw, hc, hp, _, _⟩ := h.blocks
  obtain ⟨b, hb, hn⟩ := hf rl cw hc
  obtain ⟨i, hi⟩ := List.getElem?_of_mem hb
  unfold MFrame.filterAxis
  rw [hp, mapAxis_bands, applyRowBands_none cfg _ h.wf hc hi hn]
  rfl

/-! ### exploding rows -/

theorem mapM_flatten {τ σ : Type} {f : τ → Option σ} {ls : List (List τ)} {r : List σ} (h : ls.flatten.mapM f = some r) :
    ∃ rs, ls.mapM (·.mapM f) = some rs ∧ rs.flatten = r := by
  induction ls generalizing r with
  | nil => cases h; exact ⟨[], rfl, rfl⟩
  | cons l ls ih =>
    rw [List.flatten_cons, List.mapM_append] at h
    cases hl : l.mapM f with
    | none => rw [hl] at h; cases h
    | some x =>
      cases hr : ls.flatten.mapM f with
      | none => rw [hl, hr] at h; cases h
      | some y =>
        rw [hl, hr] at h
        cases h
        obtain ⟨rs, h1, h2⟩ := ih hr
        exact ⟨x :: rs, by rw [List.mapM_cons, hl, h1]; rfl, by rw [List.flatten_cons, h2]⟩

/-- the group of rows made of a row have its width -/
theorem explodeRow_width {items : α → List α} {ps : List Nat} {row : List α} {g : List (List α)} (h : explodeRow items ps row = some g) :
    ∀ r ∈ g, r.length = row.length := by
  unfold explodeRow at h
  split at h
  · cases h
  · split at h
    · cases h
      intro r hr
      obtain ⟨t, _, rfl⟩ := List.mem_map.1 hr
      simp
    · cases h

/-- the frame made of groups of rows -/
def groupsFrame (index : List ι) (columns : List κ) (groups : List (List (List α))) : Frame ι κ α :=
  ⟨(List.zipWith (fun i g => g.map fun _ => i) index groups).flatten, columns, groups.flatten⟩

theorem groupsFrame_wf {index : List ι} {columns : List κ} {groups : List (List (List α))} (h : groups.length = index.length)
    (hw : ∀ g ∈ groups, ∀ r ∈ g, r.length = columns.length) : (groupsFrame index columns groups).WF := by
  constructor
  · simp only [groupsFrame]
    induction index generalizing groups with
    | nil => cases groups <;> simp_all
    | cons i index ih =>
      cases groups with
      | nil => simp at h
      | cons g groups =>
        simp only [List.zipWith_cons_cons, List.flatten_cons, List.length_append, List.length_map]
        rw [ih (by simpa using h) fun g hg => hw g (List.mem_cons_of_mem _ hg)]
  · intro r hr
    obtain ⟨g, hg, hr⟩ := List.mem_flatten.1 hr
    exact hw g hg r hr

theorem mapM_mem2 {τ σ : Type} {f : τ → Option σ} {l : List τ} {r : List σ} (h : l.mapM f = some r) {y : σ} (hy : y ∈ r) :
    ∃ x ∈ l, f x = some y := by
  induction l generalizing r with
  | nil => cases h; simp at hy
  | cons x l ih =>
    rw [List.mapM_cons] at h
    cases hx : f x with
    | none => rw [hx] at h; cases h
    | some z =>
      cases hl : l.mapM f with
      | none => rw [hx, hl] at h; cases h
      | some ys =>
        rw [hx, hl] at h
        cases h
        rcases List.mem_cons.1 hy with rfl | hy
        · exact ⟨x, by simp, hx⟩
        · obtain ⟨w, hw, hw2⟩ := ih hl hy
          exact ⟨w, List.mem_cons_of_mem _ hw, hw2⟩

theorem groups_slices (index : List ι) (groups : List (List (List α))) (rl : List Nat) (h1 : index.length = rl.sum)
    (h2 : groups.length = rl.sum) :
    ((sliceBounds rl).map fun p =>
      (List.zipWith (fun i g => g.map fun _ => i) (pySlice index p.1 p.2) (pySlice groups p.1 p.2)).flatten).flatten =
    (List.zipWith (fun i (g : List (List α)) => g.map fun _ => i) index groups).flatten ∧
    ((sliceBounds rl).map fun p => (pySlice groups p.1 p.2).flatten).flatten = groups.flatten := by
  constructor
  · have := covers_lens rl (List.zipWith (fun i (g : List (List α)) => g.map fun _ => i) index groups) (by simp [h1, h2])
    conv => rhs; rw [← this]
    rw [List.flatten_flatten, List.map_map]
    congr 1
    apply List.map_congr_left
    intro p _
    simp only [Function.comp_def, pySlice_zipWith]
  · have := covers_lens rl groups h2
    conv => rhs; rw [← this]
    rw [List.flatten_flatten, List.map_map]
    rfl

theorem mapM_none_mem {τ σ : Type} {f : τ → Option σ} {l : List τ} (h : l.mapM f = none) : ∃ x ∈ l, f x = none := by
  induction l with
  | nil => cases h
  | cons x l ih =>
    rw [List.mapM_cons] at h
    cases hx : f x with
    | none => exact ⟨x, by simp, hx⟩
    | some y =>
      cases hl : l.mapM f with
      | none =>
        obtain ⟨z, hz, hz2⟩ := ih hl
        exact ⟨z, List.mem_cons_of_mem _ hz, hz2⟩
      | some ys => rw [hx, hl] at h; cases h

theorem mapM_mem_none {τ σ : Type} {f : τ → Option σ} {l : List τ} {x : τ} (hx : x ∈ l) (h : f x = none) : l.mapM f = none := by
  cases hl : l.mapM f with
  | none => rfl
  | some r =>
    exfalso
    induction l generalizing r with
    | nil => simp at hx
    | cons y l ih =>
      rw [List.mapM_cons] at hl
      cases hy : f y with
      | none => rw [hy] at hl; cases hl
      | some z =>
        cases hl2 : l.mapM f with
        | none => rw [hy, hl2] at hl; cases hl
        | some ys =>
          rcases List.mem_cons.1 hx with rfl | hx
          · rw [h] at hy; cases hy
          · exact ih hx ys hl2

theorem heads_nrows {df : Frame ι κ α} {rl cw : List Nat} (hc : df.IsCut rl cw) :
    ((df.cut rl cw).filterMap fun row => row.head?.map (·.nrows)) = rl := by
  obtain ⟨q, qs, hq⟩ := List.exists_cons_of_ne_nil (sliceBounds_ne_nil hc.cw_ne)
  have e : ((df.cut rl cw).filterMap fun row => row.head?.map (·.nrows)) =
      (sliceBounds rl).map fun p => (pySlice df.index p.1 p.2).length := by
    unfold Frame.cut
    rw [hq, List.filterMap_map]
    rw [← List.filterMap_eq_map]
    rfl
  rw [e]
  exact sliceBounds_lengths df.index rl (Nat.le_of_eq hc.rl_sum)

theorem explode_groups [DecidableEq κ] {items : α → List α} {columns : List κ} {f R : Frame ι κ α}
    (h : f.explode items columns = some R) :
    (f.columns.Nodup ∧ columns.Nodup ∧ columns ≠ [] ∧ ∀ k ∈ columns, k ∈ f.columns) ∧
    ∃ groups, f.rows.mapM (explodeRow items (columns.filterMap (lastPosition f.columns))) = some groups ∧
      R = groupsFrame f.index f.columns groups := by
  unfold Frame.explode at h
  split at h
  · rename_i hok
    refine ⟨hok, ?_⟩
    rw [Option.map_eq_some_iff] at h
    obtain ⟨groups, h1, h2⟩ := h
    exact ⟨groups, h1, h2.symm⟩
  · cases h

theorem explode_wf [DecidableEq κ] {items : α → List α} {columns : List κ} {f R : Frame ι κ α} (hwf : f.WF)
    (h : f.explode items columns = some R) : R.WF := by
  obtain ⟨_, groups, h1, rfl⟩ := explode_groups h
  apply groupsFrame_wf
  · rw [mapM_length2 h1, hwf.rows_len]
  · intro g hg r hr
    obtain ⟨row, hrow, hrow2⟩ := mapM_mem2 h1 hg
    rw [explodeRow_width hrow2 r hr, hwf.row_width row hrow]

theorem explode_spec [DecidableEq ι] [DecidableEq κ] (cfg : Cfg) (hmc : 1 ≤ cfg.minCol) (items : α → List α) (columns : List κ)
    {m : MFrame ι κ α} {df R : Frame ι κ α} (h : m.Represents df) (hR : df.explode items columns = some R) :
    ∃ m', m.explode cfg (Frame.explode items columns) = some m' ∧ m'.Represents R := by
  have hRwf := explode_wf h.wf hR
  obtain ⟨hok, groups, hg, rfl⟩ := explode_groups hR
  obtain ⟨rl, cw, hc, hp, hrl, hcw⟩ := h.blocks
  have hk : 1 ≤ axisNumSplits cfg true none none cw.length := by
    have : 0 < cw.length := List.length_pos_iff.2 hc.cw_ne
    simp [axisNumSplits]; omega
  have hband : ∀ a b, (df.ilocRows a b).explode items columns =
      some (groupsFrame (pySlice df.index a b) df.columns (pySlice groups a b)) := by
    intro a b
    unfold Frame.explode
    rw [show (df.ilocRows a b).columns = df.columns from rfl, if_pos hok]
    simp only [Frame.ilocRows, mapM_pySlice hg a b, Option.map_some, groupsFrame]
  obtain ⟨lens, h1, h2, h3, h4⟩ := applyRowBands_cut cfg hmc
    (fun i b => ((sliceBounds rl)[i]?).elim b fun p => groupsFrame (pySlice df.index p.1 p.2) df.columns (pySlice groups p.1 p.2))
    h.wf hc (fun _ => Frame.explode items columns) df.columns
    (fun i b hb => by
      obtain ⟨b1, b2⟩ := bandsOf_wf h.wf rl b (List.mem_of_getElem? hb)
      simp only [bandsOf, List.getElem?_map, Option.map_eq_some_iff] at hb
      obtain ⟨p, hpp, rfl⟩ := hb
      rw [hpp]
      exact ⟨hband _ _, explode_wf b1 (hband _ _), rfl⟩) true none hk
  have hlens : lens = cw := by
    have : axisNumSplits cfg true none none cw.length = cw.length := by simp [axisNumSplits]
    rw [this] at h3
    exact (deployLens_keep h3 hmc).1 hc.cw_sum.symm
  subst hlens
  have hb : ((bandsOf rl df).mapIdx fun i b => ((sliceBounds rl)[i]?).elim b fun p =>
        groupsFrame (pySlice df.index p.1 p.2) df.columns (pySlice groups p.1 p.2)) =
      (sliceBounds rl).map fun p => groupsFrame (pySlice df.index p.1 p.2) df.columns (pySlice groups p.1 p.2) := by
    apply List.ext_getElem?
    intro i
    simp only [List.getElem?_mapIdx, bandsOf, List.getElem?_map]
    cases (sliceBounds rl)[i]? <;> rfl
  have hst : Frame.stackRows df.columns ((sliceBounds rl).map fun p =>
      groupsFrame (pySlice df.index p.1 p.2) df.columns (pySlice groups p.1 p.2)) = groupsFrame df.index df.columns groups := by
    have hi : df.index.length = rl.sum := hc.rl_sum.symm
    have := groups_slices df.index groups rl hi (by rw [mapM_length2 hg, h.wf.rows_len, hi])
    unfold Frame.stackRows groupsFrame
    simp only [List.map_map, Function.comp_def, Frame.mk.injEq, true_and]
    exact this
  have hne : (sliceBounds rl).map (fun p => groupsFrame (pySlice df.index p.1 p.2) df.columns (pySlice groups p.1 p.2)) ≠ [] := by
    simpa using sliceBounds_ne_nil hc.rl_ne
  have hs := stackRows_isCut df.columns hne h1 h2
  unfold MFrame.explode
  rw [hp, mapAxis_bands, h4, Option.bind_some, hb]
  rw [hst] at hs ⊢
  apply mk'_blocks hRwf hs rfl
  · right
    show some _ = _
    rw [heads_nrows hs]
  · exact hcw
  · right
    show some _ = _
    rw [gridIndex_cut hs]
  · right
    show some m.getColumns = _
    congr 1
    have := (represents_shows h).getColumns
    exact this

theorem explode_spec_none [DecidableEq ι] [DecidableEq κ] (cfg : Cfg) (items : α → List α) (columns : List κ)
    {m : MFrame ι κ α} {df : Frame ι κ α} (h : m.Represents df) (hR : df.explode items columns = none) :
    m.explode cfg (Frame.explode items columns) = none := by
  obtain ⟨rl, cw, hc, hp, _, _⟩ := h.blocks
  have hb : ∃ b ∈ bandsOf rl df, b.explode items columns = none := by
    by_cases hok : df.columns.Nodup ∧ columns.Nodup ∧ columns ≠ [] ∧ ∀ k ∈ columns, k ∈ df.columns
    · unfold Frame.explode at hR
      rw [if_pos hok, Option.map_eq_none_iff] at hR
      obtain ⟨row, hrow, hrow2⟩ := mapM_none_mem hR
      rw [← bandsOf_rows h.wf hc, List.mem_flatten] at hrow
      obtain ⟨l, hl, hrl⟩ := hrow
      obtain ⟨b, hb, rfl⟩ := List.mem_map.1 hl
      refine ⟨b, hb, ?_⟩
      unfold Frame.explode
      rw [(bandsOf_wf h.wf rl b hb).2, if_pos hok, mapM_mem_none hrl hrow2]
      rfl
    · obtain ⟨b, hb⟩ := List.exists_mem_of_ne_nil _ (bandsOf_ne hc.rl_ne df)
      refine ⟨b, hb, ?_⟩
      unfold Frame.explode
      rw [(bandsOf_wf h.wf rl b hb).2, if_neg hok]
  obtain ⟨b, hb, hn⟩ := hb
  obtain ⟨i, hi⟩ := List.getElem?_of_mem hb
  unfold MFrame.explode
  rw [hp, mapAxis_bands, applyRowBands_none cfg _ h.wf hc hi hn]
  rfl

theorem operation_none {ι' κ' β' : Type} {m : LFrame ι κ α} {df : Frame ι κ α} (h : m.Shows df)
    {op : MFrame ι κ α → Option (MFrame ι' κ' β')} (hop : ∀ m1 : MFrame ι κ α, m1.Represents df → op m1 = none) :
    m.operation op = none := by
  obtain ⟨m1, e1, e2⟩ := synced_spec h
  unfold LFrame.operation
  rw [e1, Option.bind_some, hop _ e2]
  rfl

theorem shows_rowLens {m : LFrame ι κ α} {df : Frame ι κ α} (h : m.Shows df) : m.getRowLens.sum = df.index.length := by
  obtain ⟨df0, rl, cw, hwf0, hrows, hcl, hc, hp, hrl, hcw, hI, hC⟩ := h.blocks
  rw [getRowLens_cut hc hp hrl, hc.rl_sum]
  show df0.index.length = _
  rw [← hwf0.rows_len, ← h.wf.rows_len, hrows]
