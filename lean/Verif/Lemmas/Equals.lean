import Verif.Model.Equals
import Verif.Lemmas.NAry
import Verif.Lemmas.Reduce
import Verif.Lemmas.RowBands
import Verif.Lemmas.LocGet
import Verif.Lemmas.Reindex
import Verif.Lemmas.Portion
/-
Lemmas about `Verif/Model/Equals.lean`.
-/

variable {ι κ L α β : Type}

/-! ### comparing piece by piece -/

theorem pairwiseSame_append (same : α → α → Bool) : ∀ (a c b d : List α), a.length = c.length →
    pairwiseSame same (a ++ b) (c ++ d) = (pairwiseSame same a c && pairwiseSame same b d)
  | [], [], b, d, _ => by simp [pairwiseSame]
  | [], _ :: _, _, _, h => by simp at h
  | _ :: _, [], _, _, h => by simp at h
  | x :: a, y :: c, b, d, h => by
    simp only [List.cons_append, pairwiseSame]
    rw [pairwiseSame_append same a c b d (by simpa using h), Bool.and_assoc]

theorem pairwiseSame_flatten {τ : Type} (same : α → α → Bool) (f g : τ → List α) : ∀ S : List τ,
    (∀ p ∈ S, (f p).length = (g p).length) →
    pairwiseSame same (S.map f).flatten (S.map g).flatten = S.all fun p => pairwiseSame same (f p) (g p)
  | [], _ => rfl
  | p :: S, h => by
    simp only [List.map_cons, List.flatten_cons, List.all_cons]
    rw [pairwiseSame_append same _ _ _ _ (h p (by simp)), pairwiseSame_flatten same f g S fun q hq => h q (by simp [hq])]

theorem pairwiseSame_pieces (same : α → α → Bool) {lens : List Nat} {a b : List α} (ha : lens.sum = a.length) (hb : lens.sum = b.length) :
    pairwiseSame same a b = (sliceBounds lens).all fun p => pairwiseSame same (pySlice a p.1 p.2) (pySlice b p.1 p.2) := by
  have := pairwiseSame_flatten same (fun p : Nat × Nat => pySlice a p.1 p.2) (fun p => pySlice b p.1 p.2) (sliceBounds lens) (by
    intro p _
    simp only [pySlice, List.length_take, List.length_drop, ← ha, ← hb])
  rw [← this]
  show _ = pairwiseSame same (piecesOf lens a).flatten (piecesOf lens b).flatten
  rw [piecesOf_flatten ha, piecesOf_flatten hb]

theorem pairwiseSame_all {τ : Type} (S : List τ) (f : τ → α → α) (same : α → α → Bool) : ∀ (a b : List α), a.length = b.length →
    pairwiseSame (fun x y => S.all fun q => same (f q x) (f q y)) a b = S.all fun q => pairwiseSame same (a.map (f q)) (b.map (f q))
  | [], [], _ => by simp [pairwiseSame]
  | [], _ :: _, h => by simp at h
  | _ :: _, [], h => by simp at h
  | x :: a, y :: b, h => by
    simp only [pairwiseSame, List.map_cons]
    rw [pairwiseSame_all S f same a b (by simpa using h)]
    induction S with
    | nil => rfl
    | cons q S ih =>
      simp only [List.all_cons, ← ih]
      generalize same (f q x) (f q y) = u
      generalize (S.all fun q => same (f q x) (f q y)) = v
      generalize pairwiseSame same (a.map (f q)) (b.map (f q)) = w
      generalize (S.all fun q => pairwiseSame same (a.map (f q)) (b.map (f q))) = z
      cases u <;> cases v <;> cases w <;> cases z <;> rfl

theorem pairwiseSame_congr {same same' : α → α → Bool} : ∀ (a b : List α), (∀ x ∈ a, ∀ y ∈ b, same x y = same' x y) →
    pairwiseSame same a b = pairwiseSame same' a b
  | [], [], _ => rfl
  | [], _ :: _, _ => rfl
  | _ :: _, [], _ => rfl
  | x :: a, y :: b, h => by
    simp only [pairwiseSame]
    rw [h x (by simp) y (by simp), pairwiseSame_congr a b fun u hu v hv => h u (by simp [hu]) v (by simp [hv])]

/-- two frames with the same labels are the same when all their blocks are -/
theorem equals_blocks [DecidableEq ι] [DecidableEq κ] (same : α → α → Bool) {A B : Frame ι κ α} (hA : A.WF) (hB : B.WF)
    (hi : A.index = B.index) (hc : A.columns = B.columns) {rl cw : List Nat} (hcut : A.IsCut rl cw) :
    A.equals same B = (sliceBounds rl).all fun p => (sliceBounds cw).all fun q =>
      ((A.ilocRows p.1 p.2).ilocCols q.1 q.2).equals same ((B.ilocRows p.1 p.2).ilocCols q.1 q.2) := by
  have hrl : rl.sum = A.rows.length := by rw [hA.rows_len]; exact hcut.rl_sum
  have hrl' : rl.sum = B.rows.length := by rw [hB.rows_len, ← hi]; exact hcut.rl_sum
  unfold Frame.equals
  simp only [Frame.ilocRows, Frame.ilocCols, hi, hc, decide_true, Bool.true_and]
  rw [pairwiseSame_pieces _ hrl hrl']
  congr 1
  funext p
  rw [← pairwiseSame_all (sliceBounds cw) (fun q r => pySlice r q.1 q.2) (pairwiseSame same)]
  · apply pairwiseSame_congr
    intro x hx y hy
    apply pairwiseSame_pieces
    · rw [hA.row_width x (List.mem_of_mem_drop (List.mem_of_mem_take hx))]; exact hcut.cw_sum
    · rw [hB.row_width y (List.mem_of_mem_drop (List.mem_of_mem_take hy)), ← hc]; exact hcut.cw_sum
  · simp only [pySlice, List.length_take, List.length_drop, ← hrl, ← hrl']

/-! ### a frame of verdicts -/

theorem off_ones (n i : Nat) (h : i ≤ n) : off (List.replicate n 1) i = i := by
  unfold off
  rw [List.take_replicate, List.sum_replicate_nat]
  omega

theorem sliceBounds_ones (n : Nat) : sliceBounds (List.replicate n 1) = (List.range n).map fun i => (i, i + 1) := by
  rw [sliceBounds_eq, List.length_replicate]
  apply List.map_congr_left
  intro i hi
  have := List.mem_range.1 hi
  rw [off_ones _ _ (by omega), off_ones _ _ (by omega)]

theorem pySlice_one {l : List α} {i : Nat} (h : i < l.length) : pySlice l i (i + 1) = [l[i]] := by
  unfold pySlice
  rw [show i + 1 - i = 1 by omega, List.drop_eq_getElem_cons h]
  rfl

/-- a table of values under one label -/
def verdictFrame {τ σ : Type} (zero : L) (S : List τ) (T : List σ) (v : τ → σ → β) : Frame L L β :=
  { index := S.map fun _ => zero, columns := T.map fun _ => zero, rows := S.map fun p => T.map fun q => v p q }

theorem verdictFrame_wf {τ σ : Type} (zero : L) (S : List τ) (T : List σ) (v : τ → σ → β) : (verdictFrame zero S T v).WF := by
  refine ⟨by simp [verdictFrame, Frame.nrows], ?_⟩
  intro r hr
  simp only [verdictFrame, List.mem_map] at hr
  obtain ⟨p, _, rfl⟩ := hr
  simp [verdictFrame, Frame.ncols]

theorem verdictFrame_cut {τ σ : Type} (zero : L) (S : List τ) (T : List σ) (v : τ → σ → β) :
    (verdictFrame zero S T v).cut (List.replicate S.length 1) (List.replicate T.length 1)
      = S.map fun p => T.map fun q => ({ index := [zero], columns := [zero], rows := [[v p q]] } : Frame L L β) := by
  unfold Frame.cut
  rw [sliceBounds_ones, sliceBounds_ones]
  apply List.ext_getElem (by simp)
  intro i h1 h2
  have hi : i < S.length := by simpa using h1
  apply List.ext_getElem (by simp)
  intro j h3 h4
  have hj : j < T.length := by simpa using h3
  simp only [List.getElem_map, List.getElem_range, Frame.ilocRows, Frame.ilocCols, verdictFrame, Frame.mk.injEq]
  refine ⟨?_, ?_, ?_⟩
  · rw [pySlice_one (by simpa using hi)]; simp
  · rw [pySlice_one (by simpa using hj)]; simp
  · rw [pySlice_one (by simpa using hi)]
    simp only [List.map_cons, List.map_nil, List.getElem_map]
    rw [pySlice_one (by simpa using hj)]
    simp

theorem verdictFrame_isCut {τ σ : Type} (zero : L) {S : List τ} {T : List σ} (v : τ → σ → β) (hS : S ≠ []) (hT : T ≠ []) :
    (verdictFrame zero S T v).IsCut (List.replicate S.length 1) (List.replicate T.length 1) := by
  have h1 : S.length ≠ 0 := fun h => hS (List.length_eq_zero_iff.1 h)
  have h2 : T.length ≠ 0 := fun h => hT (List.length_eq_zero_iff.1 h)
  refine ⟨by simpa using hS, by simpa using hT, ?_, ?_⟩
  · rw [List.sum_replicate_nat]; simp [verdictFrame, Frame.nrows]
  · rw [List.sum_replicate_nat]; simp [verdictFrame, Frame.ncols]

theorem nAryOperation_equals [DecidableEq L] (same : α → α → Bool) (zero : L) (A B : Frame L L α) (rl cw : List Nat) :
    nAryOperation (equalsBlock same zero) (A.cut rl cw) [B.cut rl cw] =
      some ((verdictFrame zero (sliceBounds rl) (sliceBounds cw) fun p q =>
        some (((A.ilocRows p.1 p.2).ilocCols q.1 q.2).equals same ((B.ilocRows p.1 p.2).ilocCols q.1 q.2))).cut
          (List.replicate rl.length 1) (List.replicate cw.length 1)) := by
  rw [← sliceBounds_length rl, ← sliceBounds_length cw, verdictFrame_cut]
  have hrow : ∀ {γ : Type} (f : Nat × Nat → γ) (l : List Nat), (sliceBounds l).map f
      = (List.range l.length).map fun i => f (off l i, off l (i + 1)) := by
    intro γ f l
    rw [sliceBounds_eq, List.map_map]
    rfl
  unfold nAryOperation
  rw [hrow _ rl, ← show (A.cut rl cw).length = rl.length by simp [Frame.cut, sliceBounds_length]]
  apply zipIdx_mapM_some
  intro i hi
  have hi' : i < rl.length := by simpa [Frame.cut, sliceBounds_length] using hi
  have hAi : (A.cut rl cw)[i] = (sliceBounds cw).map fun q =>
      (A.ilocRows (off rl i) (off rl (i + 1))).ilocCols q.1 q.2 := by
    unfold Frame.cut
    simp [sliceBounds_eq rl]
  simp only [hAi]
  rw [hrow _ cw, hrow _ cw]
  rw [← show ((List.range cw.length).map fun j => (A.ilocRows (off rl i) (off rl (i + 1))).ilocCols (off cw j) (off cw (j + 1))).length = cw.length by simp]
  conv => rhs; rw [List.length_map, List.length_range]
  have := zipIdx_mapM_some ((List.range cw.length).map fun j => (A.ilocRows (off rl i) (off rl (i + 1))).ilocCols (off cw j) (off cw (j + 1)))
    (fun c => (List.mapM (fun g : Grid L L α => g[i]?.bind (·[c.2]?)) [B.cut rl cw]).bind (equalsBlock same zero c.1))
    (fun j => ({ index := [zero], columns := [zero], rows := [[some (((A.ilocRows (off rl i) (off rl (i + 1))).ilocCols (off cw j) (off cw (j + 1))).equals same
      ((B.ilocRows (off rl i) (off rl (i + 1))).ilocCols (off cw j) (off cw (j + 1))))]] } : Frame L L (Option Bool))) ?_
  · simpa using this
  · intro j hj
    have hj' : j < cw.length := by simpa using hj
    have hBij : (B.cut rl cw)[i]?.bind (·[j]?) = some ((B.ilocRows (off rl i) (off rl (i + 1))).ilocCols (off cw j) (off cw (j + 1))) := by
      unfold Frame.cut
      rw [List.getElem?_map, sliceBounds_getElem? hi', Option.map_some, Option.bind_some, List.getElem?_map,
        sliceBounds_getElem? hj', Option.map_some]
    simp only [List.mapM_cons, List.mapM_nil, hBij, List.getElem_map, List.getElem_range]
    rfl

/-! ### reducing a frame whose recorded labels and sizes are those of another one -/

theorem mk'_stale {parts : Grid ι κ β} {idx : List ι} {cols : List κ} {rl cw : List Nat} (hi : rl.sum = idx.length) (hc : cw.sum = cols.length)
    (hi0 : idx ≠ []) (hc0 : cols ≠ []) (hrz : 0 ∉ rl) (hcz : 0 ∉ cw) (hp : parts.length = rl.length) (hq : ∀ row ∈ parts, row.length = cw.length) :
    (⟨parts, some idx, some cols, some rl, some cw⟩ : MFrame ι κ β).mk' = some ⟨parts, some idx, some cols, some rl, some cw⟩ := by
  have h1 : idx.length ≠ 0 := fun h => hi0 (List.length_eq_zero_iff.1 h)
  have h2 : cols.length ≠ 0 := fun h => hc0 (List.length_eq_zero_iff.1 h)
  have h3 : (keepNonzero parts rl).map (fun row => keepNonzero row cw) = parts := by
    rw [keepNonzero_all _ _ hp hrz]
    conv => rhs; rw [← List.map_id parts]
    apply List.map_congr_left
    intro row hr
    exact keepNonzero_all _ _ (hq row hr) hcz
  have h4 : ∀ l : List Nat, 0 ∉ l → l.filter (· ≠ 0) = l := by
    intro l hl
    rw [List.filter_eq_self]
    intro x hx
    have : x ≠ 0 := fun h0 => hl (by rw [← h0]; exact hx)
    simpa using this
  unfold MFrame.mk' validAxis filterEmpties
  simp only [hi, hc, h3, h4 rl hrz, h4 cw hcz]
  simp [hi0, hc0]

theorem treeReduceOp_stale [DecidableEq ι] [DecidableEq κ] {γ : Type} (cfg : Cfg) (hp : 1 ≤ cfg.nPartitions) (hr : 1 ≤ cfg.minRow)
    {m : MFrame ι κ α} {V : Frame ι κ α} (hV : V.WF) {rl cwV : List Nat} (hcut : V.IsCut rl cwV) (hparts : m.parts = V.cut rl cwV)
    {cols : List κ} {cw : List Nat} (hcols : m.getColumns = cols) (hcw : m.getColWidths = cw) (hlen : cw.length = cwV.length)
    (hz : 0 ∉ cw) (hsum : cw.sum = cols.length) (hne : cols ≠ []) (h : List α → β) (r : List β → γ) (t : List α → γ)
    (hlaw : ∀ bs : List (List α), r (bs.map h) = t bs.flatten) :
    treeReduceOp cfg h r m = some ⟨(V.reduceColumns unnamed t).cut [1] cwV, some [unnamed], some cols, some [1], some cw⟩ := by
  have hmap : ∀ {ξ κ' α' β' : Type} (g : List α' → β') (b : Frame ξ κ' α'), reduceBlock0 g b = b.mapColumns (fun _ => [unnamed]) (fun c => [g c]) :=
    fun _ _ => rfl
  obtain ⟨h1, h2, h3⟩ := mapped0_spec hV hcut [unnamed] (fun c => [h c]) (fun _ => rfl)
  unfold treeReduceOp treeReduce0
  have h2' : baseMapPartitions (fun b => some (reduceBlock0 h b)) (V.cut rl cwV)
      = some ((mapped0 [unnamed] (fun c => [h c]) rl V).cut (List.replicate rl.length 1) cwV) := h2
  rw [hparts, h2', Option.bind_some]
  generalize hW : mapped0 [unnamed] (fun c => [h c]) rl V = W at *
  have hWcut : W.IsCut (List.replicate rl.length 1) cwV := by
    refine ⟨?_, hcut.cw_ne, ?_, ?_⟩
    · intro h0
      have := congrArg List.length h0
      rw [List.length_replicate] at this
      exact hcut.rl_ne (List.length_eq_zero_iff.1 this)
    · rw [← hW]
      show _ = (List.replicate rl.length [unnamed]).flatten.length
      simp [List.length_flatten, List.map_replicate]
    · rw [← hW]; exact hcut.cw_sum
  have hWc : W.columns = V.columns := by rw [← hW]; rfl
  have hF := columnLocal_mapColumnsI (ι := String) (κ := κ) (fun _ : List String => [unnamed])
    (fun _ c => [r c]) (fun _ _ _ _ => rfl)
  have hR : W.mapColumns (fun _ => [unnamed]) (fun c => [r c]) = V.reduceColumns unnamed t := by
    rw [mapColumns_one]
    unfold Frame.reduceColumns
    simp only [Frame.mk.injEq, true_and, List.cons.injEq, and_true]
    refine ⟨hWc, ?_⟩
    unfold Frame.cols
    rw [List.map_map, List.map_map, show W.ncols = V.ncols by unfold Frame.ncols; rw [hWc]]
    apply List.map_congr_left
    intro j hj
    have hj : j < V.ncols := List.mem_range.1 hj
    simp only [Function.comp_def]
    rw [h3 j hj]
    have hs : rl.sum = (V.column j).length := by rw [hV.column_length hj, hcut.rl_sum]
    have := hlaw (piecesOf rl (V.column j))
    rw [piecesOf_flatten hs] at this
    rw [← this]
    congr 1
    generalize piecesOf rl (V.column j) = bs
    induction bs with
    | nil => rfl
    | cons b bs ih => simp [ih]
  obtain ⟨lens, ⟨_, h5, _, _, h6⟩, h7⟩ := mapAxis_rows_cut' cfg hp hr hF h1 hWcut false none (by simp)
    none (by simp) (by simp)
  have h7' : mapAxisPartitions cfg true (fun b : Frame String κ β => some (reduceBlock0 r b))
      (W.cut (List.replicate rl.length 1) cwV) false none none = some ((V.reduceColumns unnamed t).cut lens cwV) := by
    refine Eq.trans h7 ?_
    congr 1
    unfold Frame.cut
    apply List.map_congr_left
    intro p _
    apply List.map_congr_left
    intro q _
    rw [← hR, ← Frame.ilocCols_ilocRows]
    congr 1
    exact h1.mapColumns_ilocCols (fun _ => [unnamed]) (fun c => [r c]) (fun _ _ _ => rfl) _ _
  rw [h7', Option.bind_some]
  obtain ⟨zs, rfl⟩ := zerosLast_sum_one (h6 rfl rfl) (by rw [h5]; rfl)
  unfold reduceMeta0
  rw [hcols, hcw]
  obtain ⟨t', ht⟩ := sliceBounds_one zs
  have hk : keepNonzero ((V.reduceColumns unnamed t).cut (1 :: zs) cwV) [1] = (V.reduceColumns unnamed t).cut [1] cwV := by
    unfold Frame.cut
    rw [ht, show sliceBounds [1] = [(0, 1)] from rfl]
    simp [keepNonzero]
  have hk2 : ((V.reduceColumns unnamed t).cut [1] cwV).map (fun row => keepNonzero row cw) = (V.reduceColumns unnamed t).cut [1] cwV := by
    conv => rhs; rw [← List.map_id ((V.reduceColumns unnamed t).cut [1] cwV)]
    apply List.map_congr_left
    intro row hrow
    apply keepNonzero_all _ _ _ hz
    unfold Frame.cut at hrow
    obtain ⟨p, _, rfl⟩ := List.mem_map.1 hrow
    simp [sliceBounds_length, hlen]
  have h4 : cw.filter (· ≠ 0) = cw := by
    rw [List.filter_eq_self]
    intro x hx
    have : x ≠ 0 := fun h0 => hz (by rw [← h0]; exact hx)
    simpa using this
  unfold MFrame.mk' validAxis filterEmpties
  simp only [hsum, hk, hk2, h4]
  simp [hne]

theorem allTrue_law (bs : List (List (Option Bool))) : allTrue (bs.map allTrue) = allTrue bs.flatten := by
  unfold allTrue
  congr 1
  induction bs with
  | nil => rfl
  | cons b bs ih =>
    simp only [List.map_cons, List.all_cons, List.flatten_cons, List.all_append]
    rw [← ih]
    cases h : b.all (· != some false) <;> simp

theorem reduceColumns_wf {ι' : Type} (x : ι') (t : List α → β) (V : Frame ι κ α) : (V.reduceColumns x t).WF := by
  refine ⟨rfl, ?_⟩
  intro r hr
  simp only [Frame.reduceColumns, List.mem_singleton] at hr
  subst hr
  simp [Frame.reduceColumns, Frame.cols, Frame.ncols]

theorem allCells_stale [DecidableEq L] (cfg : Cfg) (hp : 1 ≤ cfg.nPartitions) (hr : 1 ≤ cfg.minRow)
    {m : MFrame L L (Option Bool)} {V : Frame L L (Option Bool)} (hV : V.WF) {rl cwV : List Nat} (hcut : V.IsCut rl cwV)
    (hparts : m.parts = V.cut rl cwV) {cols : List L} {cw : List Nat} (hcols : m.getColumns = cols) (hcw : m.getColWidths = cw)
    (hlen : cw.length = cwV.length) (hz : 0 ∉ cw) (hsum : cw.sum = cols.length) (hne : cols ≠ []) :
    allCells cfg m = some (some (V.cols.all fun c => c.all (· != some false))) := by
  unfold allCells
  rw [treeReduceOp_stale cfg hp hr hV hcut hparts hcols hcw hlen hz hsum hne allTrue allTrue allTrue allTrue_law, Option.bind_some]
  generalize hR : V.reduceColumns unnamed allTrue = R
  have hRwf : R.WF := by rw [← hR]; exact reduceColumns_wf _ _ _
  have hRcut : R.IsCut [1] cwV := by
    rw [← hR]
    exact ⟨by simp, hcut.cw_ne, rfl, hcut.cw_sum⟩
  have hT : LFrame.transpose (⟨⟨R.cut [1] cwV, some [unnamed], some cols, some [1], some cw⟩, false, false⟩ : LFrame String L (Option Bool))
      = some ⟨⟨R.transpose.cut cwV [1], some cols, some [unnamed], some cw, some [1]⟩, false, false⟩ := by
    unfold LFrame.transpose
    simp only
    rw [transpose_cut hRwf hRcut, mk'_stale hsum rfl hne (by simp) hz (by simp) (by simp [Frame.cut, sliceBounds_length, hlen])]
    · rfl
    · intro row hrow
      unfold Frame.cut at hrow
      obtain ⟨p, _, rfl⟩ := List.mem_map.1 hrow
      simp [sliceBounds_length]
  rw [hT, Option.bind_some]
  have hTcut : R.transpose.IsCut cwV [1] := ⟨hRcut.cw_ne, by simp, hRcut.cw_sum, hRcut.rl_sum⟩
  have e2 := treeReduceOp_stale cfg hp hr (m := ⟨R.transpose.cut cwV [1], some cols, some [unnamed], some cw, some [1]⟩) hRwf.transpose hTcut rfl
    (cols := [unnamed]) (cw := [1]) rfl rfl rfl (by simp) rfl (by simp) allTrue allTrue allTrue allTrue_law
  rw [e2, Option.bind_some]
  generalize hF : R.transpose.reduceColumns unnamed allTrue = F
  have hFwf : F.WF := by rw [← hF]; exact reduceColumns_wf _ _ _
  have hFi : F.index = [unnamed] := by rw [← hF]; rfl
  have hFc : F.columns = [unnamed] := by rw [← hF, ← hR]; rfl
  have hrep : (⟨F.cut [1] [1], some [unnamed], some [unnamed], some [1], some [1]⟩ : MFrame String String (Option Bool)).Represents F :=
    ⟨hFwf, ⟨[1], [1], ⟨by simp, by simp, by rw [Frame.nrows, hFi]; rfl, by rw [Frame.ncols, hFc]; rfl⟩, rfl, Or.inr rfl, Or.inr rfl⟩,
      Or.inr (by rw [hFi]), Or.inr (by rw [hFc])⟩
  rw [hrep.toPandas none, Option.bind_some]
  have hrows : R.transpose.rows = (V.cols.map allTrue).map ([·]) := by
    rw [← hR]
    have hl : (V.cols.map allTrue).length = V.columns.length := by simp [Frame.cols, Frame.ncols]
    simp only [Frame.transpose, Frame.reduceColumns, Frame.ncols]
    generalize V.cols.map allTrue = r at hl
    apply List.ext_getElem?
    intro i
    rw [← hl, List.getElem?_map, List.getElem?_map]
    by_cases hi : i < r.length
    · rw [List.getElem?_range hi]
      simp [hi]
    · rw [List.getElem?_eq_none (by simpa using hi), List.getElem?_eq_none (by simpa using hi)]
      rfl
  have hcolsT : R.transpose.cols = [V.cols.map allTrue] := by
    have hn : R.transpose.ncols = 1 := by rw [← hR]; rfl
    generalize V.cols.map allTrue = r at hrows
    unfold Frame.cols
    rw [hn]
    simp only [List.range_one, List.map_cons, List.map_nil, Frame.column, hrows, List.cons.injEq, and_true]
    clear hrows
    induction r with
    | nil => rfl
    | cons x r ih => simp [ih]
  have hFr : F.rows = [[allTrue (V.cols.map allTrue)]] := by
    rw [← hF]
    simp only [Frame.reduceColumns, hcolsT, List.map_cons, List.map_nil]
  unfold onlyValue
  rw [hFr, allTrue_law]
  simp only [allTrue, List.all_flatten]

theorem all_cols_rows {V : Frame ι κ α} (h : V.WF) (p : α → Bool) : (V.cols.all fun c => c.all p) = V.rows.all fun r => r.all p := by
  rw [Bool.eq_iff_iff]
  simp only [List.all_eq_true, Frame.cols, List.mem_map, List.mem_range, Frame.column, forall_exists_index, and_imp, forall_apply_eq_imp_iff₂,
    List.mem_filterMap]
  constructor
  · intro hv r hr x hx
    obtain ⟨j, hj, e⟩ := List.getElem_of_mem hx
    exact hv j (by rw [Frame.ncols, ← h.row_width r hr]; exact hj) x r hr (by rw [List.getElem?_eq_getElem hj, e])
  · intro hv j _ x r hr hx
    exact hv r hr x (List.mem_of_getElem? hx)

/-! ### the two alignments leave frames with the same labels alone -/

theorem filterEmpties_keep {m : MFrame ι κ α} (hr : ∀ rl, m.rowLens = some rl → 0 ∉ rl ∧ m.parts.length = rl.length)
    (hc : ∀ cw, m.colWidths = some cw → 0 ∉ cw ∧ ∀ row ∈ m.parts, row.length = cw.length) : filterEmpties m = m := by
  have h4 : ∀ l : List Nat, 0 ∉ l → l.filter (· ≠ 0) = l := by
    intro l hl
    rw [List.filter_eq_self]
    intro x hx
    have : x ≠ 0 := fun h0 => hl (by rw [← h0]; exact hx)
    simpa using this
  obtain ⟨parts, idx, cols, rl, cw⟩ := m
  cases rl with
  | none => rfl
  | some rl =>
    cases cw with
    | none => rfl
    | some cw =>
      obtain ⟨h1, h2⟩ := hr rl rfl
      obtain ⟨h3, h5⟩ := hc cw rfl
      unfold filterEmpties
      simp only
      split
      · rfl
      · rw [keepNonzero_all _ _ h2 h1, h4 rl h1, h4 cw h3]
        congr 1
        conv => rhs; rw [← List.map_id parts]
        apply List.map_congr_left
        intro row hrow
        exact keepNonzero_all _ _ (h5 row hrow) h3

theorem cut_length (df : Frame ι κ α) (rl cw : List Nat) : (df.cut rl cw).length = rl.length ∧ ∀ row ∈ df.cut rl cw, row.length = cw.length := by
  refine ⟨by simp [Frame.cut, sliceBounds_length], ?_⟩
  intro row hrow
  unfold Frame.cut at hrow
  obtain ⟨p, _, rfl⟩ := List.mem_map.1 hrow
  simp [sliceBounds_length]

/-- two frames with the same labels along the axis, divided without empty bands: the second is divided like the first -/
theorem copartition_same [DecidableEq L] (P : JoinOps L) (hP : P.Good) (cfg : Cfg) (hp : 1 ≤ cfg.nPartitions) (hr : 1 ≤ cfg.minRow)
    (hc : 1 ≤ cfg.minCol) (axis0 : Bool) (nan : α) (p q : Piece L α) (hpo : p.Ok axis0) (hqo : q.Ok axis0) (hph : p.has = true)
    (hqh : q.has = true) (hl : q.df.axisLabels axis0 = p.df.axisLabels axis0) (hz : 0 ∉ p.along ∧ 0 ∉ q.along) :
    ∃ lens, 0 ∉ lens ∧ lens ≠ [] ∧ lens.sum = (p.df.axisLabels axis0).length ∧
      copartition P cfg axis0 nan p.m [q.m] =
        some ([p.df.cutA axis0 lens p.across, q.df.cutA axis0 lens q.across], some (p.df.axisLabels axis0), some lens) := by
  have hjl : jLabels P axis0 p [q] = p.df.axisLabels axis0 := by
    unfold jLabels joinedLabels allSame
    simp [hl]
  have hal : Alignable P axis0 p [q] := by
    refine alignable_of hP (Or.inl (by simpa using hl)) ?_
    intro _ _
    exact Or.inr (Or.inl (by simpa using hl))
  obtain ⟨lens, oJ, oL, hco, hoJ, hrest, _⟩ :=
    copartition_spec P cfg hp hr hc axis0 nan p [q] (by simp [hpo, hqo]) hal
  obtain ⟨hlne, hls, hoL, hshape⟩ := hrest ⟨p, by simp, hph⟩
  have hoJ : oJ = some (jLabels P axis0 p [q]) := hoJ.resolve_right (fun h => by simp at h)
  have hoL : oL = some lens := hoL.resolve_right (fun h => by simp at h)
  subst hoJ; subst hoL
  rw [hjl] at hls
  refine ⟨lens, ?_, hlne, hls, ?_⟩
  · rcases hshape with ⟨x, hx, _, rfl⟩ | ⟨_, x, hx, hne⟩
    · simp only [List.mem_cons, List.not_mem_nil, or_false] at hx
      rcases hx with rfl | rfl
      · exact hz.1
      · exact hz.2
    · exfalso
      apply hne
      rw [hjl]
      simp only [List.mem_cons, List.not_mem_nil, or_false] at hx
      rcases hx with rfl | rfl
      · rfl
      · exact hl
  · have hix : ∀ e : Piece L α × Nat, e.1.df.axisLabels axis0 = p.df.axisLabels axis0 → jIndexer P axis0 p [q] e =
        some ((List.range (p.df.axisLabels axis0).length).map some) := by
      intro e he
      unfold jIndexer reindexer
      have : joinedLabels P axis0 (p.df.axisLabels axis0) ([q].map (·.df.axisLabels axis0)) = p.df.axisLabels axis0 := hjl
      simp only [this, he, ↓reduceIte]
    simp only [List.map_cons, List.map_nil] at hco
    rw [hco, hjl]
    unfold alignedBlocks
    simp only [List.zipIdx_cons, List.zipIdx_nil, List.map_cons, List.map_nil, hjl]
    rw [hix (p, 0) rfl, hix (q, 0 + 1) hl]
    simp only [Option.getD_some, Piece.target, hph, hqh, ↓reduceIte]
    rw [reindexFn_id hpo.wf, ← hl, reindexFn_id hqo.wf]

/-- no block is empty -/
def MFrame.NoEmptyBlocks (m : MFrame ι κ α) : Prop := ∀ row ∈ m.parts, ∀ b ∈ row, b.nrows ≠ 0 ∧ b.ncols ≠ 0

theorem noEmptyBlocks_lens {m : MFrame ι κ α} {df : Frame ι κ α} {rl cw : List Nat} (hcut : df.IsCut rl cw) (hp : m.parts = df.cut rl cw)
    (h : m.NoEmptyBlocks) : 0 ∉ rl ∧ 0 ∉ cw := by
  have key : ∀ i j, i < rl.length → j < cw.length → off rl i ≠ off rl (i + 1) ∧ off cw j ≠ off cw (j + 1) := by
    intro i j hi hj
    have hm : (df.ilocRows (off rl i) (off rl (i + 1))).ilocCols (off cw j) (off cw (j + 1)) ∈ (sliceBounds cw).map (fun q =>
        (df.ilocRows (off rl i) (off rl (i + 1))).ilocCols q.1 q.2) :=
      List.mem_map.2 ⟨(off cw j, off cw (j + 1)), List.mem_of_getElem? (sliceBounds_getElem? hj), rfl⟩
    have hm2 : (sliceBounds cw).map (fun q => (df.ilocRows (off rl i) (off rl (i + 1))).ilocCols q.1 q.2) ∈ m.parts := by
      rw [hp]
      exact List.mem_map.2 ⟨(off rl i, off rl (i + 1)), List.mem_of_getElem? (sliceBounds_getElem? hi), rfl⟩
    obtain ⟨h1, h2⟩ := h _ hm2 _ hm
    simp only [Frame.nrows, Frame.ncols, Frame.ilocRows, Frame.ilocCols, pySlice, List.length_take, List.length_drop] at h1 h2
    omega
  have hr0 : 0 < rl.length := List.length_pos_iff.2 hcut.rl_ne
  have hc0 : 0 < cw.length := List.length_pos_iff.2 hcut.cw_ne
  constructor
  · intro h0
    obtain ⟨i, hi, e⟩ := List.getElem_of_mem h0
    apply (key i 0 hi hc0).1
    rw [off_succ hi, e]; rfl
  · intro h0
    obtain ⟨j, hj, e⟩ := List.getElem_of_mem h0
    apply (key 0 j hr0 hj).2
    rw [off_succ hj, e]; rfl

theorem nAryOp_equals [DecidableEq L] (P : JoinOps L) (hP : P.Good) (cfg : Cfg) (hp : 1 ≤ cfg.nPartitions) (hr : 1 ≤ cfg.minRow)
    (hc : 1 ≤ cfg.minCol) (nan : α) (same : α → α → Bool) (zero : L) {m1 m2 : MFrame L L α} {A B : Frame L L α} (h1 : m1.Represents A)
    (h2 : m2.Represents B) (hi : A.index = B.index) (hcl : A.columns = B.columns) (hz1 : m1.NoEmptyBlocks) (hz2 : m2.NoEmptyBlocks) :
    ∃ rl cw, A.IsCut rl cw ∧ 0 ∉ rl ∧ 0 ∉ cw ∧ nAryOp P cfg nan (equalsBlock same zero) m1 [m2] =
      some ⟨(verdictFrame zero (sliceBounds rl) (sliceBounds cw) fun p q =>
        some (((A.ilocRows p.1 p.2).ilocCols q.1 q.2).equals same ((B.ilocRows p.1 p.2).ilocCols q.1 q.2))).cut
          (List.replicate rl.length 1) (List.replicate cw.length 1), some A.index, some A.columns, some rl, some cw⟩ := by
  obtain ⟨rl1, cw1, hcut1, hp1, hrl1, hcw1⟩ := h1.blocks
  obtain ⟨rl2, cw2, hcut2, hp2, hrl2, hcw2⟩ := h2.blocks
  obtain ⟨z1, z2⟩ := noEmptyBlocks_lens hcut1 hp1 hz1
  obtain ⟨z3, z4⟩ := noEmptyBlocks_lens hcut2 hp2 hz2
  obtain ⟨rl, w1, w2, w3, hco⟩ := copartition_same P hP cfg hp hr hc true nan ⟨m1, A, true, rl1, cw1⟩ ⟨m2, B, true, rl2, cw2⟩
    ⟨h1.wf, fun _ => hcut1, hp1, fun _ => getRowLens_cut hcut1 hp1 hrl1, h1.getIndex⟩
    ⟨h2.wf, fun _ => hcut2, hp2, fun _ => getRowLens_cut hcut2 hp2 hrl2, h2.getIndex⟩ rfl rfl hi.symm ⟨z1, z3⟩
  simp only [Frame.cutA, Frame.axisLabels, ↓reduceIte] at hco w3
  have real : ∀ {m : MFrame L L α} {df : Frame L L α} {cw : List Nat}, m.Represents df → (m.colWidths = none ∨ m.colWidths = some cw) → 0 ∉ cw →
      df.index = A.index → cw ≠ [] → cw.sum = df.ncols →
      realigned (some A.index) (some rl) (df.cut rl cw, m) = some ⟨df.cut rl cw, some A.index, m.columns, some rl, m.colWidths⟩ ∧
      (⟨df.cut rl cw, some A.index, m.columns, some rl, m.colWidths⟩ : MFrame L L α).Represents df := by
    intro m df cw hm hw hz hidx hne hsum
    have hrep : (⟨df.cut rl cw, some A.index, m.columns, some rl, m.colWidths⟩ : MFrame L L α).Represents df :=
      ⟨hm.wf, ⟨rl, cw, ⟨w2, hne, by rw [w3, Frame.nrows, hidx], hsum⟩, rfl, Or.inr rfl, hw⟩, Or.inr (by rw [hidx]), hm.columns⟩
    refine ⟨?_, hrep⟩
    obtain ⟨m', e1, _⟩ := represents_mk' hrep
    have e2 := mk'_eq_filterEmpties e1
    unfold realigned
    rw [e1, e2, filterEmpties_keep]
    · intro rl' h'
      cases h'
      exact ⟨w1, (cut_length df rl cw).1⟩
    · intro cw' h'
      rcases hw with hw | hw
      · simp only [hw] at h'; cases h'
      · simp only [hw] at h'
        cases h'
        exact ⟨hz, (cut_length df rl cw).2⟩
  obtain ⟨ra, ra'⟩ := real h1 hcw1 z2 rfl hcut1.cw_ne hcut1.cw_sum
  obtain ⟨rb, rb'⟩ := real h2 hcw2 z4 hi.symm hcut2.cw_ne hcut2.cw_sum
  have ha1 : A.IsCut rl cw1 := ⟨w2, hcut1.cw_ne, w3, hcut1.cw_sum⟩
  have hb1 : B.IsCut rl cw2 := ⟨w2, hcut2.cw_ne, by rw [w3, Frame.nrows, hi], hcut2.cw_sum⟩
  obtain ⟨cw, v1, v2, v3, hco2⟩ := copartition_same P hP cfg hp hr hc false nan
    ⟨⟨A.cut rl cw1, some A.index, m1.columns, some rl, m1.colWidths⟩, A, true, cw1, rl⟩
    ⟨⟨B.cut rl cw2, some A.index, m2.columns, some rl, m2.colWidths⟩, B, true, cw2, rl⟩
    ⟨h1.wf, fun _ => ha1, rfl, fun _ => getColWidths_cut ha1 rfl hcw1, ra'.getColumns⟩
    ⟨h2.wf, fun _ => hb1, rfl, fun _ => getColWidths_cut hb1 rfl hcw2, rb'.getColumns⟩ rfl rfl hcl.symm ⟨z2, z4⟩
  simp only [Frame.cutA, Frame.axisLabels, Bool.false_eq_true, ↓reduceIte] at hco2 v3
  refine ⟨rl, cw, ⟨w2, v2, w3, v3⟩, w1, v1, ?_⟩
  unfold nAryOp
  rw [hco, Option.bind_some]
  simp only [List.zip_cons_cons, List.zip_nil_right, List.mapM_cons, List.mapM_nil, ra, rb]
  simp only [Option.bind_eq_bind, Option.bind_some, Option.pure_def]
  rw [hco2, Option.bind_some]
  have hb : nAryBlocks (equalsBlock same zero) [A.cut rl cw, B.cut rl cw] = nAryOperation (equalsBlock same zero) (A.cut rl cw) [B.cut rl cw] := by
    unfold nAryBlocks
    have e1 : ∀ d : Frame L L α, (d.cut rl cw).isEmpty = false := by
      intro d
      have := (cut_length d rl cw).1
      have h0 : rl.length ≠ 0 := fun h => w2 (List.length_eq_zero_iff.1 h)
      cases hd : d.cut rl cw with
      | nil => rw [hd] at this; exact absurd this.symm h0
      | cons _ _ => rfl
    simp only [e1, List.any_cons, List.any_nil, Bool.or_self, Bool.false_eq_true, ↓reduceIte]
  rw [hb, nAryOperation_equals, Option.bind_some, mk'_stale w3 v3]
  · intro h0; rw [h0] at w3; exact w2 (by
      cases rl with
      | nil => rfl
      | cons a as => simp only [List.sum_cons, List.length_nil] at w3; exact absurd (by simp; omega) w1)
  · intro h0; rw [h0] at v3; exact v2 (by
      cases cw with
      | nil => rfl
      | cons a as => simp only [List.sum_cons, List.length_nil] at v3; exact absurd (by simp; omega) v1)
  · exact w1
  · exact v1
  · rw [(cut_length _ _ _).1, List.length_replicate]
  · intro row hrow
    rw [(cut_length _ _ _).2 row hrow, List.length_replicate]

theorem equals_spec [DecidableEq L] (P : JoinOps L) (hP : P.Good) (cfg : Cfg) (hp : 1 ≤ cfg.nPartitions) (hr : 1 ≤ cfg.minRow)
    (hc : 1 ≤ cfg.minCol) (nan : α) (same : α → α → Bool) (zero : L) {m1 m2 : MFrame L L α} {A B : Frame L L α} (h1 : m1.Represents A)
    (h2 : m2.Represents B) (hz1 : m1.NoEmptyBlocks) (hz2 : m2.NoEmptyBlocks) :
    m1.equals P cfg nan same zero m2 = some (some (A.equals same B)) := by
  unfold MFrame.equals
  rw [h1.getIndex, h2.getIndex, h1.getColumns, h2.getColumns]
  by_cases hl : A.index ≠ B.index ∨ A.columns ≠ B.columns
  · rw [if_pos hl]
    unfold Frame.equals
    rcases hl with hl | hl <;> simp [hl]
  · rw [if_neg hl]
    have hi : A.index = B.index := Decidable.byContradiction fun h => hl (Or.inl h)
    have hcl : A.columns = B.columns := Decidable.byContradiction fun h => hl (Or.inr h)
    obtain ⟨rl, cw, hcut, w1, v1, e⟩ := nAryOp_equals P hP cfg hp hr hc nan same zero h1 h2 hi hcl hz1 hz2
    rw [e, Option.bind_some]
    have hrb := sliceBounds_ne_nil hcut.rl_ne
    have hcb := sliceBounds_ne_nil hcut.cw_ne
    have hne : A.columns ≠ [] := by
      intro h0
      have := hcut.cw_sum
      rw [Frame.ncols, h0] at this
      exact hcut.cw_ne (by
        cases cw with
        | nil => rfl
        | cons a as => simp only [List.sum_cons, List.length_nil] at this; exact absurd (by simp; omega) v1)
    have hvc := verdictFrame_isCut zero (S := sliceBounds rl) (T := sliceBounds cw) (fun p q =>
        some (((A.ilocRows p.1 p.2).ilocCols q.1 q.2).equals same ((B.ilocRows p.1 p.2).ilocCols q.1 q.2))) hrb hcb
    rw [sliceBounds_length, sliceBounds_length] at hvc
    rw [allCells_stale cfg hp hr (verdictFrame_wf _ _ _ _) hvc rfl (cols := A.columns) (cw := cw) rfl rfl (by simp) v1 hcut.cw_sum hne,
      equals_blocks same h1.wf h2.wf hi hcl hcut]
    congr 2
    rw [all_cols_rows (verdictFrame_wf _ _ _ _)]
    simp only [verdictFrame, List.all_map, Function.comp_def]
    congr 1
    funext p
    congr 1
    funext q
    generalize ((A.ilocRows p.1 p.2).ilocCols q.1 q.2).equals same ((B.ilocRows p.1 p.2).ilocCols q.1 q.2) = b
    cases b <;> rfl

/-! ### one row or column at a time -/

theorem axisPos_nat {n i : Nat} (h : i < n) : axisPos n (i : Int) = some i := by
  unfold axisPos
  simp [h]

theorem picked_colon (n : Nat) : (IKey.slice none none).picked n = some (.many (List.range n)) := by
  simp [IKey.picked, IKey.addressed, List.range_eq_range']

theorem iloc_row [DecidableEq L] (cfg : Cfg) (hp : 1 ≤ cfg.nPartitions) (hmr : 1 ≤ cfg.minRow) (hmc : 1 ≤ cfg.minCol)
    (known : Nat → Nat → Bool × Bool) (nan : α) (unnamed : L) {m : LFrame L L α} {df : Frame L L α} (h : m.Shows df) (hn : 0 < df.ncols)
    {i : Nat} (hi : i < df.nrows) :
    ∃ o, m.ilocAt cfg known nan unnamed (.int i) (.slice none none) = some o ∧
      o.Is (.series (df.index[i]'hi) df.columns (df.rows[i]'(by rw [h.wf.rows_len]; exact hi))) := by
  have hi' : i < df.rows.length := by rw [h.wf.rows_len]; exact hi
  obtain ⟨o, s, e1, e2, e3⟩ := ilocAt_spec cfg hp hmr hmc known nan unnamed h (r := .int i) (c := .slice none none) (p := .one i)
    (q := .many (List.range df.ncols)) (by simp [IKey.picked, axisPos_nat hi]) (picked_colon _) (fun e => by cases e)
    (by intro _; simp [Pick.list]; omega) (Or.inr ⟨by simp [Pick.list], List.nodup_range⟩)
  refine ⟨o, e1, ?_⟩
  have : df.ilocAt (.int i) (.slice none none) = some (.series (df.index[i]'hi) df.columns (df.rows[i]'hi')) := by
    unfold Frame.ilocAt
    rw [show (IKey.int i).picked df.index.length = some (.one i) by simp [IKey.picked, axisPos_nat (show i < df.index.length from hi)], picked_colon]
    have hidx : df.index[i]? = some (df.index[i]'hi) := List.getElem?_eq_getElem hi
    simp only [Option.bind_some, Frame.located, hidx, List.getElem?_eq_getElem hi', Option.map_some]
    rw [takeList_range df.columns]
    congr 2
    have := h.wf.row_width _ (List.getElem_mem hi')
    rw [← this, takeList_range]
  rw [this] at e2
  cases e2
  exact e3

theorem iloc_column [DecidableEq L] (cfg : Cfg) (hp : 1 ≤ cfg.nPartitions) (hmr : 1 ≤ cfg.minRow) (hmc : 1 ≤ cfg.minCol)
    (known : Nat → Nat → Bool × Bool) (nan : α) (unnamed : L) {m : LFrame L L α} {df : Frame L L α} (h : m.Shows df) (hn : 0 < df.nrows)
    {j : Nat} (hj : j < df.ncols) :
    ∃ o, m.ilocAt cfg known nan unnamed (.slice none none) (.int j) = some o ∧
      o.Is (.series (df.columns[j]'hj) df.index (df.column j)) := by
  obtain ⟨o, s, e1, e2, e3⟩ := ilocAt_spec cfg hp hmr hmc known nan unnamed h (r := .slice none none) (c := .int j)
    (p := .many (List.range df.nrows)) (q := .one j) (picked_colon _) (by simp [IKey.picked, axisPos_nat hj])
    (by intro _; simp [Pick.list]; omega) (fun e => by cases e) (Or.inr ⟨List.nodup_range, by simp [Pick.list]⟩)
  refine ⟨o, e1, ?_⟩
  have : df.ilocAt (.slice none none) (.int j) = some (.series (df.columns[j]'hj) df.index (df.column j)) := by
    unfold Frame.ilocAt
    rw [show (IKey.int j).picked df.columns.length = some (.one j) by simp [IKey.picked, axisPos_nat (show j < df.columns.length from hj)], picked_colon]
    have hc : df.columns[j]? = some (df.columns[j]'hj) := List.getElem?_eq_getElem hj
    simp only [Option.bind_some, Frame.located, hc, Option.map_some]
    rw [takeList_range df.index, show df.index.length = df.rows.length from h.wf.rows_len.symm, takeList_range]
    rfl
  rw [this] at e2
  cases e2
  exact e3

/-! ### `asof` -/

theorem keepWhere_zip {τ σ : Type} (keep : σ → Bool) : ∀ (l : List τ) (r : List σ), r.length = l.length →
    keepWhere (r.map keep) l = ((l.zip r).filter fun e => keep e.2).map (·.1)
  | [], [], _ => rfl
  | [], _ :: _, h => by simp at h
  | _ :: _, [], h => by simp at h
  | x :: l, y :: r, h => by
    have ih := keepWhere_zip keep l r (by simpa using h)
    unfold keepWhere at ih ⊢
    simp only [List.map_cons, List.zip_cons_cons, List.filter_cons]
    cases keep y <;> simp [ih]

theorem find?_zip_of_mem {τ σ : Type} [DecidableEq τ] : ∀ (l : List τ) (r : List σ), l.Nodup → ∀ x y, (x, y) ∈ l.zip r →
    (l.zip r).find? (·.1 == x) = some (x, y)
  | [], _, _, _, _, h => by simp at h
  | _ :: _, [], _, _, _, h => by simp at h
  | a :: l, b :: r, hn, x, y, h => by
    simp only [List.zip_cons_cons, List.mem_cons, Prod.mk.injEq] at h
    rw [List.nodup_cons] at hn
    rcases h with ⟨rfl, rfl⟩ | h
    · simp
    · have hx : x ∈ l := (List.of_mem_zip h).1
      have : a ≠ x := fun e => hn.1 (e ▸ hx)
      rw [List.zip_cons_cons, List.find?_cons_of_neg (by simpa using this)]
      exact find?_zip_of_mem l r hn.2 x y h

theorem reindexIndex_rows [DecidableEq ι] {df : Frame ι κ α} (h : df.WF) (hn : df.index.Nodup) (fill : α) (J : List ι) :
    df.reindexIndex fill J = some (Frame.mk J df.columns
      (J.map fun x => (((df.index.zip df.rows).find? (·.1 == x)).map (·.2)).getD (List.replicate df.ncols fill))) := by
  unfold Frame.reindexIndex
  by_cases hJ : df.index = J
  · subst hJ
    rw [if_pos rfl]
    congr 1
    obtain ⟨idx, cols, rows⟩ := df
    simp only [Frame.mk.injEq, true_and]
    have hl := h.rows_len
    simp only at hl hn
    apply List.ext_getElem (by simpa using hl)
    intro i h1 h2
    have hi : i < idx.length := by rw [← hl]; exact h1
    rw [List.getElem_map, find?_zip_of_mem idx rows hn idx[i] rows[i]]
    · rfl
    · rw [List.mem_iff_getElem]
      exact ⟨i, by simp; omega, by simp⟩
  · rw [if_neg hJ, if_pos hn]
