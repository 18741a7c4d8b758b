import Verif.Model.SortColumns
import Verif.Lemmas.Reindex
import Verif.Lemmas.SortIndex
import Verif.Lemmas.Equals
import Verif.Lemmas.GroupDict

variable {L ι κ α Q : Type}

theorem perm_range_eq_of_takeList {τ : Type} {l : List τ} (hn : l.Nodup) {P : List Nat} (hP : ∀ p ∈ P, p < l.length)
    (e : takeList l P = l) : P = List.range l.length := by
  have hl : P.length = l.length := by rw [← takeList_length hP, e]
  refine List.ext_getElem (by simp [hl]) fun i h1 h2 => ?_
  have hi : i < l.length := by omega
  have e1 : (takeList l P)[i]? = l[i]? := by rw [e]
  have e2 : ∀ (P : List Nat) (hP : ∀ p ∈ P, p < l.length) (i : Nat) (h1 : i < P.length), (takeList l P)[i]? = l[P[i]]? := by
    intro P
    induction P with
    | nil => intro _ i h; simp at h
    | cons p P ih =>
      intro hP i h1
      rw [takeList_cons (hP p (by simp))]
      cases i with
      | zero => simp
      | succ i => simpa using ih (fun q hq => hP q (by simp [hq])) i (by simpa using h1)
  rw [e2 P hP i h1] at e1
  have h3 : P[i] < l.length := hP _ (List.getElem_mem h1)
  rw [List.getElem?_eq_getElem h3, List.getElem?_eq_getElem hi] at e1
  simp only [List.getElem_range]
  exact (List.getElem_inj hn).1 (Option.some.inj e1)

/-- reindexing by the labels in another order takes the columns in that order -/
theorem reindexColumns_takeCols [DecidableEq κ] {df : Frame ι κ α} (h : df.WF) (hn : df.columns.Nodup) (fill : α) {P : List Nat}
    (hP : ∀ p ∈ P, p < df.ncols) : df.reindexColumns fill (takeList df.columns P) = some (df.takeCols P) := by
  have hP' : ∀ p ∈ P, p < df.columns.length := hP
  unfold Frame.reindexColumns
  by_cases e : df.columns = takeList df.columns P
  · rw [if_pos e]
    rw [perm_range_eq_of_takeList hn hP' e.symm]
    exact congrArg some (takeCols_all h).symm
  · rw [if_neg e, if_pos hn]
    unfold Frame.takeCols
    congr 2
    refine List.map_congr_left fun r hr => ?_
    have hw : r.length = df.columns.length := h.row_width r hr
    clear e hP
    induction P with
    | nil => rfl
    | cons p P ih =>
      have hp := hP' p (by simp)
      rw [takeList_cons hp, takeList_cons (by omega), List.map_cons, ih fun q hq => hP' q (by simp [hq])]
      congr 1
      rw [find?_zip_of_mem df.columns r hn df.columns[p] r[p] ?_]
      · rfl
      · rw [List.mem_iff_getElem]
        exact ⟨p, by simp; omega, by simp⟩

/-- a row whose label occurs once -/
theorem rowNamed_of_count [DecidableEq ι] {df : Frame ι κ α} (h : df.WF) {x : ι} {p : Nat} (hp : df.index[p]? = some x)
    (hc : df.index.count x = 1) : ∃ r, df.rows[p]? = some r ∧ df.rowNamed x = some r := by
  have hlt : p < df.index.length := by
    rcases Nat.lt_or_ge p df.index.length with h1 | h1
    · exact h1
    · rw [List.getElem?_eq_none h1] at hp; cases hp
  have hr : p < df.rows.length := by rw [h.rows_len]; exact hlt
  refine ⟨df.rows[p], List.getElem?_eq_getElem hr, ?_⟩
  have hm : (x, df.rows[p]) ∈ df.records.filter (fun r => decide (r.1 = x)) := by
    refine List.mem_filter.2 ⟨?_, by simp⟩
    rw [Frame.records, List.mem_iff_getElem]
    refine ⟨p, by simp; omega, ?_⟩
    rw [List.getElem?_eq_getElem hlt] at hp
    simp [Option.some.inj hp]
  have hl : (df.records.filter (fun r => decide (r.1 = x))).length = 1 := by
    rw [← hc, List.count_eq_countP, ← List.countP_eq_length_filter]
    have : df.index = df.records.map (·.1) := by
      rw [Frame.records, List.map_fst_zip (by rw [h.rows_len]; exact Nat.le_refl _)]
    conv => rhs; rw [this, List.countP_map]
    apply List.countP_congr
    intro a _
    simp
  unfold Frame.rowNamed
  obtain ⟨a, ha⟩ := List.length_eq_one_iff.1 hl
  rw [ha] at hm ⊢
  simp only [List.mem_singleton] at hm
  rw [← hm]

theorem takeRows_record {df : Frame ι κ α} {p : Nat} {x : ι} {r : List α} (hx : df.index[p]? = some x) (hr : df.rows[p]? = some r) :
    df.takeRows [p] = Frame.ofRecords df.columns [(x, r)] := by
  unfold Frame.takeRows Frame.ofRecords takeList
  simp [hx, hr]

theorem rowAtLabel_spec [DecidableEq L] (cfg : Cfg) (hp : 1 ≤ cfg.nPartitions) (hmr : 1 ≤ cfg.minRow) (hmc : 1 ≤ cfg.minCol)
    (known : Nat → Nat → Bool × Bool) (nan : α) {asPos : L → Option Nat} {m : LFrame L L α} {df : Frame L L α} (h : m.Shows df)
    {x : L} {p : Nat} {r : List α} (hpos : asPos x = some p) (hx : df.index[p]? = some x) (hr : df.rows[p]? = some r) :
    m.rowAtLabel cfg known nan asPos x = some (Frame.ofRecords df.columns [(x, r)]) := by
  have hlt : p < df.index.length := by
    rcases Nat.lt_or_ge p df.index.length with h1 | h1
    · exact h1
    · rw [List.getElem?_eq_none h1] at hx; cases hx
  unfold LFrame.rowAtLabel
  rw [hpos, Option.bind_some, h.getIndex, if_pos hlt]
  obtain ⟨m', e1, e2⟩ := take2d_shows cfg hp hmr hmc h (known := known) (kn := true) (rows := some (.array [p])) (cols := none)
    (by intros; rfl) (by
      intro q hq; cases hq
      intro y hy
      simp only [List.mem_singleton] at hy
      subst hy; exact hlt) (by intro q hq; cases hq)
    (by intro a b hq; cases hq) (by intro a b hq; cases hq) (by intro _ q hq; cases hq; simp [Positions.toList]) (by intro _ q hq; cases hq)
  rw [e1, Option.bind_some, (e2.observed nan).1]
  congr 1
  have : (df.takeRows [p]).WF := ⟨by
    rw [takeRows_record hx hr]; rfl, by
    rw [takeRows_record hx hr]
    intro y hy
    simp only [Frame.ofRecords, List.map_cons, List.map_nil, List.mem_singleton] at hy
    subst hy
    exact h.wf.row_width _ (List.mem_of_getElem? hr)⟩
  have e3 := takeCols_all this
  rw [← takeRows_record hx hr]
  exact e3

theorem rowNamed_ofRecords [DecidableEq ι] (cols : List κ) {l : List ι} (hn : l.Nodup) (row : ι → List α) {x : ι} (hx : x ∈ l) :
    (Frame.ofRecords cols (l.map fun y => (y, row y))).rowNamed x = some (row x) := by
  have : (Frame.ofRecords cols (l.map fun y => (y, row y))).records = l.map fun y => (y, row y) := by
    simp only [Frame.records, Frame.ofRecords, List.map_map]
    rw [List.zip_map']
    rfl
  unfold Frame.rowNamed
  rw [this]
  have e : ((l.map fun y => (y, row y)).filter fun r => decide (r.1 = x)) = [(x, row x)] := by
    rw [List.filter_map]
    have : (l.filter ((fun r : ι × List α => decide (r.1 = x)) ∘ fun y => (y, row y))) = [x] := by
      have e2 : ((fun r : ι × List α => decide (r.1 = x)) ∘ fun y => (y, row y)) = fun y => y == x := by
        funext y; exact (Bool.eq_iff_iff.2 (by simp))
      rw [e2, List.filter_beq]
      have : l.count x = 1 := by rw [hn.count, if_pos hx]
      rw [this]; rfl
    rw [this]; rfl
  rw [e]

theorem sortColsByRows_spec [DecidableEq L] (cfg : Cfg) (hp : 1 ≤ cfg.nPartitions) (hmr : 1 ≤ cfg.minRow) (hmc : 1 ≤ cfg.minCol)
    (known : Nat → Nat → Bool × Bool) (nan : α) {asPos : L → Option Nat} {order : List (List α) → List Nat}
    {m : LFrame L L α} {df : Frame L L α} (h : m.Shows df) (hcol : df.columns.Nodup) {rows : List L} (hne : rows ≠ []) (hnd : rows.Nodup)
    (hrows : ∀ x ∈ rows, df.index.count x = 1 ∧ ∃ p, asPos x = some p ∧ df.index[p]? = some x)
    (horder : ∀ keys, keys.length = rows.length → (∀ k ∈ keys, k.length = df.ncols) → ∀ p ∈ order keys, p < df.ncols) :
    ∃ df' m', df.sortColumnsBy order none rows = some df' ∧ m.sortColsByRows cfg known nan asPos order none rows = some m' ∧
      m'.Shows df' := by
  have hone : ∀ x ∈ rows, ∃ r, df.rowNamed x = some r ∧ r.length = df.ncols ∧
      m.rowAtLabel cfg known nan asPos x = some (Frame.ofRecords df.columns [(x, r)]) := by
    intro x hx
    obtain ⟨h1, p, h2, h3⟩ := hrows x hx
    obtain ⟨r, h4, h5⟩ := rowNamed_of_count h.wf h3 h1
    exact ⟨r, h5, h.wf.row_width _ (List.mem_of_getElem? h4), rowAtLabel_spec cfg hp hmr hmc known nan h h2 h3 h4⟩
  let row : L → List α := fun x => (df.rowNamed x).getD []
  have e1 : (rows.mapM fun x => df.rowNamed x) = some (rows.map row) := by
    have := mapM_map_some (fun x => df.rowNamed x) id row rows (by
      intro x hx
      obtain ⟨r, h1, _⟩ := hone x hx
      simp [row, h1])
    simpa using this
  have e2 : (rows.mapM fun x => m.rowAtLabel cfg known nan asPos x) = some (rows.map fun x => Frame.ofRecords df.columns [(x, row x)]) := by
    have := mapM_map_some (fun x => m.rowAtLabel cfg known nan asPos x) id (fun x => Frame.ofRecords df.columns [(x, row x)]) rows (by
      intro x hx
      obtain ⟨r, h1, _, h3⟩ := hone x hx
      simp [row, h1, h3])
    simpa using this
  have e3 : Frame.vcat (rows.map fun x => Frame.ofRecords df.columns [(x, row x)]) =
      some (Frame.ofRecords df.columns (rows.map fun x => (x, row x))) := by
    have := vcat_ofRecords df.columns (rows.map fun x => [(x, row x)]) (by simpa using hne)
    rw [List.map_map] at this
    rw [show ((fun x => Frame.ofRecords df.columns [(x, row x)]) : L → Frame L L α) = Frame.ofRecords df.columns ∘ fun x => [(x, row x)] from rfl,
      this]
    congr 2
    rw [← List.flatMap_def]
    exact List.map_eq_flatMap.symm
  have e4 : (rows.mapM fun x => (Frame.ofRecords df.columns (rows.map fun x => (x, row x))).rowNamed x) = some (rows.map row) := by
    have := mapM_map_some (fun x => (Frame.ofRecords df.columns (rows.map fun x => (x, row x))).rowNamed x) id row rows
      (fun x hx => rowNamed_ofRecords df.columns hnd row hx)
    simpa using this
  have hP : ∀ p ∈ order (rows.map row), p < df.ncols := by
    refine horder _ (by simp) ?_
    intro k hk
    obtain ⟨x, hx, rfl⟩ := List.mem_map.1 hk
    obtain ⟨r, h1, h2, _⟩ := hone x hx
    simp [row, h1, h2]
  obtain ⟨m', e5, e6⟩ := reindexColsTo_some cfg hp hmc nan h (reindexColumns_takeCols h.wf hcol nan hP)
  refine ⟨df.takeCols (order (rows.map row)), m', ?_, ?_, e6⟩
  · unfold Frame.sortColumnsBy
    rw [if_neg hne, e1]
    rfl
  · unfold LFrame.sortColsByRows
    rw [e2, Option.bind_some, e3, Option.bind_some, h.getColumns]
    unfold Frame.setColumns
    rw [if_pos (by rfl), Option.bind_some]
    unfold Frame.sortColumnsBy
    rw [if_neg hne]
    have e7 : ({ Frame.ofRecords df.columns (rows.map fun x => (x, row x)) with columns := df.columns } : Frame L L α) =
        Frame.ofRecords df.columns (rows.map fun x => (x, row x)) := rfl
    rw [e7, e4]
    exact e5

/-! ### the stable order -/

theorem lineColumns_length {keys : List (List α)} {n : Nat} (hne : keys ≠ []) (h : ∀ k ∈ keys, k.length = n) :
    (lineColumns keys).length = n := by
  unfold lineColumns
  cases keys with
  | nil => exact absurd rfl hne
  | cons k ks => simp [h k (by simp)]

theorem stableOrder_perm {τ : Type} (le : τ → τ → Bool) (l : List τ) : (stableOrder le l).Perm (List.range l.length) := by
  unfold stableOrder
  refine ((sortBy_perm _ l.zipIdx).map (·.2)).trans (List.Perm.of_eq ?_)
  rw [List.zipIdx_map_snd, List.range_eq_range']

theorem takeList_stableOrder {τ : Type} (le : τ → τ → Bool) (l : List τ) : takeList l (stableOrder le l) = sortBy le l := by
  unfold stableOrder
  rw [takeList_snd_zipIdx l _ fun x hx => mem_sortBy.1 hx, sortBy_map _ le _ (fun _ _ => rfl)]
  simp

theorem lineColumns_take {keys : List (List α)} {n : Nat} (hne : keys ≠ []) (h : ∀ k ∈ keys, k.length = n) {P : List Nat}
    (hP : ∀ p ∈ P, p < n) : lineColumns (keys.map (takeList · P)) = takeList (lineColumns keys) P := by
  have hl := lineColumns_length hne h
  have get : ∀ (l : List α) (P : List Nat), (∀ p ∈ P, p < l.length) → ∀ (i : Nat) (h1 : i < P.length), (takeList l P)[i]? = l[P[i]]? := by
    intro l P
    induction P with
    | nil => intro _ i h; simp at h
    | cons p P ih =>
      intro hP i h1
      rw [takeList_cons (hP p (by simp))]
      cases i with
      | zero => simp
      | succ i => simpa using ih (fun q hq => hP q (by simp [hq])) i (by simpa using h1)
  have get' : ∀ (l : List (Unit × List α)) (P : List Nat), (∀ p ∈ P, p < l.length) → ∀ (i : Nat) (h1 : i < P.length),
      (takeList l P)[i]? = l[P[i]]? := by
    intro l P
    induction P with
    | nil => intro _ i h; simp at h
    | cons p P ih =>
      intro hP i h1
      rw [takeList_cons (hP p (by simp))]
      cases i with
      | zero => simp
      | succ i => simpa using ih (fun q hq => hP q (by simp [hq])) i (by simpa using h1)
  have hlen : (lineColumns (keys.map (takeList · P))).length = P.length := by
    refine lineColumns_length (by simpa using hne) ?_
    intro k hk
    obtain ⟨k', hk', rfl⟩ := List.mem_map.1 hk
    exact takeList_length (by rw [h k' hk']; exact hP)
  refine List.ext_getElem? fun i => ?_
  by_cases hi : i < P.length
  · rw [get' _ P (by rw [hl]; exact hP) i hi]
    have hpi : P[i] < n := hP _ (List.getElem_mem hi)
    have e1 : (lineColumns (keys.map (takeList · P)))[i]? = some ((), (keys.map (takeList · P)).filterMap (·[i]?)) := by
      unfold lineColumns at hlen ⊢
      simp only [List.length_map, List.length_range] at hlen
      rw [hlen, List.getElem?_map, List.getElem?_range hi]
      rfl
    have e2 : (lineColumns keys)[P[i]]? = some ((), keys.filterMap (·[P[i]]?)) := by
      unfold lineColumns at hl ⊢
      simp only [List.length_map, List.length_range] at hl
      rw [hl, List.getElem?_map, List.getElem?_range hpi]
      rfl
    rw [e1, e2, List.filterMap_map]
    congr 2
    refine filterMap_congr' fun k hk => ?_
    exact get k P (by rw [h k hk]; exact hP) i hi
  · rw [List.getElem?_eq_none (by omega), List.getElem?_eq_none]
    rw [takeList_length (by rw [hl]; exact hP)]; omega

theorem rowNamed_takeCols [DecidableEq ι] (df : Frame ι κ α) (P : List Nat) (x : ι) :
    (df.takeCols P).rowNamed x = (df.rowNamed x).map (takeList · P) := by
  have e : (df.takeCols P).records = df.records.map fun r => (r.1, takeList r.2 P) := by
    simp only [Frame.records, Frame.takeCols]
    rw [List.zip_map_right]
    rfl
  unfold Frame.rowNamed
  rw [e, List.filter_map]
  have : ((fun r : ι × List α => decide (r.1 = x)) ∘ fun r : ι × List α => (r.1, takeList r.2 P)) = fun r => decide (r.1 = x) := by
    funext r; rfl
  rw [this]
  generalize df.records.filter (fun r => decide (r.1 = x)) = l
  match l with
  | [] => rfl
  | [r] => rfl
  | _ :: _ :: _ => rfl

theorem mapM_map_of_some {A B C : Type} {f : A → Option B} {g : A → Option C} {φ : B → C} {l : List A} {r : List B} (h : l.mapM f = some r)
    (e : ∀ x, g x = (f x).map φ) : l.mapM g = some (r.map φ) := by
  induction l generalizing r with
  | nil => simp at h; subst h; rfl
  | cons x l ih =>
    rw [List.mapM_cons] at h ⊢
    cases h1 : f x with
    | none => simp [h1] at h
    | some y =>
      cases h2 : l.mapM f with
      | none => simp [h1, h2] at h
      | some ys =>
        simp [h1, h2] at h
        subst h
        rw [e x, h1, ih h2]
        rfl
