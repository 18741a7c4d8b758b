import Verif.Model.Convert
import Verif.Lemmas.Labels
import Verif.Lemmas.Query
import Verif.Lemmas.Chunk

/-! Functions of single blocks that may raise, under every plan of `map_partitions`. -/

variable {ι κ α β ι' κ' : Type}

theorem mapM_congr_mem {A B : Type} {f g : A → Option B} {l : List A} (e : ∀ x ∈ l, f x = g x) : l.mapM f = l.mapM g := by
  induction l with
  | nil => rfl
  | cons a l ih =>
    rw [List.mapM_cons, List.mapM_cons, e a (by simp), ih fun x hx => e x (by simp [hx])]

/-! ### values of put-together frames -/

theorem mem_hrows {a : α} (n : Nat) : ∀ (bs : List (List (List α))), a ∈ (Frame.hrows n bs).flatten →
    ∃ b ∈ bs, a ∈ b.flatten := by
  intro bs
  induction bs with
  | nil => intro h; simp [Frame.hrows] at h
  | cons b bs ih =>
    intro h
    simp only [Frame.hrows, List.mem_flatten] at h
    obtain ⟨r, hr, ha⟩ := h
    obtain ⟨i, hi, rfl⟩ := List.mem_iff_getElem.1 hr
    rw [List.getElem_zipWith] at ha
    rcases List.mem_append.1 ha with h1 | h1
    · exact ⟨b, by simp, List.mem_flatten.2 ⟨_, List.getElem_mem _, h1⟩⟩
    · obtain ⟨b', hb', h2⟩ := ih (List.mem_flatten.2 ⟨_, List.getElem_mem _, h1⟩)
      exact ⟨b', by simp [hb'], h2⟩

theorem hrows_mem {a : α} (n : Nat) : ∀ (bs : List (List (List α))), (∀ b ∈ bs, b.length = n) → (∃ b ∈ bs, a ∈ b.flatten) →
    a ∈ (Frame.hrows n bs).flatten := by
  intro bs
  induction bs with
  | nil => rintro _ ⟨b, hb, _⟩; simp at hb
  | cons b bs ih =>
    rintro hl ⟨b', hb', ha⟩
    have hlen := hrows_length n bs fun x hx => hl x (by simp [hx])
    have hb := hl b (by simp)
    simp only [Frame.hrows]
    have key : ∀ i (h1 : i < b.length) (h2 : i < (Frame.hrows n bs).length), a ∈ b[i] ++ (Frame.hrows n bs)[i] →
        a ∈ (List.zipWith (· ++ ·) b (Frame.hrows n bs)).flatten := by
      intro i h1 h2 h
      refine List.mem_flatten.2 ⟨b[i] ++ (Frame.hrows n bs)[i], ?_, h⟩
      have h3 : i < (List.zipWith (· ++ ·) b (Frame.hrows n bs)).length := by rw [List.length_zipWith]; omega
      have : (List.zipWith (· ++ ·) b (Frame.hrows n bs))[i] = b[i] ++ (Frame.hrows n bs)[i] := by
        rw [List.getElem_zipWith]
      rw [← this]; exact List.getElem_mem h3
    rcases List.mem_cons.1 hb' with rfl | hb'
    · obtain ⟨r, hr, har⟩ := List.mem_flatten.1 ha
      obtain ⟨i, hi, rfl⟩ := List.mem_iff_getElem.1 hr
      exact key i hi (by omega) (List.mem_append.2 (Or.inl har))
    · obtain ⟨r, hr, har⟩ := List.mem_flatten.1 (ih (fun x hx => hl x (by simp [hx])) ⟨b', hb', ha⟩)
      obtain ⟨i, hi, rfl⟩ := List.mem_iff_getElem.1 hr
      exact key i (by omega) hi (List.mem_append.2 (Or.inr har))

theorem axisConcat_cells [DecidableEq ι] [DecidableEq κ] {axis0 : Bool} {parts : List (Frame ι κ α)} {d : Frame ι κ α}
    (h : axisConcat axis0 parts = some d) {a : α} (ha : a ∈ d.cellList) : ∃ b ∈ parts, a ∈ b.cellList := by
  cases axis0 with
  | true =>
    simp only [axisConcat, ↓reduceIte] at h
    obtain ⟨hne, hc⟩ := Frame.vcat_cols h
    rw [Frame.vcat_eq hne hc] at h
    have h' := Option.some.inj h
    rw [← h'] at ha
    simp only [Frame.cellList, List.mem_flatten, List.mem_map] at ha
    obtain ⟨r, ⟨rs, ⟨b, hb, rfl⟩, hr⟩, har⟩ := ha
    exact ⟨b, hb, List.mem_flatten.2 ⟨r, hr, har⟩⟩
  | false =>
    simp only [axisConcat, Bool.false_eq_true, ↓reduceIte] at h
    obtain ⟨hne, hc⟩ := Frame.hcat_index h
    rw [Frame.hcat_eq hne hc] at h
    have h' := Option.some.inj h
    rw [← h'] at ha
    obtain ⟨b, hb, h1⟩ := mem_hrows _ _ ha
    obtain ⟨x, hx, rfl⟩ := List.mem_map.1 hb
    exact ⟨x, hx, h1⟩

theorem cells_axisConcat [DecidableEq ι] [DecidableEq κ] {axis0 : Bool} {parts : List (Frame ι κ α)} {d : Frame ι κ α}
    (hwf : ∀ b ∈ parts, b.WF) (h : axisConcat axis0 parts = some d) {b : Frame ι κ α} (hb : b ∈ parts) {a : α}
    (ha : a ∈ b.cellList) : a ∈ d.cellList := by
  cases axis0 with
  | true =>
    simp only [axisConcat, ↓reduceIte] at h
    obtain ⟨hne, hc⟩ := Frame.vcat_cols h
    rw [Frame.vcat_eq hne hc] at h
    have h' := Option.some.inj h
    rw [← h']
    obtain ⟨r, hr, har⟩ := List.mem_flatten.1 ha
    exact List.mem_flatten.2 ⟨r, List.mem_flatten.2 ⟨b.rows, List.mem_map.2 ⟨b, hb, rfl⟩, hr⟩, har⟩
  | false =>
    simp only [axisConcat, Bool.false_eq_true, ↓reduceIte] at h
    obtain ⟨hne, hc⟩ := Frame.hcat_index h
    rw [Frame.hcat_eq hne hc] at h
    have h' := Option.some.inj h
    rw [← h']
    refine hrows_mem _ _ ?_ ⟨b.rows, List.mem_map.2 ⟨b, hb, rfl⟩, ha⟩
    intro x hx
    obtain ⟨y, hy, rfl⟩ := List.mem_map.1 hx
    rw [(hwf y hy).rows_len, hc y hy]

/-! ### one worker -/

theorem deploy_congr_cells [DecidableEq ι] [DecidableEq κ] {S : α → Prop} {F G : Frame ι κ α → Option (Frame ι' κ' β)}
    (e : ∀ f : Frame ι κ α, (∀ a ∈ f.cellList, S a) → F f = G f) (axis0 : Bool) (k : Nat) (keep : Bool)
    {parts : List (Frame ι κ α)} (hp : ∀ b ∈ parts, ∀ a ∈ b.cellList, S a) (mb : Nat) (ll : Option (List Nat)) (man : Bool) :
    deployAxisFunc axis0 F k keep parts mb ll man = deployAxisFunc axis0 G k keep parts mb ll man := by
  unfold deployAxisFunc
  cases hd : axisConcat axis0 parts with
  | none => rfl
  | some d =>
    have : F d = G d := e d fun a ha => by
      obtain ⟨b, hb, h⟩ := axisConcat_cells hd ha
      exact hp b hb a h
    simp only [Option.bind_eq_bind, Option.bind_some, this]

theorem deploy_fails [DecidableEq ι] [DecidableEq κ] {a : α} {F : Frame ι κ α → Option (Frame ι' κ' β)}
    (e : ∀ f : Frame ι κ α, a ∈ f.cellList → F f = none) (axis0 : Bool) (k : Nat) (keep : Bool)
    {parts : List (Frame ι κ α)} (hwf : ∀ b ∈ parts, b.WF) {b : Frame ι κ α} (hb : b ∈ parts) (ha : a ∈ b.cellList)
    (mb : Nat) (ll : Option (List Nat)) (man : Bool) :
    deployAxisFunc axis0 F k keep parts mb ll man = none := by
  unfold deployAxisFunc
  cases hd : axisConcat axis0 parts with
  | none => rfl
  | some d =>
    have : F d = none := e d (cells_axisConcat hwf hd hb ha)
    simp only [Option.bind_eq_bind, Option.bind_some, this, Option.bind_none]

/-! ### block columns -/

theorem colBlocks_mem {τ : Type} {g : List (List τ)} {c : List τ} (hc : c ∈ colBlocks g) {b : τ} (hb : b ∈ c) :
    ∃ row ∈ g, b ∈ row := by
  obtain ⟨j, _, rfl⟩ := List.mem_map.1 hc
  obtain ⟨row, hr, h⟩ := List.mem_filterMap.1 hb
  exact ⟨row, hr, List.mem_of_getElem? h⟩

theorem mem_colBlocks {τ : Type} {g : List (List τ)} {w : Nat} (hw : ∀ row ∈ g, row.length = w) {row : List τ} (hr : row ∈ g)
    {b : τ} (hb : b ∈ row) : ∃ c ∈ colBlocks g, b ∈ c := by
  obtain ⟨j, hj, rfl⟩ := List.mem_iff_getElem.1 hb
  have hg : gridWidth g = w := by
    cases g with
    | nil => simp at hr
    | cons x xs => simp [gridWidth, hw x (by simp)]
  refine ⟨g.filterMap (·[j]?), List.mem_map.2 ⟨j, ?_, rfl⟩, List.mem_filterMap.2 ⟨row, hr, List.getElem?_eq_getElem hj⟩⟩
  rw [hg, ← hw row hr]; simpa using hj

/-! ### every plan -/

theorem mapPartitions_congr_cells [DecidableEq ι] [DecidableEq κ] (cfg : Cfg) (dyn : Bool) (cpu : Nat) {S : α → Prop}
    {F G : Frame ι κ α → Option (Frame ι' κ' β)} (e : ∀ f : Frame ι κ α, (∀ a ∈ f.cellList, S a) → F f = G f)
    {g : Grid ι κ α} (hg : ∀ row ∈ g, ∀ b ∈ row, ∀ a ∈ b.cellList, S a) :
    mapPartitions cfg dyn cpu F g = mapPartitions cfg dyn cpu G g := by
  have hcol : ∀ (g' : Grid ι κ α), (∀ row ∈ g', row ∈ g) → ∀ c ∈ colBlocks g', ∀ b ∈ c, ∀ a ∈ b.cellList, S a := by
    intro g' hg' c hc b hb a ha
    obtain ⟨row, hr, h⟩ := colBlocks_mem hc hb
    exact hg row (hg' row hr) b h a ha
  unfold mapPartitions
  cases dyn with
  | false =>
    simp only [Bool.not_false, ↓reduceIte, baseMapPartitions]
    exact mapM_congr_mem fun row hr => mapM_congr_mem fun b hb => e b (hg row hr b hb)
  | true =>
    simp only [Bool.not_true, Bool.false_eq_true, ↓reduceIte]
    split
    · rfl
    split
    · unfold mapJoinedByColumn
      split
      · rfl
      · simp only
        congr 1
        refine mapM_congr_mem fun i _ => ?_
        congr 1
        refine mapM_congr_mem fun c hc => ?_
        exact deploy_congr_cells e _ _ _ (hcol _ (fun row hr => List.mem_of_mem_drop (List.mem_of_mem_take hr)) c hc) _ _ _
    · unfold mapAxisPartitions
      split
      · rfl
      · simp only
        congr 1
        refine mapM_congr_mem fun c hc => ?_
        refine deploy_congr_cells e _ _ _ ?_ _ _ _
        split at hc
        · exact hcol g (fun _ h => h) c hc
        · exact hg c hc

theorem mapPartitions_fails [DecidableEq ι] [DecidableEq κ] (cfg : Cfg) (dyn : Bool) (cpu : Nat) {a : α}
    {F : Frame ι κ α → Option (Frame ι' κ' β)} (e : ∀ f : Frame ι κ α, a ∈ f.cellList → F f = none)
    {g : Grid ι κ α} {w : Nat} (hw : ∀ row ∈ g, row.length = w) (hwf : ∀ row ∈ g, ∀ b ∈ row, b.WF)
    {row : List (Frame ι κ α)} (hr : row ∈ g) {b : Frame ι κ α} (hb : b ∈ row) (ha : a ∈ b.cellList) :
    mapPartitions cfg dyn cpu F g = none := by
  have hcolwf : ∀ (g' : Grid ι κ α), (∀ row ∈ g', row ∈ g) → ∀ c ∈ colBlocks g', ∀ b ∈ c, b.WF := by
    intro g' hg' c hc b hb
    obtain ⟨row, hr, h⟩ := colBlocks_mem hc hb
    exact hwf row (hg' row hr) b h
  unfold mapPartitions
  cases dyn with
  | false =>
    simp only [Bool.not_false, ↓reduceIte, baseMapPartitions]
    exact mapM_mem_none hr (mapM_mem_none hb (e b ha))
  | true =>
    simp only [Bool.not_true, Bool.false_eq_true, ↓reduceIte]
    split
    · rfl
    split
    · unfold mapJoinedByColumn
      split
      · rfl
      · simp only
        generalize hstep : max (g.length / (cpu / gridWidth g)) 1 = step
        have hs : 0 < step := by omega
        have hmem : row ∈ ((pyRangeStep g.length step).map fun i => pySlice g i (i + step)).flatten := by
          rw [rangeStep_flatten _ _ hs]; exact hr
        obtain ⟨sub, h1, h2⟩ := List.mem_flatten.1 hmem
        obtain ⟨i, hi, rfl⟩ := List.mem_map.1 h1
        have hsub : ∀ r ∈ pySlice g i (i + step), r ∈ g := fun r h => List.mem_of_mem_drop (List.mem_of_mem_take h)
        obtain ⟨c, hc, hbc⟩ := mem_colBlocks (fun r h => hw r (hsub r h)) h2 hb
        rw [mapM_mem_none hi]
        · rfl
        · rw [mapM_mem_none hc]
          · rfl
          · exact deploy_fails e _ _ _ (hcolwf _ hsub c hc) hbc ha _ _ _
    · unfold mapAxisPartitions
      split
      · rfl
      · simp only
        split
        · obtain ⟨c, hc, hbc⟩ := mem_colBlocks hw hr hb
          rw [mapM_mem_none hc]
          · rfl
          · exact deploy_fails e _ _ _ (hcolwf g (fun _ h => h) c hc) hbc ha _ _ _
        · rw [mapM_mem_none hr]
          · rfl
          · exact deploy_fails e _ _ _ (hwf row hr) hb ha _ _ _

/-! ### values of blocks -/

theorem cut_cells {df : Frame ι κ α} {rl cw : List Nat} {row : List (Frame ι κ α)} (hr : row ∈ df.cut rl cw) {b : Frame ι κ α}
    (hb : b ∈ row) {a : α} (ha : a ∈ b.cellList) : a ∈ df.cellList := by
  obtain ⟨p, _, rfl⟩ := List.mem_map.1 hr
  obtain ⟨q, _, rfl⟩ := List.mem_map.1 hb
  simp only [Frame.cellList, Frame.ilocCols, Frame.ilocRows, List.mem_flatten, List.mem_map] at ha
  obtain ⟨r, ⟨x, hx, rfl⟩, har⟩ := ha
  exact List.mem_flatten.2 ⟨x, List.mem_of_mem_drop (List.mem_of_mem_take hx), List.mem_of_mem_drop (List.mem_of_mem_take har)⟩

theorem cells_cut [DecidableEq ι] [DecidableEq κ] {df : Frame ι κ α} (hwf : df.WF) {rl cw : List Nat} (hc : df.IsCut rl cw)
    {a : α} (ha : a ∈ df.cellList) : ∃ row ∈ df.cut rl cw, ∃ b ∈ row, a ∈ b.cellList := by
  obtain ⟨b1, hb1, h1⟩ := axisConcat_cells (axis0 := true) (by simpa [axisConcat] using vcat_rows_cut hwf hc) ha
  obtain ⟨p, hp, rfl⟩ := List.mem_map.1 hb1
  have h2 : Frame.hcat ((sliceBounds cw).map fun q => (df.ilocRows p.1 p.2).ilocCols q.1 q.2) = some (df.ilocRows p.1 p.2) :=
    Frame.hcat_ilocCols (hwf.ilocRows _ _) (sliceBounds_ne_nil hc.cw_ne)
      (by show Covers _ df.ncols; rw [← hc.cw_sum]; exact covers_lens cw)
  obtain ⟨b2, hb2, h3⟩ := axisConcat_cells (axis0 := false) (by simpa [axisConcat] using h2) h1
  exact ⟨_, List.mem_map.2 ⟨p, hp, rfl⟩, b2, hb2, h3⟩

theorem cut_wf {df : Frame ι κ α} (hwf : df.WF) {rl cw : List Nat} : ∀ row ∈ df.cut rl cw, ∀ b ∈ row, b.WF := by
  intro row hr b hb
  obtain ⟨p, _, rfl⟩ := List.mem_map.1 hr
  obtain ⟨q, _, rfl⟩ := List.mem_map.1 hb
  exact (hwf.ilocRows _ _).ilocCols _ _

theorem cut_rect {df : Frame ι κ α} {rl cw : List Nat} : ∀ row ∈ df.cut rl cw, row.length = (sliceBounds cw).length := by
  intro row hr
  obtain ⟨p, _, rfl⟩ := List.mem_map.1 hr
  simp

/-! ### functions of single values -/

theorem mapCellsM_none {g : α → Option β} {f : Frame ι κ α} : f.mapCellsM g = none ↔ ∃ a ∈ f.cellList, g a = none := by
  unfold Frame.mapCellsM
  rw [Option.map_eq_none_iff]
  constructor
  · intro h
    obtain ⟨r, hr, h1⟩ := mapM_none_mem h
    obtain ⟨a, ha, h2⟩ := mapM_none_mem h1
    exact ⟨a, List.mem_flatten.2 ⟨r, hr, ha⟩, h2⟩
  · rintro ⟨a, ha, h⟩
    obtain ⟨r, hr, h1⟩ := List.mem_flatten.1 ha
    exact mapM_mem_none hr (mapM_mem_none h1 h)

theorem mapCellsM_some {g : α → Option β} {h : α → β} {f : Frame ι κ α} (e : ∀ a ∈ f.cellList, g a = some (h a)) :
    f.mapCellsM g = some (f.mapCells h) := by
  unfold Frame.mapCellsM
  rw [mapM_some_congr (g := fun r => r.map h)]
  · rfl
  · intro r hr
    exact mapM_some_congr fun a ha => e a (List.mem_flatten.2 ⟨r, hr, ha⟩)

theorem Shows.cellList_eq {df df0 : Frame ι κ α} (h : df0.rows = df.rows) : df0.cellList = df.cellList := by
  unfold Frame.cellList; rw [h]

variable [DecidableEq ι] [DecidableEq κ]

/-- functions of blocks that agree on frames made of the values at hand may be exchanged -/
theorem mapBlocksM_congr (cfg : Cfg) (dyn : Bool) (cpu : Nat) {F G : Frame ι κ α → Option (Frame ι κ β)} {m : LFrame ι κ α}
    {df : Frame ι κ α} (h : m.Shows df) (e : ∀ f : Frame ι κ α, (∀ a ∈ f.cellList, a ∈ df.cellList) → F f = G f) :
    m.mapBlocksM cfg dyn cpu F = m.mapBlocksM cfg dyn cpu G := by
  obtain ⟨df0, rl, cw, hwf0, hrows, _, hc, hp, _⟩ := h.blocks
  unfold LFrame.mapBlocksM
  rw [hp, mapPartitions_congr_cells cfg dyn cpu (S := (· ∈ df.cellList)) e]
  intro row hr b hb a ha
  rw [← Shows.cellList_eq hrows]
  exact cut_cells hr hb ha

theorem mapBlocksM_some (cfg : Cfg) (dyn : Bool) (cpu : Nat) {F : Frame ι κ α → Option (Frame ι κ β)} {g : α → β}
    {m : LFrame ι κ α} {df : Frame ι κ α} (h : m.Shows df)
    (e : ∀ f : Frame ι κ α, (∀ a ∈ f.cellList, a ∈ df.cellList) → F f = some (f.mapCells g)) :
    ∃ m', m.mapBlocksM cfg dyn cpu F = some m' ∧ m'.Shows (df.mapCells g) := by
  rw [mapBlocksM_congr cfg dyn cpu h (G := fun b => some (b.mapCells g)) e]
  exact mapCells_shows cfg dyn cpu g h

theorem mapBlocksM_none (cfg : Cfg) (dyn : Bool) (cpu : Nat) {F : Frame ι κ α → Option (Frame ι κ β)} {m : LFrame ι κ α}
    {df : Frame ι κ α} (h : m.Shows df) {a : α} (ha : a ∈ df.cellList) (e : ∀ f : Frame ι κ α, a ∈ f.cellList → F f = none) :
    m.mapBlocksM cfg dyn cpu F = none := by
  obtain ⟨df0, rl, cw, hwf0, hrows, _, hc, hp, _⟩ := h.blocks
  rw [← Shows.cellList_eq hrows] at ha
  obtain ⟨row, hr, b, hb, hab⟩ := cells_cut hwf0 hc ha
  unfold LFrame.mapBlocksM
  rw [hp, mapPartitions_fails cfg dyn cpu e cut_rect (cut_wf hwf0) hr hb hab]
  rfl

/-- a function of single values that may raise: the blocks give pandas' frame, and raise exactly when pandas does -/
theorem mapCellsM_shows [Nonempty β] (cfg : Cfg) (dyn : Bool) (cpu : Nat) (g : α → Option β) {m : LFrame ι κ α} {df : Frame ι κ α}
    (h : m.Shows df) :
    (∀ df', df.mapCellsM g = some df' → ∃ m', m.mapBlocksM cfg dyn cpu (Frame.mapCellsM g) = some m' ∧ m'.Shows df') ∧
    (df.mapCellsM g = none → m.mapBlocksM cfg dyn cpu (Frame.mapCellsM g) = none) := by
  constructor
  · intro df' hd
    have hall : ∀ a ∈ df.cellList, g a ≠ none := fun a ha hg => by
      rw [mapCellsM_none.2 ⟨a, ha, hg⟩] at hd; cases hd
    obtain ⟨b0⟩ := (inferInstance : Nonempty β)
    have e : ∀ a ∈ df.cellList, g a = some ((g a).getD b0) := by
      intro a ha
      cases hg : g a with
      | none => exact absurd hg (hall a ha)
      | some b => rfl
    have hd' := mapCellsM_some (f := df) (h := fun a => (g a).getD b0) e
    rw [hd] at hd'
    cases hd'
    exact mapBlocksM_some cfg dyn cpu h fun f hf => mapCellsM_some fun a ha => e a (hf a ha)
  · intro hd
    obtain ⟨a, ha, hg⟩ := mapCellsM_none.1 hd
    exact mapBlocksM_none cfg dyn cpu h ha fun f hf => mapCellsM_none.2 ⟨a, hf, hg⟩
