import Verif.Model.Astype
import Verif.Lemmas.Convert
import Verif.Lemmas.Fillna
import Verif.Lemmas.Fold
import Verif.Lemmas.GroupAgg
import Verif.Lemmas.Interchange
import Verif.Props.Readers

variable {ι κ α τ : Type}

/-! ### columns replaced one by one -/

/-- the total version of a cast -/
def castOr (cast : κ → List α → Option (List α)) (k : κ) (c : List α) : List α := (cast k c).getD c

theorem castOr_length {cast : κ → List α → Option (List α)} (hl : ∀ k c c', cast k c = some c' → c'.length = c.length) (k : κ)
    (c : List α) : (castOr cast k c).length = c.length := by
  unfold castOr
  cases h : cast k c with
  | none => rfl
  | some c' => exact hl k c c' h

theorem mapNamed_eq_ofCols (h : κ → List α → List α) (f : Frame ι κ α) :
    f.mapNamed h = Frame.ofCols f.index (f.named.map fun p => (p.1, h p.1 p.2)) := by
  unfold Frame.mapNamed Frame.ofCols
  have h1 : (f.named.map fun p => (p.1, h p.1 p.2)).map (·.1) = f.columns := by
    rw [List.map_map]; exact named_labels f
  rw [h1]
  simp only [Frame.mk.injEq, true_and, Frame.nrows, List.filterMap_map]
  rfl

theorem castNamed_some {cast : κ → List α → Option (List α)} {f : Frame ι κ α} (h : ∀ p ∈ f.named, cast p.1 p.2 ≠ none) :
    f.castNamed cast = some (f.mapNamed (castOr cast)) := by
  unfold Frame.castNamed
  rw [mapNamed_eq_ofCols, mapM_some_congr (g := fun p => (p.1, castOr cast p.1 p.2))]
  · rfl
  · intro p hp
    unfold castOr
    cases hc : cast p.1 p.2 with
    | none => exact absurd hc (h p hp)
    | some c => rfl

theorem castNamed_none {cast : κ → List α → Option (List α)} {f : Frame ι κ α} {p : κ × List α} (hp : p ∈ f.named)
    (h : cast p.1 p.2 = none) : f.castNamed cast = none := by
  unfold Frame.castNamed
  rw [mapM_mem_none hp (by rw [h]; rfl)]
  rfl

theorem named_mapNamed {f : Frame ι κ α} (hwf : f.WF) {h : κ → List α → List α} (hl : ∀ k c, (h k c).length = c.length) :
    (f.mapNamed h).named = f.named.map fun p => (p.1, h p.1 p.2) := by
  rw [mapNamed_eq_ofCols, named_ofCols]
  intro c hc
  obtain ⟨p, hp, rfl⟩ := List.mem_map.1 hc
  rw [hl]
  exact Frame.named_sized hwf p hp

/-- a function of columns that does not mind being applied to a part of the rows -/
theorem mapNamed_ilocRows {f : Frame ι κ α} (hwf : f.WF) {h : κ → List α → List α} (hl : ∀ k c, (h k c).length = c.length) (a b : Nat)
    (hs : ∀ p ∈ f.named, h p.1 (pySlice p.2 a b) = pySlice (h p.1 p.2) a b) :
    (f.ilocRows a b).mapNamed h = (f.mapNamed h).ilocRows a b := by
  have w1 : ((f.ilocRows a b).mapNamed h).WF := (hwf.ilocRows a b).mapNamed hl
  have w2 : ((f.mapNamed h).ilocRows a b).WF := (hwf.mapNamed hl).ilocRows a b
  rw [← ofCols_named w1, ← ofCols_named w2]
  rw [named_mapNamed (hwf.ilocRows a b) hl, named_ilocRows hwf, named_ilocRows (hwf.mapNamed hl), named_mapNamed hwf hl]
  have : (f.ilocRows a b |>.mapNamed h).index = ((f.mapNamed h).ilocRows a b).index := rfl
  rw [this]
  congr 1
  rw [List.map_map, List.map_map]
  refine List.map_congr_left fun p hp => ?_
  simp only [Function.comp, hs p hp]

theorem mapNamed_self {f : Frame ι κ α} (hwf : f.WF) {h : κ → List α → List α} (hs : ∀ p ∈ f.named, h p.1 p.2 = p.2) :
    f.mapNamed h = f := by
  rw [mapNamed_eq_ofCols]
  conv => rhs; rw [← ofCols_named hwf]
  congr 1
  conv => rhs; rw [← List.map_id f.named]
  refine List.map_congr_left fun p hp => ?_
  rw [hs p hp]; rfl

/-! ### the dictionary restricted to the columns of a block -/

theorem valueFor_filter [DecidableEq κ] (d : List (κ × τ)) (cols : List κ) {k : κ} (hk : k ∈ cols) :
    valueFor (d.filter fun p => cols.contains p.1) k = valueFor d k := by
  unfold valueFor
  rw [List.find?_filter]
  congr 1
  induction d with
  | nil => rfl
  | cons p d ih =>
    rw [List.find?_cons, List.find?_cons, ih]
    by_cases h : p.1 = k
    · simp [h, hk]
    · simp [h]

theorem astypeBuilder_eq [DecidableEq ι] [DecidableEq κ] [DecidableEq τ] (castTo : τ → List α → Option (List α)) (ignore : Bool)
    (arg : AstypeArg κ τ) (b : Frame ι κ α) : astypeBuilder castTo ignore arg b = b.castNamed (arg.cast castTo ignore) := by
  cases arg with
  | all t => rfl
  | each d =>
    simp only [astypeBuilder, Frame.astype]
    rw [if_pos]
    · unfold Frame.castNamed
      congr 1
      refine mapM_congr_mem fun p hp => ?_
      have hk : p.1 ∈ b.columns := (List.of_mem_zip hp).1
      simp only [AstypeArg.cast, AstypeArg.target, valueFor_filter d b.columns hk]
    · simp only [AstypeArg.keysIn, List.all_eq_true]
      intro p hp
      exact (List.mem_filter.1 hp).2

/-! ### whole columns -/

variable [DecidableEq ι] [DecidableEq κ]

theorem fold_cast_some (cfg : Cfg) (hp : 1 ≤ cfg.nPartitions) (hr : 1 ≤ cfg.minRow) {m : LFrame ι κ α} {df : Frame ι κ α} (h : m.Shows df)
    {f : Frame ι κ α → Option (Frame ι κ α)} {g : κ → List α → List α} (hl : ∀ k c, (g k c).length = c.length)
    (hf : ∀ a b, f (df.ilocCols a b) = some ((df.ilocCols a b).mapNamed g)) :
    ∃ m', m.fold cfg true f = some m' ∧ m'.Shows (df.mapNamed g) :=
  fold_rows_shows cfg hp hr h (F := fun b => b.mapNamed g) (columnLocal_mapNamed hl) (fun a b => h.wf.mapNamed_ilocCols hl a b) hf rfl rfl

theorem named_band {df : Frame ι κ α} (hwf : df.WF) {rl cw : List Nat} (hc : df.IsCut rl cw) {p : κ × List α} (hp : p ∈ df.named) :
    ∃ q ∈ sliceBounds cw, p ∈ (df.ilocCols q.1 q.2).named := by
  have h1 := named_hcat (bs := (sliceBounds cw).map fun q => df.ilocCols q.1 q.2)
    (by intro b hb; obtain ⟨q, _, rfl⟩ := List.mem_map.1 hb; exact hwf.ilocCols _ _) (hcat_cols_cut hwf hc)
  rw [h1] at hp
  obtain ⟨l, hl, hpl⟩ := List.mem_flatten.1 hp
  rw [List.map_map] at hl
  obtain ⟨q, hq, rfl⟩ := List.mem_map.1 hl
  exact ⟨q, hq, hpl⟩

theorem fold_cast_none (cfg : Cfg) {m : LFrame ι κ α} {df : Frame ι κ α} (h : m.Shows df)
    {f : Frame ι κ α → Option (Frame ι κ α)} {p : κ × List α} (hp : p ∈ df.named)
    (hf : ∀ b : Frame ι κ α, p ∈ b.named → f b = none) : m.fold cfg true f = none := by
  unfold LFrame.fold
  refine operation_none h fun m1 h1 => ?_
  obtain ⟨rl, cw, hc, hpp, hrl, hcw⟩ := h1.blocks
  obtain ⟨q, hq, hpq⟩ := named_band h.wf hc hp
  rw [hpp]
  have hno : mapAxisPartitions cfg true f (df.cut rl cw) true none none = none := by
    unfold mapAxisPartitions
    rw [if_neg (by simp)]
    simp only [↓reduceIte]
    rw [colBlocks_cut hc.rl_ne]
    rw [mapM_mem_none (List.mem_map.2 ⟨q, hq, rfl⟩)]
    · rfl
    · unfold deployAxisFunc
      have hv := Frame.vcat_ilocCols (vcat_rows_cut h.wf hc) q.1 q.2
      rw [List.map_map] at hv
      have hv' : axisConcat true ((sliceBounds rl).map fun p => (df.ilocRows p.1 p.2).ilocCols q.1 q.2) = some (df.ilocCols q.1 q.2) := by
        simpa [axisConcat, Function.comp_def] using hv
      rw [hv']
      simp only [Option.bind_eq_bind, Option.bind_some, hf _ hpq, Option.bind_none]
  rw [hno]
  rfl

/-! ### block by block -/

theorem castBlocks_some {m : LFrame ι κ α} {df : Frame ι κ α} (h : m.Shows df)
    {f : Frame ι κ α → Option (Frame ι κ α)} {g : κ → List α → List α} (hl : ∀ k c, (g k c).length = c.length)
    (hs : ∀ a b, ∀ p ∈ df.named, g p.1 (pySlice p.2 a b) = pySlice (g p.1 p.2) a b)
    (hf : ∀ a b c d, f ((df.ilocRows a b).ilocCols c d) = some (((df.ilocRows a b).ilocCols c d).mapNamed g)) :
    ∃ m', m.castBlocks f = some m' ∧ m'.Shows (df.mapNamed g) := by
  unfold LFrame.castBlocks
  apply operation_shows h
  intro m1 h1
  obtain ⟨rl, cw, hc, hpp, hrl, hcw⟩ := h1.blocks
  have hb : baseMapPartitions f (df.cut rl cw) = some ((df.mapNamed g).cut rl cw) := by
    unfold baseMapPartitions Frame.cut
    refine mapM_map_some _ _ _ _ fun p _ => mapM_map_some _ _ _ _ fun q _ => ?_
    rw [hf, (h.wf.ilocRows _ _).mapNamed_ilocCols hl, mapNamed_ilocRows h.wf hl _ _ (hs _ _)]
  rw [hpp, hb, Option.bind_some]
  exact represents_mk' ⟨h.wf.mapNamed hl, ⟨rl, cw, ⟨hc.rl_ne, hc.cw_ne, hc.rl_sum, hc.cw_sum⟩, rfl, hrl, hcw⟩, h1.index, h1.columns⟩

theorem castBlocks_none {m : LFrame ι κ α} {df : Frame ι κ α} (h : m.Shows df)
    {f : Frame ι κ α → Option (Frame ι κ α)} {p : κ × List α} (hp : p ∈ df.named) {a : α} (ha : a ∈ p.2)
    (hf : ∀ (b : Frame ι κ α) (c : List α), (p.1, c) ∈ b.named → a ∈ c → f b = none) : m.castBlocks f = none := by
  unfold LFrame.castBlocks
  refine operation_none h fun m1 h1 => ?_
  obtain ⟨rl, cw, hc, hpp, hrl, hcw⟩ := h1.blocks
  have hlen : p.2.length = rl.sum := by rw [hc.rl_sum]; exact Frame.named_sized h.wf p hp
  have hcov := covers_lens rl p.2 hlen
  rw [← hcov] at ha
  obtain ⟨l, hl, hal⟩ := List.mem_flatten.1 ha
  obtain ⟨r, hr, rfl⟩ := List.mem_map.1 hl
  have hpr : (p.1, pySlice p.2 r.1 r.2) ∈ (df.ilocRows r.1 r.2).named := by
    rw [named_ilocRows h.wf]; exact List.mem_map.2 ⟨p, hp, rfl⟩
  have h2 : Frame.hcat ((sliceBounds cw).map fun q => (df.ilocRows r.1 r.2).ilocCols q.1 q.2) = some (df.ilocRows r.1 r.2) :=
    Frame.hcat_ilocCols (h.wf.ilocRows _ _) (sliceBounds_ne_nil hc.cw_ne)
      (by show Covers _ df.ncols; rw [← hc.cw_sum]; exact covers_lens cw)
  have h3 := named_hcat (by intro b hb; obtain ⟨q, _, rfl⟩ := List.mem_map.1 hb; exact (h.wf.ilocRows _ _).ilocCols _ _) h2
  rw [h3] at hpr
  obtain ⟨l, hl2, hpl⟩ := List.mem_flatten.1 hpr
  rw [List.map_map] at hl2
  obtain ⟨q, hq, rfl⟩ := List.mem_map.1 hl2
  rw [hpp]
  have hno : baseMapPartitions f (df.cut rl cw) = none := by
    unfold baseMapPartitions Frame.cut
    exact mapM_mem_none (List.mem_map.2 ⟨r, hr, rfl⟩) (mapM_mem_none (List.mem_map.2 ⟨q, hq, rfl⟩) (hf _ _ hpl hal))
  rw [hno]
  rfl

/-! ### `castWith` -/

omit [DecidableEq ι] [DecidableEq κ] in
theorem mapM_some_iff_map {A B : Type} (g : A → Option B) : ∀ (r : List A) (r' : List B), r.mapM g = some r' ↔ r.map g = r'.map some := by
  intro r
  induction r with
  | nil => intro r'; cases r' <;> simp
  | cons a r ih =>
    intro r'
    rw [List.mapM_cons]
    cases r' with
    | nil => cases g a <;> cases r.mapM g <;> simp
    | cons b r' =>
      have := ih r'
      cases hg : g a with
      | none => simp [hg]
      | some c =>
        cases hr : r.mapM g with
        | none => simp only [hr] at this; simp [hg, ← this]
        | some q => simp only [hr, Option.some.injEq] at this; simp [hg, ← this]

theorem mapM_slice_some {A B : Type} {g : A → Option B} {r : List A} {r' : List B} (h : r.mapM g = some r') (a b : Nat) :
    (pySlice r a b).mapM g = some (pySlice r' a b) := by
  rw [mapM_some_iff_map] at h ⊢
  rw [← pySlice_map', h, pySlice_map']

theorem pySlice_sublist {A : Type} (l : List A) (a b : Nat) : (pySlice l a b).Sublist l :=
  (List.take_sublist _ _).trans (List.drop_sublist _ _)

variable [DecidableEq τ]

omit [DecidableEq ι] [DecidableEq τ] in
theorem cast_length {castTo : τ → List α → Option (List α)} (hlen : ∀ t c c', castTo t c = some c' → c'.length = c.length)
    (ignore : Bool) (arg : AstypeArg κ τ) (k : κ) (c c' : List α) (h : arg.cast castTo ignore k c = some c') : c'.length = c.length := by
  unfold AstypeArg.cast at h
  split at h
  · cases h; rfl
  · split at h
    · rename_i e; cases h; exact hlen _ _ _ e
    · split at h
      · cases h; rfl
      · cases h

theorem castWith_spec (cfg : Cfg) (hp : 1 ≤ cfg.nPartitions) (hr : 1 ≤ cfg.minRow) {castTo : τ → List α → Option (List α)}
    {cell : τ → α → Option α} (hlen : ∀ t c c', castTo t c = some c' → c'.length = c.length) (ignore : Bool) (arg : AstypeArg κ τ)
    (nan : α) {m : LFrame ι κ α} {df : Frame ι κ α} (h : m.Shows df) (changed full : Bool)
    (hch : changed = false → ∀ p ∈ df.named, ∀ t, arg.target p.1 = some t → castTo t p.2 = some p.2)
    (hblk : changed = true → full = false → ∀ p ∈ df.named, ∀ t, arg.target p.1 = some t →
      (∀ c, castTo t c = c.mapM (cell t)) ∨ ∀ c, c.Sublist p.2 → castTo t c = some c)
    (hign : ignore = true → ∀ p ∈ df.named, ∀ t, arg.target p.1 = some t → castTo t p.2 ≠ none) :
    (∀ m', m.castWith cfg (astypeBuilder castTo ignore arg) changed full = some m' →
      ∃ df', df.castNamed (arg.cast castTo ignore) = some df' ∧ m'.Shows df') ∧
    (m.castWith cfg (astypeBuilder castTo ignore arg) changed full).bind (·.toPandas nan) = df.castNamed (arg.cast castTo ignore) := by
  have fin : ∀ df' : Frame ι κ α, df.castNamed (arg.cast castTo ignore) = some df' →
      (∃ m', m.castWith cfg (astypeBuilder castTo ignore arg) changed full = some m' ∧ m'.Shows df') →
      (∀ m', m.castWith cfg (astypeBuilder castTo ignore arg) changed full = some m' →
        ∃ df', df.castNamed (arg.cast castTo ignore) = some df' ∧ m'.Shows df') ∧
      (m.castWith cfg (astypeBuilder castTo ignore arg) changed full).bind (·.toPandas nan) = df.castNamed (arg.cast castTo ignore) := by
    rintro df' e ⟨m', e1, e2⟩
    rw [e1, e]
    refine ⟨?_, (e2.observed nan).1⟩
    intro m'' e'; cases e'
    exact ⟨df', rfl, e2⟩
  have hl := castOr_length (cast_length hlen ignore arg)
  by_cases hgood : ∀ p ∈ df.named, ∀ t, arg.target p.1 = some t → castTo t p.2 ≠ none
  · have hc : ∀ p ∈ df.named, arg.cast castTo ignore p.1 p.2 ≠ none := by
      intro p hpn
      unfold AstypeArg.cast
      split
      · simp
      · rename_i t ht
        have := hgood p hpn t ht
        split
        · simp
        · rename_i e; exact absurd e this
    refine fin _ (castNamed_some hc) ?_
    unfold LFrame.castWith
    cases changed with
    | false =>
      rw [if_pos (by rfl), mapNamed_self h.wf]
      · exact operation_shows h fun m1 h1 => represents_mk' h1
      · intro p hpn
        unfold castOr AstypeArg.cast
        split
        · rfl
        · rename_i t ht
          rw [hch rfl p hpn t ht]
          rfl
    | true =>
      rw [if_neg (by simp)]
      cases full with
      | true =>
        rw [if_pos rfl]
        refine fold_cast_some cfg hp hr h hl fun a b => ?_
        rw [astypeBuilder_eq]
        refine castNamed_some fun p hpn => hc p ?_
        rw [named_ilocCols h.wf] at hpn
        exact (pySlice_sublist _ _ _).subset hpn
      | false =>
        rw [if_neg (by simp)]
        have key : ∀ a b, ∀ p ∈ df.named, ∃ c', arg.cast castTo ignore p.1 p.2 = some c' ∧
            arg.cast castTo ignore p.1 (pySlice p.2 a b) = some (pySlice c' a b) := by
          intro a b p hpn
          unfold AstypeArg.cast
          cases ht : arg.target p.1 with
          | none => exact ⟨_, rfl, rfl⟩
          | some t =>
            simp only
            rcases hblk rfl rfl p hpn t ht with he | hid
            · cases hx : castTo t p.2 with
              | none => exact absurd hx (hgood p hpn t ht)
              | some c' =>
                refine ⟨c', rfl, ?_⟩
                rw [he] at hx
                rw [he, mapM_slice_some hx]
            · rw [hid p.2 (List.Sublist.refl _), hid _ (pySlice_sublist _ _ _)]
              exact ⟨_, rfl, rfl⟩
        refine castBlocks_some h hl ?_ ?_
        · intro a b p hpn
          obtain ⟨c', e1, e2⟩ := key a b p hpn
          unfold castOr
          rw [e1, e2]; rfl
        · intro a b c d
          rw [astypeBuilder_eq]
          refine castNamed_some fun p hpn => ?_
          rw [named_ilocCols (h.wf.ilocRows _ _)] at hpn
          have hpn := (pySlice_sublist _ _ _).subset hpn
          rw [named_ilocRows h.wf] at hpn
          obtain ⟨q, hq, rfl⟩ := List.mem_map.1 hpn
          obtain ⟨c', _, e2⟩ := key a b q hq
          simp only [e2]
          simp
  · have hbad : ∃ p ∈ df.named, ∃ t, arg.target p.1 = some t ∧ castTo t p.2 = none := by
      refine Classical.byContradiction fun hn => hgood fun p hpn t ht hx => hn ⟨p, hpn, t, ht, hx⟩
    obtain ⟨p, hpn, t, ht, hx⟩ := hbad
    have hig : ignore = false := by
      cases ignore with
      | false => rfl
      | true => exact absurd hx (hign rfl p hpn t ht)
    subst hig
    have hcn : arg.cast castTo false p.1 p.2 = none := by
      unfold AstypeArg.cast; rw [ht]; simp only [hx]; simp
    have hno : m.castWith cfg (astypeBuilder castTo false arg) changed full = none := by
      unfold LFrame.castWith
      cases changed with
      | false => exact absurd (hch rfl p hpn t ht) (by rw [hx]; simp)
      | true =>
        rw [if_neg (by simp)]
        cases full with
        | true =>
          rw [if_pos rfl]
          refine fold_cast_none cfg h hpn fun b hb => ?_
          rw [astypeBuilder_eq]
          exact castNamed_none hb hcn
        | false =>
          rw [if_neg (by simp)]
          rcases hblk rfl rfl p hpn t ht with he | hid
          · rw [he] at hx
            obtain ⟨a, ha, hax⟩ := mapM_none_mem hx
            refine castBlocks_none h hpn ha fun b c hb hac => ?_
            rw [astypeBuilder_eq]
            refine castNamed_none hb ?_
            unfold AstypeArg.cast
            simp only [ht, he, mapM_mem_none hac hax]
            simp
          · rw [hid p.2 (List.Sublist.refl _)] at hx; cases hx
    rw [hno, castNamed_none hpn hcn]
    exact ⟨by simp, rfl⟩

/-! ### dtypes -/

omit [DecidableEq ι] [DecidableEq τ] in
theorem valueFor_mem {d : List (κ × τ)} {k : κ} {t : τ} (h : valueFor d k = some t) : (k, t) ∈ d := by
  unfold valueFor at h
  obtain ⟨p, h1, rfl⟩ := Option.map_eq_some_iff.1 h
  have h2 := List.find?_some h1
  have h3 := List.mem_of_find?_eq_some h1
  simp only [decide_eq_true_eq] at h2
  rw [← h2]; exact h3

omit [DecidableEq ι] [DecidableEq τ] in
theorem valueFor_of_mem {d : List (κ × τ)} (hn : (d.map (·.1)).Nodup) {k : κ} {t : τ} (h : (k, t) ∈ d) : valueFor d k = some t := by
  induction d with
  | nil => simp at h
  | cons p d ih =>
    rw [List.map_cons, List.nodup_cons] at hn
    unfold valueFor
    rw [List.find?_cons]
    rcases List.mem_cons.1 h with rfl | h
    · simp
    · have : p.1 ≠ k := fun e => hn.1 (by rw [e]; exact List.mem_map.2 ⟨(k, t), h, rfl⟩)
      simp only [this, decide_false]
      exact ih hn.2 h

omit [DecidableEq ι] in
theorem same_of_not_differs {columns : List κ} {T : List τ} {k : κ} {t t0 : τ} (h : dtypeDiffers columns T (k, t) = false)
    (hm : (k, t0) ∈ columns.zip T) : t0 = t := by
  unfold dtypeDiffers at h
  have hf : (k, t0) ∈ (columns.zip T).filter fun q => decide (q.1 = k) := List.mem_filter.2 ⟨hm, by simp⟩
  split at h
  · rename_i q e
    have e' : ((columns.zip T).filter fun q => decide (q.1 = k)) = [q] := e
    rw [e'] at hf
    have := List.mem_singleton.1 hf
    subst this
    have e1 : t = t0 := by simpa using h
    exact e1.symm
  · cases h

theorem zipWith_congr_zip {A B C : Type} {f g : A → B → C} : ∀ {l : List A} {l' : List B}, (∀ p ∈ l.zip l', f p.1 p.2 = g p.1 p.2) →
    List.zipWith f l l' = List.zipWith g l l'
  | [], _, _ => by simp
  | _ :: _, [], _ => by simp
  | a :: l, b :: l', h => by
    rw [List.zipWith_cons_cons, List.zipWith_cons_cons, h (a, b) (by simp), zipWith_congr_zip fun p hp => h p (by simp [hp])]

omit [DecidableEq ι] in
theorem newDtypes_eq {columns : List κ} {T : List τ} {d : List (κ × τ)} (hn : (d.map (·.1)).Nodup) :
    newDtypes columns T (d.filter (dtypeDiffers columns T)) = (AstypeArg.each d).dtypes columns T := by
  unfold newDtypes AstypeArg.dtypes
  refine zipWith_congr_zip fun p hp => ?_
  simp only [AstypeArg.target]
  have hsub : ((d.filter (dtypeDiffers columns T)).map (·.1)).Nodup := hn.sublist (List.filter_sublist.map _)
  cases hv : valueFor d p.1 with
  | none =>
    cases hc : valueFor (d.filter (dtypeDiffers columns T)) p.1 with
    | none => rfl
    | some t =>
      have := valueFor_of_mem hn (List.mem_filter.1 (valueFor_mem hc)).1
      rw [hv] at this; cases this
  | some t =>
    have hm := valueFor_mem hv
    cases hd : dtypeDiffers columns T (p.1, t) with
    | true => rw [valueFor_of_mem hsub (List.mem_filter.2 ⟨hm, hd⟩)]
    | false =>
      have e0 : p.2 = t := same_of_not_differs hd hp
      cases hc : valueFor (d.filter (dtypeDiffers columns T)) p.1 with
      | none => exact e0
      | some t' =>
        have := valueFor_of_mem hn (List.mem_filter.1 (valueFor_mem hc)).1
        rw [hv] at this; cases this; rfl

omit [DecidableEq ι] [DecidableEq κ] [DecidableEq τ] in
theorem named_dtype {df : Frame ι κ α} {T : List τ} (hT : T.length = df.columns.length) {p : κ × List α} (hp : p ∈ df.named) :
    ∃ t0, (p, t0) ∈ df.named.zip T ∧ (p.1, t0) ∈ df.columns.zip T := by
  obtain ⟨j, hj, rfl⟩ := List.mem_iff_getElem.1 hp
  have hjc : j < df.columns.length := by unfold Frame.named at hj; rw [List.length_zip] at hj; omega
  have hjT : j < T.length := by omega
  refine ⟨T[j], ?_, ?_⟩
  · refine List.mem_iff_getElem.2 ⟨j, by rw [List.length_zip]; omega, ?_⟩
    rw [List.getElem_zip]
  · refine List.mem_iff_getElem.2 ⟨j, by rw [List.length_zip]; omega, ?_⟩
    rw [List.getElem_zip]
    simp [Frame.named, List.getElem_zip]
