import Verif.Lemmas.Astype

/-!
C95: `df.astype`.
-/

variable {ι κ α τ : Type} [DecidableEq ι] [DecidableEq κ] [DecidableEq τ]

omit [DecidableEq ι] [DecidableEq τ] in
/-- **C95, what is compared with.** `df.astype(arg)` with `errors="raise"` answers exactly when every name in the argument is the name of a
    column and every column with a dtype asked for can be cast; then the labels stay and each column is either cast or left alone. -/
theorem C95_meaning {castTo : τ → List α → Option (List α)} (hlen : ∀ t c c', castTo t c = some c' → c'.length = c.length)
    (arg : AstypeArg κ τ) (df df' : Frame ι κ α) (hwf : df.WF) (h : df.astype castTo false arg = some df') :
    df'.index = df.index ∧ df'.columns = df.columns ∧ df'.WF ∧
    ∀ (j : Nat) (k : κ) (c : List α), df.named[j]? = some (k, c) →
      ∃ c', df'.named[j]? = some (k, c') ∧ (arg.target k = none → c' = c) ∧ ∀ t, arg.target k = some t → castTo t c = some c' := by
  unfold Frame.astype at h
  split at h
  · have hgood : ∀ p ∈ df.named, arg.cast castTo false p.1 p.2 ≠ none := by
      intro p hp hn
      rw [castNamed_none hp hn] at h; cases h
    rw [castNamed_some hgood] at h
    cases h
    have hl := castOr_length (cast_length hlen false arg)
    refine ⟨rfl, rfl, hwf.mapNamed hl, ?_⟩
    intro j k c hj
    rw [named_mapNamed hwf hl, List.getElem?_map, hj]
    refine ⟨_, rfl, ?_, ?_⟩
    · intro hk
      simp only [castOr, AstypeArg.cast, hk, Option.getD_some]
    · intro t ht
      have hg := hgood (k, c) (List.mem_of_getElem? hj)
      simp only [AstypeArg.cast, ht] at hg
      cases hx : castTo t c with
      | none => rw [hx] at hg; simp at hg
      | some c' => simp only [castOr, AstypeArg.cast, ht, hx, Option.getD_some]
  · cases h

/-- **C95.** For every frame however divided, `df.astype(arg)` is pandas' frame with pandas' dtypes recorded, and raises exactly when pandas
    raises: a column is cast as a whole or value by value, as its dtype needs.

    `castTo` is any way of casting that keeps the length, works value by value except for categories (`isCat`), and leaves a
    column (and any part of it) alone whose dtype it already is.  Partial: with `errors="ignore"` only if every column can be cast;
    otherwise see `C95_ignore_by_block` and `C95_ignore_dtypes`. -/
theorem C95_astype_partial (cfg : Cfg) (hp : 1 ≤ cfg.nPartitions) (hr : 1 ≤ cfg.minRow) (isCat : τ → Bool)
    {castTo : τ → List α → Option (List α)} {cell : τ → α → Option α}
    (hlen : ∀ t c c', castTo t c = some c' → c'.length = c.length)
    (hcell : ∀ t, isCat t = false → ∀ c, castTo t c = c.mapM (cell t))
    (ignore : Bool) (arg : AstypeArg κ τ) (nan : α) (m : LFrame ι κ α) (df : Frame ι κ α) (h : m.Shows df)
    (T : List τ) (hT : T.length = df.columns.length)
    (hsame : ∀ q ∈ df.named.zip T, ∀ c : List α, c.Sublist q.1.2 → castTo q.2 c = some c)
    (hdict : ∀ d, arg = .each d → (d.map (·.1)).Nodup)
    (hign : ignore = true → df.astype castTo false arg ≠ none) :
    (∀ m' T', m.astype cfg isCat castTo ignore arg T = some (m', T') →
      T' = arg.dtypes df.columns T ∧ ∃ df', df.astype castTo ignore arg = some df' ∧ m'.Shows df') ∧
    (m.astype cfg isCat castTo ignore arg T).bind (·.1.toPandas nan) = df.astype castTo ignore arg := by
  have hcol := h.getColumns
  have hign' : arg.keysIn df.columns = true → ignore = true → ∀ p ∈ df.named, ∀ t, arg.target p.1 = some t → castTo t p.2 ≠ none := by
    intro hk hi p hpn t ht hx
    refine hign hi ?_
    unfold Frame.astype
    rw [if_pos hk]
    refine castNamed_none hpn ?_
    unfold AstypeArg.cast
    simp only [ht, hx]
    simp
  have hid : ∀ p ∈ df.named, ∀ t, (∀ t0, (p.1, t0) ∈ df.columns.zip T → t0 = t) → ∀ c, c.Sublist p.2 → castTo t c = some c := by
    intro p hpn t ht c hc
    obtain ⟨t0, h1, h2⟩ := named_dtype hT hpn
    have := hsame _ h1 c hc
    rw [ht t0 h2] at this
    exact this
  cases arg with
  | all t =>
    have spec := castWith_spec cfg hp hr (cell := cell) hlen ignore (.all t) nan h (T.any fun u => decide (u ≠ t)) (isCat t)
      (by
        intro hch p hpn t' ht'
        cases ht'
        refine hid p hpn t ?_ p.2 (List.Sublist.refl _)
        intro t0 h0
        have hm := (List.of_mem_zip h0).2
        have := List.any_eq_false.1 hch t0 hm
        simpa using this)
      (by
        intro _ hf p hpn t' ht'
        cases ht'
        exact Or.inl (hcell t hf))
      (hign' rfl)
    have hd : df.astype castTo ignore (.all t) = df.castNamed ((AstypeArg.all t).cast castTo ignore) := rfl
    rw [hd]
    have hmt : m.astype cfg isCat castTo ignore (.all t) T
        = (m.castWith cfg (astypeBuilder castTo ignore (.all t)) (T.any fun u => decide (u ≠ t)) (isCat t)).map
            fun r => (r, if T.any fun u => decide (u ≠ t) then T.map fun _ => t else T) := rfl
    rw [hmt]
    constructor
    · intro m' T' e
      obtain ⟨r, e1, e2⟩ := Option.map_eq_some_iff.1 e
      cases e2
      refine ⟨?_, spec.1 _ e1⟩
      have hz : ∀ (l : List κ) (l' : List τ), l'.length = l.length → List.zipWith (fun _ _ => t) l l' = l'.map fun _ => t := by
        intro l
        induction l with
        | nil => intro l' hl; cases l' <;> simp_all
        | cons k l ih =>
          intro l' hl
          cases l' with
          | nil => simp at hl
          | cons u l' => simp only [List.zipWith_cons_cons, List.map_cons, ih l' (by simpa using hl)]
      have hdt : (AstypeArg.all t).dtypes df.columns T = T.map fun _ => t := hz df.columns T hT
      rw [hdt]
      split
      · rfl
      · rename_i hn
        have hall : ∀ u ∈ T, u = t := by simpa using hn
        conv => lhs; rw [← List.map_id T]
        exact List.map_congr_left fun u hu => hall u hu
    · rw [← spec.2]
      cases m.castWith cfg (astypeBuilder castTo ignore (.all t)) (T.any fun u => decide (u ≠ t)) (isCat t) <;> rfl
  | each d =>
    have hn := hdict d rfl
    by_cases hk : (d.all fun p => df.columns.contains p.1) = true
    · have spec := castWith_spec cfg hp hr (cell := cell) hlen ignore (.each d) nan h (!(d.filter (dtypeDiffers df.columns T)).isEmpty)
        ((d.filter (dtypeDiffers df.columns T)).any fun p => isCat p.2)
        (by
          intro hch p hpn t ht
          have hnil : d.filter (dtypeDiffers df.columns T) = [] := by simpa using hch
          have hmem : (p.1, t) ∈ d := valueFor_mem ht
          have hdf : dtypeDiffers df.columns T (p.1, t) = false := by
            have := List.filter_eq_nil_iff.1 hnil _ hmem
            simpa using this
          exact hid p hpn t (fun t0 h0 => same_of_not_differs hdf h0) p.2 (List.Sublist.refl _))
        (by
          intro _ hf p hpn t ht
          have hmem : (p.1, t) ∈ d := valueFor_mem ht
          cases hdf : dtypeDiffers df.columns T (p.1, t) with
          | true =>
            refine Or.inl (hcell t ?_)
            have := List.any_eq_false.1 hf (p.1, t) (List.mem_filter.2 ⟨hmem, hdf⟩)
            simpa using this
          | false => exact Or.inr (hid p hpn t fun t0 h0 => same_of_not_differs hdf h0))
        (hign' hk)
      have hd : df.astype castTo ignore (.each d) = df.castNamed ((AstypeArg.each d).cast castTo ignore) := by
        unfold Frame.astype; rw [if_pos (show (AstypeArg.each d).keysIn df.columns = true from hk)]
      have hmt : m.astype cfg isCat castTo ignore (.each d) T
          = (m.castWith cfg (astypeBuilder castTo ignore (.each d)) (!(d.filter (dtypeDiffers df.columns T)).isEmpty)
              ((d.filter (dtypeDiffers df.columns T)).any fun p => isCat p.2)).map
              fun r => (r, newDtypes df.columns T (d.filter (dtypeDiffers df.columns T))) := by
        unfold LFrame.astype
        rw [hcol]
        simp only [hk, ↓reduceIte]
      rw [hd, hmt]
      constructor
      · intro m' T' e
        obtain ⟨r, e1, e2⟩ := Option.map_eq_some_iff.1 e
        cases e2
        exact ⟨newDtypes_eq hn, spec.1 _ e1⟩
      · rw [← spec.2]
        cases m.castWith cfg (astypeBuilder castTo ignore (.each d)) (!(d.filter (dtypeDiffers df.columns T)).isEmpty)
          ((d.filter (dtypeDiffers df.columns T)).any fun p => isCat p.2) <;> rfl
    · have hd : df.astype castTo ignore (.each d) = none := by
        unfold Frame.astype; rw [if_neg (show ¬ (AstypeArg.each d).keysIn df.columns = true from hk)]
      have hmt : m.astype cfg isCat castTo ignore (.each d) T = none := by
        unfold LFrame.astype
        rw [hcol]
        simp only [hk, Bool.false_eq_true, ↓reduceIte]
      rw [hd, hmt]
      exact ⟨by simp, rfl⟩

namespace AstypeDemo

/-- integers, texts (those below ten are numerals), and codes of a category with the number of its categories -/
inductive V
  | int (n : Nat) | word (n : Nat) | code (n k : Nat)
deriving DecidableEq, Repr

inductive D
  | int | object | category
deriving DecidableEq, Repr

def cell : D → V → Option V
  | .int, .int n => some (.int n)
  | .int, .word n => if n < 10 then some (.int n) else none
  | .object, v => some v
  | _, _ => none

def isCode : V → Bool
  | .code _ _ => true
  | _ => false

/-- a category needs all values of the column -/
def castTo : D → List V → Option (List V)
  | .category, c => if c.all isCode then some c else some (c.map fun v => .code (c.idxOf v) c.eraseDups.length)
  | .int, c => c.mapM (cell .int)
  | .object, c => c.mapM (cell .object)

def isCat (t : D) : Bool := decide (t = .category)

theorem castTo_cell (t : D) (h : isCat t = false) (c : List V) : castTo t c = c.mapM (cell t) := by
  cases t with
  | category => cases h
  | int => rfl
  | object => rfl

theorem castTo_length (t : D) (c c' : List V) (h : castTo t c = some c') : c'.length = c.length := by
  cases t with
  | category =>
    simp only [castTo] at h
    split at h <;> cases h
    · rfl
    · simp
  | int => exact (mapM_length h).symm ▸ rfl
  | object => exact (mapM_length h).symm ▸ rfl

def df : Frame Nat String V :=
  ⟨[7, 8, 9], ["a", "b", "c"], [[.word 1, .int 5, .word 30], [.word 2, .int 6, .word 31], [.word 1, .int 7, .word 30]]⟩

def T : List D := [.object, .int, .object]

/-- two row and two column partitions -/
def m : LFrame Nat String V := ⟨⟨df.cut [2, 1] [1, 2], some df.index, none, none, none⟩, false, false⟩

theorem shows : m.Shows df :=
  ⟨⟨rfl, by decide⟩, ⟨df, [2, 1], [1, 2], ⟨rfl, by decide⟩, rfl, rfl,
    ⟨by decide, by decide, by decide, by decide⟩, rfl, Or.inl rfl, Or.inl rfl, by decide, by decide⟩, Or.inr rfl, Or.inl ⟨rfl, rfl⟩⟩

theorem T_true : ∀ q ∈ df.named.zip T, ∀ c : List V, c.Sublist q.1.2 → castTo q.2 c = some c := by
  intro q hq c hc
  have hv : isCat q.2 = false ∧ ∀ a ∈ q.1.2, cell q.2 a = some a := by
    have : ∀ q ∈ df.named.zip T, isCat q.2 = false ∧ ∀ a ∈ q.1.2, cell q.2 a = some a := by decide
    exact this q hq
  rw [castTo_cell q.2 hv.1, mapM_some_congr (g := fun a => a) fun a ha => hv.2 a (hc.subset ha)]
  simp

-- `df.astype({"a": int, "b": int})`
example : (m.astype ⟨4, 1, 1⟩ isCat castTo false (.each [("a", .int), ("b", .int)]) T).bind (·.1.toPandas (.word 99))
    = some ⟨[7, 8, 9], ["a", "b", "c"], [[.int 1, .int 5, .word 30], [.int 2, .int 6, .word 31], [.int 1, .int 7, .word 30]]⟩ := by
  rw [(C95_astype_partial ⟨4, 1, 1⟩ (by decide) (by decide) isCat castTo_length castTo_cell false _ (.word 99) m df shows T rfl T_true
    (by intro d hd; cases hd; decide) (by simp)).2]
  decide

-- `df.astype({"a": "category"})`: the codes are those of the whole column
example : (m.astype ⟨4, 1, 1⟩ isCat castTo false (.each [("a", .category)]) T).bind (·.1.toPandas (.word 99))
    = some ⟨[7, 8, 9], ["a", "b", "c"], [[.code 0 2, .int 5, .word 30], [.code 1 2, .int 6, .word 31], [.code 0 2, .int 7, .word 30]]⟩ := by
  rw [(C95_astype_partial ⟨4, 1, 1⟩ (by decide) (by decide) isCat castTo_length castTo_cell false _ (.word 99) m df shows T rfl T_true
    (by intro d hd; cases hd; decide) (by simp)).2]
  decide

-- `df.astype(int)` raises because of the column "c", `df.astype({"z": int})` because there is no such column
example : (m.astype ⟨4, 1, 1⟩ isCat castTo false (.all .int) T).bind (·.1.toPandas (.word 99)) = none ∧
    (m.astype ⟨4, 1, 1⟩ isCat castTo false (.each [("z", .int)]) T).bind (·.1.toPandas (.word 99)) = none := by
  rw [(C95_astype_partial ⟨4, 1, 1⟩ (by decide) (by decide) isCat castTo_length castTo_cell false (.all .int) (.word 99) m df shows T rfl T_true
    (by intro d hd; cases hd) (by simp)).2,
    (C95_astype_partial ⟨4, 1, 1⟩ (by decide) (by decide) isCat castTo_length castTo_cell false (.each [("z", .int)]) (.word 99) m df shows T rfl
    T_true (by intro d hd; cases hd; decide) (by simp)).2]
  decide

-- what `C95_meaning` says of the first call
example : ∃ df', df.astype castTo false (.each [("a", .int), ("b", .int)]) = some df' ∧
    df'.named[0]? = some ("a", [.int 1, .int 2, .int 1]) := by
  cases e : df.astype castTo false (.each [("a", .int), ("b", .int)]) with
  | none => exact absurd e (by decide)
  | some df' =>
    obtain ⟨_, _, _, h⟩ := C95_meaning castTo_length _ df df' ⟨rfl, by decide⟩ e
    obtain ⟨c', h1, _, h3⟩ := h 0 "a" [.word 1, .word 2, .word 1] (by decide)
    refine ⟨df', rfl, ?_⟩
    have := h3 .int (by decide)
    have h4 : castTo .int [.word 1, .word 2, .word 1] = some [.int 1, .int 2, .int 1] := by decide
    rw [h4] at this
    cases this
    exact h1

/-- a column with a numeral and a word, in two row partitions -/
def mix : Frame Nat String V := ⟨[0, 1], ["s"], [[.word 1], [.word 30]]⟩

def mmix : LFrame Nat String V := ⟨⟨mix.cut [1, 1] [1], some mix.index, none, none, none⟩, false, false⟩

/-- **C95, violated.** `df.astype(int, errors="ignore")`: pandas leaves a column alone that cannot be cast, Modin casts the blocks that can be
    cast. -/
theorem C95_ignore_by_block :
    (mmix.astype ⟨4, 1, 1⟩ isCat castTo true (.all .int) [.object]).bind (·.1.toPandas (.word 99)) = some ⟨[0, 1], ["s"], [[.int 1], [.word 30]]⟩ ∧
    mix.astype castTo true (.all .int) = some mix := by decide +kernel

/-- **C95, violated.** Even if no block can be cast, the dtype recorded for the column, which pandas leaves alone, is the one asked for. -/
theorem C95_ignore_dtypes :
    (LFrame.astype (ι := Nat) (κ := String) ⟨4, 1, 1⟩ isCat castTo true (.all .int) [.object]
      ⟨⟨(Frame.mk [0] ["s"] [[.word 30]]).cut [1] [1], none, none, none, none⟩, false, false⟩).map (·.2) = some [.int] ∧
    Frame.astype (ι := Nat) castTo true (.all .int) (Frame.mk [0] ["s"] [[.word 30]]) = some (Frame.mk [0] ["s"] [[V.word 30]]) := by
  decide +kernel

end AstypeDemo
