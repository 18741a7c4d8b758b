import Verif.Lemmas.Concat
import Verif.Lemmas.NAry
/-
Properties C11 (concatenating rows), C12 (rebalancing row partitions), C13 (cell-by-cell operations
on several frames) and C43 (concatenating columns).
-/

variable {ι κ α L : Type}

/-! ### C12 -/

/-- **C12.** Rebalancing row partitions never loses, repeats or reorders rows.  Whatever frame the
    blocks divide and whatever its division (empty bands allowed), whether or not the blocks know
    their lengths, the result divides the same frame into the same columns; the lengths reported, if any, are
    those of the new bands; and unless nothing was done there are at most `np` bands. -/
theorem C12_rebalance_preserves [DecidableEq ι] [DecidableEq κ] (df : Frame ι κ α) (rl cw : List Nat) (h : df.IsCut rl cw)
    (np : Nat) (hnp : 0 < np) (known : Bool) :
    ∃ rl' lens, rebalance np known (df.cut rl cw) = some (df.cut rl' cw, lens) ∧
      df.IsCut rl' cw ∧ (lens = none ∨ lens = some rl') ∧ (rl' = rl ∨ rl'.length ≤ np) := by
  obtain ⟨rl', lens, h1, h2, h3, h4⟩ := rebalance_cut h np hnp known
  exact ⟨rl', lens, h2, h1, h3, h4⟩

/-- ten one-row bands become three, and the second is split off the middle of a merged band -/
example : ∃ rl' : List Nat,
    let df : Frame Nat Nat Nat := { index := List.range 10, columns := [0], rows := (List.range 10).map fun i => [i] }
    df.IsCut (List.replicate 10 1) [1] ∧ rl' ≠ List.replicate 10 1 ∧
    rebalance 3 true (df.cut (List.replicate 10 1) [1]) = some (df.cut rl' [1], some rl') :=
  ⟨[4, 4, 2], ⟨by decide, by decide, by decide, by decide⟩, by decide, by decide⟩

/-! ### C11 -/

/-- A frame aligned on the column labels `J`: its column with that label, missing values where it
    has none. -/
theorem C11_aligned_cells (df : Frame ι L α) (nan : α) (J : List L) (I : List (Option Nat)) (hI : IsIndexer df.columns J I)
    (x k : Nat) (l : L) (hk : J[k]? = some l) (row : List α) (hrow : df.rows[x]? = some row) (hw : df.WF) :
    (∃ p : Nat, df.columns[p]? = some l ∧ (df.reindexCols nan J I).cell x k = row[p]? ∧ p < row.length) ∨
    (l ∉ df.columns ∧ (df.reindexCols nan J I).cell x k = some nan) := by
  have hkI : k < I.length := by
    rw [hI.length]
    exact (List.getElem?_eq_some_iff.1 hk).1
  have hcell : (df.reindexCols nan J I).cell x k = I[k]?.map fun o => (o.bind (row[·]?)).getD nan := by
    unfold Frame.cell Frame.reindexCols
    simp [Frame.mapRows, hrow, pick]
  rw [hcell]
  rw [List.getElem?_eq_getElem hkI]
  have hlen : row.length = df.columns.length := hw.row_width row (List.mem_of_getElem? hrow)
  cases hIk : I[k] with
  | none =>
    right
    refine ⟨hI.missing k l ?_ hk, rfl⟩
    rw [List.getElem?_eq_getElem hkI, hIk]
  | some p =>
    left
    obtain ⟨h1, h2⟩ := hI.found k p (by rw [List.getElem?_eq_getElem hkI, hIk])
    refine ⟨p, by rw [h2, hk], ?_, by omega⟩
    have : p < row.length := by omega
    simp [this]

variable [DecidableEq L]

/-- **C11.** Row concatenation keeps all rows in order.  For every list of frames, each with every
    possible division into blocks (or without blocks, if it has no rows), and every way the
    columns are joined: the result consists of the rows of the first frame, then of the second, and
    so on, under the joined columns `J`; each frame's cells are found by their column label
    (`C11_aligned_cells`), missing where the frame has no such column. -/
theorem C11_concat_rows (P : JoinOps L) (hP : P.Good) (cfg : Cfg) (hp : 1 ≤ cfg.nPartitions) (hr : 1 ≤ cfg.minRow)
    (hc : 1 ≤ cfg.minCol) (nan : α) (known : Grid L L α → Bool)
    (m0 : MFrame L L α) (df0 : Frame L L α) (rest : List (MFrame L L α × Frame L L α))
    (h : ∀ e ∈ (m0, df0) :: rest, e.1.StandsFor e.2)
    (hj : Joinable P false df0.columns (rest.map (·.2.columns))) :
    ∃ (m : MFrame L L α) (Is : List (List (Option Nat))),
      concatRows P cfg nan known m0 (rest.map (·.1)) = some m ∧
      Is.length = rest.length + 1 ∧
      (∀ (i : Nat) e I, ((m0, df0) :: rest)[i]? = some e → Is[i]? = some I →
        IsIndexer e.2.columns (joinedLabels P false df0.columns (rest.map (·.2.columns))) I) ∧
      let J := joinedLabels P false df0.columns (rest.map (·.2.columns))
      let result := Frame.stackRows J
        (List.zipWith (fun e I => e.2.reindexCols nan J I) ((m0, df0) :: rest) Is)
      m.StandsFor result ∧ m.toPandas nan = some result := by
  obtain ⟨pl, hpl, hok⟩ := list_choose_map (fun p : Piece L α => (p.m, p.df)) ((m0, df0) :: rest)
    (fun p => p.m.StandsFor p.df ∧ p.Ok false ∧
      (p.has = true → p.m.Represents p.df ∧ (p.m.axisCache false).2 ∈ [none, some p.along]) ∧
      (p.has = false → p.df.index = [] ∧ p.across = [])) (by
      intro e he
      obtain ⟨p, h1, h2, h3, h4, h5⟩ := piece_of_standsFor (h e he)
      refine ⟨p, Prod.ext h1 h2, ?_, h3, ?_, ?_⟩
      · rw [h1, h2]; exact h e he
      · rw [h1, h2]; exact h4
      · rw [h2]; exact h5)
  cases pl with
  | nil => cases hpl
  | cons p0 ps =>
    rw [List.map_cons] at hpl
    have h0 : (p0.m, p0.df) = (m0, df0) := (List.cons.inj hpl).1
    have hps : ps.map (fun p => (p.m, p.df)) = rest := (List.cons.inj hpl).2
    cases h0
    subst hps
    simp only [List.map_map] at hj ⊢
    have hal : Alignable P false p0 ps := alignable_of hP hj (fun h => nomatch h)
    obtain ⟨m, hm1, hm2⟩ := concatRows_spec P cfg hp hr hc nan known p0 ps (fun p hp => (hok p hp).1)
      (fun p hp => (hok p hp).2.1) (fun p hp => (hok p hp).2.2.2) (fun p hp => (hok p hp).2.2.1) hal
    have hres : alignedDfs P false nan p0 ps = List.zipWith (fun (e : MFrame L L α × Frame L L α) I =>
        e.2.reindexCols nan (jLabels P false p0 ps) I)
        ((p0.m, p0.df) :: ps.map fun p => (p.m, p.df))
        ((p0 :: ps).zipIdx.map fun e => (jIndexer P false p0 ps e).getD []) := by
      have : ((p0.m, p0.df) :: ps.map fun p => (p.m, p.df)) = (p0 :: ps).zipIdx.map fun e => (e.1.m, e.1.df) := by
        rw [show (fun e : Piece L α × Nat => (e.1.m, e.1.df)) = (fun p : Piece L α => (p.m, p.df)) ∘ Prod.fst from rfl,
          ← List.map_map, List.zipIdx_map_fst]
        rfl
      rw [this, List.zipWith_map, List.zipWith_self]
      rfl
    refine ⟨m, (p0 :: ps).zipIdx.map fun e => (jIndexer P false p0 ps e).getD [], hm1, by simp, ?_, ?_⟩
    · intro i e I he hI
      rw [List.getElem?_map] at hI
      have he' : (p0 :: ps)[i]?.map (fun p => (p.m, p.df)) = some e := by
        rw [← List.getElem?_map]; exact he
      rw [List.getElem?_zipIdx] at hI
      cases hp : (p0 :: ps)[i]? with
      | none => rw [hp] at he'; cases he'
      | some p =>
        rw [hp] at he' hI
        cases he'
        simp only [Option.map_some, Option.some.injEq] at hI
        obtain ⟨⟨I', hI', hI2⟩, _⟩ := hal (p, 0 + i) (by
          rw [List.mem_zipIdx_iff_getElem?]
          simpa using hp)
        rw [hI'] at hI
        simp only [Option.getD_some] at hI
        subst hI
        exact hI2
    · rw [hres] at hm2
      exact ⟨hm2, standsFor_toPandas hm2 nan⟩

/-- **C11, same columns.** If all frames have the same columns (repeated labels allowed) the result
    is exactly their rows and row labels one after the other. -/
theorem C11_concat_rows_same_columns (P : JoinOps L) (hP : P.Good) (cfg : Cfg) (hp : 1 ≤ cfg.nPartitions)
    (hr : 1 ≤ cfg.minRow) (hc : 1 ≤ cfg.minCol) (nan : α) (known : Grid L L α → Bool)
    (m0 : MFrame L L α) (df0 : Frame L L α) (rest : List (MFrame L L α × Frame L L α))
    (h : ∀ e ∈ (m0, df0) :: rest, e.1.StandsFor e.2) (hsame : ∀ e ∈ rest, e.2.columns = df0.columns) :
    ∃ m, concatRows P cfg nan known m0 (rest.map (·.1)) = some m ∧
      m.toPandas nan = some
        { index := (((m0, df0) :: rest).map (·.2.index)).flatten, columns := df0.columns,
          rows := (((m0, df0) :: rest).map (·.2.rows)).flatten } := by
  have hall : allSame df0.columns (rest.map (·.2.columns)) = true := by
    unfold allSame
    rw [List.all_eq_true]
    intro l hl
    obtain ⟨e, he, rfl⟩ := List.mem_map.1 hl
    simpa using hsame e he
  have hJ : joinedLabels P false df0.columns (rest.map (·.2.columns)) = df0.columns := by
    unfold joinedLabels
    rw [hall]
    simp
  obtain ⟨m, Is, h1, h2, h3, _, h5⟩ := C11_concat_rows P hP cfg hp hr hc nan known m0 df0 rest h (Or.inl (by
    intro l hl
    obtain ⟨e, he, rfl⟩ := List.mem_map.1 hl
    exact hsame e he))
  refine ⟨m, h1, ?_⟩
  rw [h5, hJ]
  rw [hJ] at h3
  have hz : ∀ (fs : List (MFrame L L α × Frame L L α)) (Is : List (List (Option Nat))), Is.length = fs.length →
      (∀ e ∈ fs, e.2.columns = df0.columns ∧ e.2.WF) →
      (∀ (i : Nat) e I, fs[i]? = some e → Is[i]? = some I → IsIndexer e.2.columns df0.columns I) →
      List.zipWith (fun e I => e.2.reindexCols nan df0.columns I) fs Is = fs.map (·.2) := by
    intro fs
    induction fs with
    | nil => intro Is _ _ _; simp
    | cons e fs ih =>
      intro Is hlen hcol hI
      cases Is with
      | nil => simp at hlen
      | cons I Is =>
        rw [List.zipWith_cons_cons, List.map_cons, ih Is (by simpa using hlen)
          (fun x hx => hcol x (List.mem_cons_of_mem _ hx)) (fun i a b ha hb => hI (i + 1) a b ha hb)]
        congr 1
        obtain ⟨hc1, hwf⟩ := hcol e (by simp)
        have := (hI 0 e I rfl rfl).same hc1
        rw [this, ← hc1]
        exact reindexFn_id (axis0 := false) (nan := nan) hwf
  have := hz ((m0, df0) :: rest) Is (by rw [h2]; rfl) (by
    intro e he
    refine ⟨?_, standsFor_wf (h e he)⟩
    rcases List.mem_cons.1 he with rfl | he
    · rfl
    · exact hsame e he) h3
  rw [this]
  simp only [Frame.stackRows, List.map_map]
  rfl

/-- **C11, which columns.** With an outer join the result's columns are the labels of all frames;
    with an inner join those common to all frames. -/
theorem C11_joined_columns (P : JoinOps L) (hf : P.first = false) (first : List L) (rest : List (List L)) (l : L) :
    ((∀ a b, l ∈ P.merge a b ↔ l ∈ a ∨ l ∈ b) →
      (l ∈ joinedLabels P false first rest ↔ ∃ c ∈ first :: rest, l ∈ c)) ∧
    ((∀ a b, l ∈ P.merge a b ↔ l ∈ a ∧ l ∈ b) →
      (l ∈ joinedLabels P false first rest ↔ ∀ c ∈ first :: rest, l ∈ c)) := by
  by_cases hs : allSame first rest = true
  · have hJ : joinedLabels P false first rest = first := by unfold joinedLabels; simp [hs]
    have hall : ∀ c ∈ first :: rest, c = first := by
      intro c hc
      rcases List.mem_cons.1 hc with rfl | hc
      · rfl
      · simpa using List.all_eq_true.1 hs c hc
    rw [hJ]
    constructor
    · intro _
      exact ⟨fun h => ⟨first, by simp, h⟩, fun ⟨c, hc, h⟩ => by rwa [hall c hc] at h⟩
    · intro _
      exact ⟨fun h c hc => by rwa [hall c hc], fun h => h first (by simp)⟩
  · have hJ : joinedLabels P false first rest = rest.foldl P.merge first := by
      unfold joinedLabels
      rw [hf, Bool.false_or, if_neg hs]
      match rest with
      | [] => rfl
      | [s] => simp [needIndexers]
      | _ :: _ :: _ => rfl
    rw [hJ]
    clear hJ hs
    constructor
    · intro hm
      induction rest generalizing first with
      | nil => simp
      | cons r rest ih =>
        rw [List.foldl_cons, ih]
        simp [hm, or_assoc]
    · intro hm
      induction rest generalizing first with
      | nil => simp
      | cons r rest ih =>
        rw [List.foldl_cons, ih]
        simp [hm, and_assoc]

/-! a concrete concatenation: two frames with different divisions and columns, and one without
    rows and without blocks -/

namespace C11Example

/-- where the labels `J` are in `l` -/
def ix (l J : List Nat) : List (Option Nat) :=
  if l = J then (List.range J.length).map some else J.map fun x => l.findIdx? (· == x)
/-- an unsorted outer join -/
def union (a b : List Nat) : List Nat := a ++ b.filter (fun x => !decide (x ∈ a))
def P : JoinOps Nat :=
  { first := false, merge := union, join2 := fun a b => (union a b, ix a (union a b), ix b (union a b)) }
def cfg : Cfg := { nPartitions := 2, minRow := 1, minCol := 1 }
def a : Frame Nat Nat Nat := { index := [0, 1, 2], columns := [7, 8], rows := [[1, 2], [3, 4], [5, 6]] }
def b : Frame Nat Nat Nat := { index := [0, 5], columns := [8, 9], rows := [[10, 20], [30, 40]] }
def e : Frame Nat Nat Nat := { index := [], columns := [7], rows := [] }
def ma : MFrame Nat Nat Nat := { parts := a.cut [1, 2] [1, 1], index := none, columns := none, rowLens := none, colWidths := none }
def mb : MFrame Nat Nat Nat :=
  { parts := b.cut [2] [2], index := some [0, 5], columns := some [8, 9], rowLens := some [2], colWidths := some [2] }
def me : MFrame Nat Nat Nat := { parts := [], index := some [], columns := some [7], rowLens := some [], colWidths := some [] }

theorem a_ok : ma.Represents a :=
  ⟨⟨by decide, by decide⟩, ⟨[1, 2], [1, 1], ⟨by decide, by decide, by decide, by decide⟩, rfl, Or.inl rfl, Or.inl rfl⟩,
    Or.inl rfl, Or.inl rfl⟩
theorem b_ok : mb.Represents b :=
  ⟨⟨by decide, by decide⟩, ⟨[2], [2], ⟨by decide, by decide, by decide, by decide⟩, rfl, Or.inr rfl, Or.inr rfl⟩,
    Or.inr rfl, Or.inr rfl⟩
theorem e_ok : me.StandsFor e := Or.inr ⟨rfl, ⟨by decide, by decide⟩, rfl, rfl, rfl, by decide⟩

theorem good : P.Good := by
  have key : ∀ l J, IsIndexer l J (ix l J) := by
    intro l J
    unfold ix
    by_cases h : l = J
    · rw [if_pos h, h]; exact isIndexer_same J
    · rw [if_neg h]; exact isIndexer_nodup h
  exact fun a b => ⟨key a _, key b _⟩

end C11Example

open C11Example in
example : ∃ m, concatRows P cfg 0 (fun _ => false) ma [mb, me] = some m :=
  let ⟨m, _, h, _⟩ := C11_concat_rows P good cfg (by decide) (by decide) (by decide) 0 (fun _ => false) ma a
    [(mb, b), (me, e)] (by
      intro x hx
      simp only [List.mem_cons, List.not_mem_nil, or_false] at hx
      rcases hx with rfl | rfl | rfl
      · exact Or.inl a_ok
      · exact Or.inl b_ok
      · exact e_ok) (Or.inr (Or.inl (by decide)))
  ⟨m, h⟩

open C11Example in
example : (concatRows P cfg 0 (fun _ => false) ma [mb, me]).bind (·.toPandas 0) = some
    { index := [0, 1, 2, 0, 5], columns := [7, 8, 9],
      rows := [[1, 2, 0], [3, 4, 0], [5, 6, 0], [0, 10, 20], [0, 30, 40]] } := by decide

/-! ### C13 -/

/-- An operation on the blocks of frames aligned by label is the operation on the blocks of one cut of the aligned frames. -/
theorem nAry_frames (P : JoinOps L) (hP : P.Good) (cfg : Cfg) (hp : 1 ≤ cfg.nPartitions) (hr : 1 ≤ cfg.minRow)
    (hc : 1 ≤ cfg.minCol) (nan : α)
    (m0 : MFrame L L α) (df0 : Frame L L α) (rest : List (MFrame L L α × Frame L L α)) (hne : rest ≠ [])
    (h : ∀ e ∈ (m0, df0) :: rest, e.1.Represents e.2)
    (hjr : Joinable P true df0.index (rest.map (·.2.index)))
    (hd : P.first = true → df0.index.Nodup ∨ (∀ e ∈ rest, e.2.index = df0.index) ∨
      (∀ e ∈ rest, e.2.index = df0.index → e.1.getRowLens = m0.getRowLens))
    (hjc : Joinable P false df0.columns (rest.map (·.2.columns)))
    (hb : (∀ e ∈ (m0, df0) :: rest, e.1.colWidths = none) ∨
      ((∀ e ∈ (m0, df0) :: rest, 0 ∉ e.1.getRowLens) ∧
        ((joinedLabels P false df0.columns (rest.map (·.2.columns)) ≠ [] ∧
            ∀ e ∈ (m0, df0) :: rest, e.1.colWidths.isSome ∧ e.2.columns ≠ []) ∨
          ∀ e ∈ rest, e.2.index = df0.index))) :
    ∃ (B0 : Frame L L α) (Bs : List (Frame L L α)) (R lens2 : List Nat),
      (∀ b ∈ B0 :: Bs, b.WF ∧ b.index = B0.index ∧ b.columns = B0.columns) ∧ B0.IsCut R lens2 ∧
      (∀ {β : Type} (op : Frame L L α → List (Frame L L α) → Option (Frame L L β)),
        nAryOperation op (B0.cut R lens2) (Bs.map (·.cut R lens2)) = none → nAryOp P cfg nan op m0 (rest.map (·.1)) = none) ∧
      (∀ {β : Type} (op : Frame L L α → List (Frame L L α) → Option (Frame L L β)) (C : Frame L L β), C.WF → C.index = B0.index →
        C.columns = B0.columns → nAryOperation op (B0.cut R lens2) (Bs.map (·.cut R lens2)) = some (C.cut R lens2) →
        ∃ m, nAryOp P cfg nan op m0 (rest.map (·.1)) = some m ∧ m.Represents C) ∧
      Bs.length = rest.length ∧
      ∀ (i : Nat) e B, ((m0, df0) :: rest)[i]? = some e → (B0 :: Bs)[i]? = some B →
        ∃ I K, IsIndexer e.2.index (joinedLabels P true df0.index (rest.map (·.2.index))) I ∧
          IsIndexer e.2.columns (joinedLabels P false df0.columns (rest.map (·.2.columns))) K ∧
          B = (e.2.reindexRows nan (joinedLabels P true df0.index (rest.map (·.2.index))) I).reindexCols nan
                (joinedLabels P false df0.columns (rest.map (·.2.columns))) K := by
  obtain ⟨pl, hpl, hok⟩ := list_choose_map (fun p : Piece L α => (p.m, p.df)) ((m0, df0) :: rest)
    (fun p => p.Ok true ∧ p.has = true ∧ p.m.Represents p.df ∧
      (p.m.colWidths = none ∨ p.m.colWidths = some p.across) ∧ (p.m.rowLens = none ∨ p.m.rowLens = some p.along)) (by
      intro e he
      obtain ⟨p, h1, h2, h3, h4, h5, h6⟩ := piece_of_represents (h e he) true
      refine ⟨p, Prod.ext h1 h2, h4, h3, ?_, ?_, ?_⟩
      · rw [h1, h2]; exact h e he
      · rw [h1]; simpa [MFrame.axisCache] using h5
      · rw [h1]; simpa [MFrame.axisCache] using h6)
  cases pl with
  | nil => cases hpl
  | cons p0 ps =>
    rw [List.map_cons] at hpl
    have h0 : (p0.m, p0.df) = (m0, df0) := (List.cons.inj hpl).1
    have hps : ps.map (fun p => (p.m, p.df)) = rest := (List.cons.inj hpl).2
    cases h0
    subst hps
    simp only [List.map_map] at hjr hjc hb ⊢
    have hal : Alignable P true p0 ps := alignable_of hP hjr (by
      intro _ hf
      rcases hd hf with h1 | h1 | h1
      · exact Or.inl h1
      · exact Or.inr (Or.inl fun p hp => h1 _ (List.mem_map_of_mem (f := fun p : Piece L α => (p.m, p.df)) hp))
      · refine Or.inr (Or.inr ⟨(hok p0 (by simp)).2.1, fun p hp e => ?_⟩)
        have hpk := hok p (List.mem_cons_of_mem _ hp)
        have := h1 _ (List.mem_map_of_mem (f := fun p : Piece L α => (p.m, p.df)) hp) e
        refine ⟨hpk.2.1, ?_⟩
        rw [← hpk.1.lens hpk.2.1, ← (hok p0 (by simp)).1.lens (hok p0 (by simp)).2.1]
        exact this)
    have hbands : BandsAgree (joinedLabels P false p0.df.columns (ps.map (·.df.columns))) (p0 :: ps) := by
      have hmem : ∀ p ∈ p0 :: ps, (p.m, p.df) ∈ (p0.m, p0.df) :: ps.map fun p => (p.m, p.df) := by
        intro p hp
        exact List.mem_map_of_mem (f := fun p : Piece L α => (p.m, p.df)) hp
      rcases hb with hb | ⟨hb1, hb2⟩
      · exact Or.inl fun p hp => hb _ (hmem p hp)
      · refine Or.inr ⟨fun p hp => ?_, ?_⟩
        · have := hb1 _ (hmem p hp)
          have hl := (hok p hp).1.lens (hok p hp).2.1
          simp only [MFrame.axisLens, ↓reduceIte] at hl
          rwa [hl] at this
        · rcases hb2 with ⟨h1, h2⟩ | h2
          · exact Or.inl ⟨h1, fun p hp => h2 _ (hmem p hp)⟩
          · right
            have : ∀ p ∈ p0 :: ps, p.df.index = p0.df.index := by
              intro p hp
              rcases List.mem_cons.1 hp with rfl | hp
              · rfl
              · exact h2 (p.m, p.df) (List.mem_map_of_mem (f := fun p : Piece L α => (p.m, p.df)) hp)
            intro p hp q hq
            rw [this p hp, this q hq]
    obtain ⟨B0, Bs, R, lens2, h1, h2, h3, h4, h5⟩ := nAryOp_general P hP cfg hp hr hc nan p0 ps (by
      intro h0; rw [h0] at hne; exact hne rfl) hok hal hjc hbands
    refine ⟨B0, Bs, R, lens2, h2, h3, h4, h5, ?_, ?_⟩
    · have := congrArg List.length h1
      simp [alignedDfs] at this
      simp [this]
    · intro i e B he hB
      have he' : (p0 :: ps)[i]?.map (fun p => (p.m, p.df)) = some e := by
        rw [← List.getElem?_map]; exact he
      cases hp : (p0 :: ps)[i]? with
      | none => rw [hp] at he'; cases he'
      | some p =>
        rw [hp] at he'
        cases he'
        rw [← h1] at hB
        unfold alignedDfs at hB
        rw [List.getElem?_map, List.getElem?_zipIdx, List.getElem?_map, List.getElem?_zipIdx, hp] at hB
        simp only [Option.map_some, Nat.zero_add, Option.some.injEq] at hB
        obtain ⟨⟨I, hI, hI2⟩, _⟩ := hal (p, i) (by
          rw [List.mem_zipIdx_iff_getElem?]
          simpa using hp)
        obtain ⟨K, hK, hK2⟩ := reindexer_ok hP hjc (i := i) (labels := p.df.columns) (by
          have : ((p0 :: ps).map (·.df.columns))[i]? = some p.df.columns := by rw [List.getElem?_map, hp]; rfl
          exact this)
        refine ⟨I, K, hI2, hK2, ?_⟩
        rw [← hB, hI, Option.getD_some]
        show reindexFn false nan _ ((reindexer P false p0.df.columns (ps.map (·.df.columns)) i p.df.columns).getD [])
          (reindexFn true nan (jLabels P true p0 ps) I p.df) = _
        have hK' : reindexer P false p0.df.columns (ps.map (·.df.columns)) i p.df.columns = some K := hK
        rw [hK', Option.getD_some]
        rfl

/-- **C13.** An operation on several frames, cell by cell, equals the operation on the aligned
    pandas frames, however differently the operands are divided into blocks.  `J` and `Jc` are the
    joined row and column labels; each operand is brought to them by label (a row or column it does
    not have is missing).

    Partial: the operands' empty row bands have to be treated alike, see
    `C13_empty_band_wrong`.  That is the case if no operand has recorded column widths; or if none
    has an empty row band and either all have the same row labels, or all have columns and recorded
    column widths. -/
theorem C13_nary_partial (P : JoinOps L) (hP : P.Good) (cfg : Cfg) (hp : 1 ≤ cfg.nPartitions) (hr : 1 ≤ cfg.minRow)
    (hc : 1 ≤ cfg.minCol) (nan : α) {β : Type} (f : α → List α → β)
    (m0 : MFrame L L α) (df0 : Frame L L α) (rest : List (MFrame L L α × Frame L L α)) (hne : rest ≠ [])
    (h : ∀ e ∈ (m0, df0) :: rest, e.1.Represents e.2)
    (hjr : Joinable P true df0.index (rest.map (·.2.index)))
    (hd : P.first = true → df0.index.Nodup ∨ (∀ e ∈ rest, e.2.index = df0.index) ∨
      (∀ e ∈ rest, e.2.index = df0.index → e.1.getRowLens = m0.getRowLens))
    (hjc : Joinable P false df0.columns (rest.map (·.2.columns)))
    (hb : (∀ e ∈ (m0, df0) :: rest, e.1.colWidths = none) ∨
      ((∀ e ∈ (m0, df0) :: rest, 0 ∉ e.1.getRowLens) ∧
        ((joinedLabels P false df0.columns (rest.map (·.2.columns)) ≠ [] ∧
            ∀ e ∈ (m0, df0) :: rest, e.1.colWidths.isSome ∧ e.2.columns ≠ []) ∨
          ∀ e ∈ rest, e.2.index = df0.index))) :
    ∃ (m : MFrame L L β) (B0 : Frame L L α) (Bs : List (Frame L L α)),
      nAryOp P cfg nan (cellwiseBlock f) m0 (rest.map (·.1)) = some m ∧
      m.Represents (B0.cellwise f Bs) ∧ (∀ nan', m.toPandas nan' = some (B0.cellwise f Bs)) ∧
      Bs.length = rest.length ∧
      ∀ (i : Nat) e B, ((m0, df0) :: rest)[i]? = some e → (B0 :: Bs)[i]? = some B →
        ∃ I K, IsIndexer e.2.index (joinedLabels P true df0.index (rest.map (·.2.index))) I ∧
          IsIndexer e.2.columns (joinedLabels P false df0.columns (rest.map (·.2.columns))) K ∧
          B = (e.2.reindexRows nan (joinedLabels P true df0.index (rest.map (·.2.index))) I).reindexCols nan
                (joinedLabels P false df0.columns (rest.map (·.2.columns))) K := by
  obtain ⟨B0, Bs, R, lens2, h1, _, _, h4, h5, h6⟩ := nAry_frames P hP cfg hp hr hc nan m0 df0 rest hne h hjr hd hjc hb
  obtain ⟨m, e1, e2⟩ := h4 (cellwiseBlock f) (B0.cellwise f Bs) (cellwise_wf f (h1 B0 (by simp)).1 Bs) rfl rfl
    (nAryOperation_cut f (fun b hb' => (h1 b (List.mem_cons_of_mem _ hb')).2) R lens2)
  exact ⟨m, B0, Bs, e1, e2, fun nan' => e2.toPandas nan', h5, h6⟩

open C11Example in
/-- two frames with different rows, columns and divisions, added up -/
example : (nAryOp P cfg 0 (cellwiseBlock fun v os => v + os.sum) ma [{ mb with colWidths := none }]).bind (·.toPandas 0)
    = some { index := [0, 1, 2, 5], columns := [7, 8, 9],
             rows := [[1, 12, 20], [3, 4, 0], [5, 6, 0], [0, 30, 40]] } := by decide

open C11Example in
example : ∃ m, nAryOp P cfg 0 (cellwiseBlock fun v os => v + os.sum) ma [{ mb with colWidths := none }] = some m :=
  let ⟨m, _, _, h, _⟩ := C13_nary_partial P good cfg (by decide) (by decide) (by decide) 0 (fun v os => v + os.sum) ma a
    [({ mb with colWidths := none }, b)] (by simp) (by
      intro x hx
      simp only [List.mem_cons, List.not_mem_nil, or_false] at hx
      rcases hx with rfl | rfl
      · exact a_ok
      · exact ⟨⟨by decide, by decide⟩, ⟨[2], [2], ⟨by decide, by decide, by decide, by decide⟩, rfl, Or.inr rfl, Or.inl rfl⟩,
          Or.inr rfl, Or.inr rfl⟩) (Or.inr (Or.inl (by decide))) (fun h => nomatch h) (Or.inr (Or.inl (by decide))) (Or.inl (by
      intro x hx
      simp only [List.mem_cons, List.not_mem_nil, or_false] at hx
      rcases hx with rfl | rfl <;> rfl))
  ⟨m, h⟩

namespace C13Example
/-- what a row filter leaves: the middle one of three row blocks is empty, the widths are known -/
def q : Frame Nat Nat Nat := { index := [0, 1, 5, 6], columns := [7], rows := [[1], [2], [3], [4]] }
def mq : MFrame Nat Nat Nat :=
  { parts := q.cut [2, 0, 2] [1], index := none, columns := some [7], rowLens := none, colWidths := some [1] }
theorem q_ok : mq.Represents q :=
  ⟨⟨by decide, by decide⟩, ⟨[2, 0, 2], [1], ⟨by decide, by decide, by decide, by decide⟩, rfl, Or.inl rfl, Or.inr rfl⟩,
    Or.inl rfl, Or.inr rfl⟩
end C13Example

open C11Example C13Example in
/-- **C13 fails for operands with an empty row band.**  `q + q`, where `q` is a frame whose middle
    row block is empty (as a filter leaves it): the frames aligned on their rows drop the empty band,
    the lengths recorded for the result do not, and a non-empty band is dropped instead.
    The result has two rows instead of four. -/
theorem C13_empty_band_wrong :
    mq.Represents q ∧
    (nAryOp P cfg 0 (cellwiseBlock fun v os => v + os.sum) mq [mq]).map (fun m => (gridIndex m.parts, m.getIndex))
      = some ([0, 1], [0, 1, 5, 6]) :=
  ⟨q_ok, by decide⟩

/-! ### C43 -/

/-- **C43.** Column concatenation.  For every list of frames, each with every possible division into
    blocks, the result has the joined row labels `J` and, from left to right, the columns of the
    first frame, then of the second, and so on; each frame's rows are found by their label. -/
theorem C43_concat_columns (P : JoinOps L) (hP : P.Good) (cfg : Cfg) (hp : 1 ≤ cfg.nPartitions) (hr : 1 ≤ cfg.minRow)
    (hc : 1 ≤ cfg.minCol) (nan : α) (known : Grid L L α → Bool)
    (m0 : MFrame L L α) (df0 : Frame L L α) (rest : List (MFrame L L α × Frame L L α))
    (h : ∀ e ∈ (m0, df0) :: rest, e.1.Represents e.2)
    (hjr : Joinable P true df0.index (rest.map (·.2.index)))
    (hd : P.first = true → df0.index.Nodup ∨ (∀ e ∈ rest, e.2.index = df0.index) ∨
      (∀ e ∈ rest, e.2.index = df0.index → e.1.getRowLens = m0.getRowLens)) :
    ∃ (m : MFrame L L α) (Bs : List (Frame L L α)),
      concatCols P cfg nan known m0 (rest.map (·.1)) = some m ∧
      Bs.length = rest.length + 1 ∧
      (∀ (i : Nat) e B, ((m0, df0) :: rest)[i]? = some e → Bs[i]? = some B →
        ∃ I, IsIndexer e.2.index (joinedLabels P true df0.index (rest.map (·.2.index))) I ∧
          B = e.2.reindexRows nan (joinedLabels P true df0.index (rest.map (·.2.index))) I) ∧
      let result := Frame.stackCols (joinedLabels P true df0.index (rest.map (·.2.index))) Bs
      m.Represents result ∧ m.toPandas nan = some result := by
  obtain ⟨pl, hpl, hok⟩ := list_choose_map (fun p : Piece L α => (p.m, p.df)) ((m0, df0) :: rest)
    (fun p => p.Ok true ∧ p.has = true ∧ p.m.Represents p.df ∧
      (p.m.colWidths = none ∨ p.m.colWidths = some p.across) ∧ (p.m.rowLens = none ∨ p.m.rowLens = some p.along)) (by
      intro e he
      obtain ⟨p, h1, h2, h3, h4, h5, h6⟩ := piece_of_represents (h e he) true
      refine ⟨p, Prod.ext h1 h2, h4, h3, ?_, ?_, ?_⟩
      · rw [h1, h2]; exact h e he
      · rw [h1]; simpa [MFrame.axisCache] using h5
      · rw [h1]; simpa [MFrame.axisCache] using h6)
  cases pl with
  | nil => cases hpl
  | cons p0 ps =>
    rw [List.map_cons] at hpl
    have h0 : (p0.m, p0.df) = (m0, df0) := (List.cons.inj hpl).1
    have hps : ps.map (fun p => (p.m, p.df)) = rest := (List.cons.inj hpl).2
    cases h0
    subst hps
    simp only [List.map_map] at hjr ⊢
    have hal : Alignable P true p0 ps := alignable_of hP hjr (by
      intro _ hf
      rcases hd hf with h1 | h1 | h1
      · exact Or.inl h1
      · exact Or.inr (Or.inl fun p hp => h1 _ (List.mem_map_of_mem (f := fun p : Piece L α => (p.m, p.df)) hp))
      · refine Or.inr (Or.inr ⟨(hok p0 (by simp)).2.1, fun p hp e => ?_⟩)
        have hpk := hok p (List.mem_cons_of_mem _ hp)
        have := h1 _ (List.mem_map_of_mem (f := fun p : Piece L α => (p.m, p.df)) hp) e
        refine ⟨hpk.2.1, ?_⟩
        rw [← hpk.1.lens hpk.2.1, ← (hok p0 (by simp)).1.lens (hok p0 (by simp)).2.1]
        exact this)
    obtain ⟨m, h1, h2⟩ := concatCols_spec P cfg hp hr hc nan known p0 ps hok hal
    refine ⟨m, alignedDfs P true nan p0 ps, h1, by simp [alignedDfs], ?_, h2, h2.toPandas nan⟩
    intro i e B he hB
    have he' : (p0 :: ps)[i]?.map (fun p => (p.m, p.df)) = some e := by
      rw [← List.getElem?_map]; exact he
    cases hp : (p0 :: ps)[i]? with
    | none => rw [hp] at he'; cases he'
    | some p =>
      rw [hp] at he'
      cases he'
      unfold alignedDfs at hB
      rw [List.getElem?_map, List.getElem?_zipIdx, hp] at hB
      simp only [Option.map_some, Nat.zero_add, Option.some.injEq] at hB
      obtain ⟨⟨I, hI, hI2⟩, _⟩ := hal (p, i) (by
        rw [List.mem_zipIdx_iff_getElem?]
        simpa using hp)
      exact ⟨I, hI2, by rw [← hB, hI, Option.getD_some]; rfl⟩

open C11Example in
example : (concatCols P cfg 0 (fun _ => true) ma [mb]).bind (·.toPandas 0) = some
    { index := [0, 1, 2, 5], columns := [7, 8, 8, 9],
      rows := [[1, 2, 10, 20], [3, 4, 0, 0], [5, 6, 0, 0], [0, 0, 30, 40]] } := by decide

open C11Example in
example : ∃ m, concatCols P cfg 0 (fun _ => true) ma [mb] = some m :=
  let ⟨m, _, h, _⟩ := C43_concat_columns P good cfg (by decide) (by decide) (by decide) 0 (fun _ => true) ma a
    [(mb, b)] (by
      intro x hx
      simp only [List.mem_cons, List.not_mem_nil, or_false] at hx
      rcases hx with rfl | rfl
      · exact a_ok
      · exact b_ok) (Or.inr (Or.inl (by decide))) (fun h => nomatch h)
  ⟨m, h⟩
