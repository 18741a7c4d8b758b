import Verif.Lemmas.Interchange
/-
C69: the dataframe interchange protocol, Modin to pandas.
-/

variable {ι κ α : Type}

/-- **C69 (partial).**  For every frame, however it is divided into blocks, whose columns hold numbers, dates, strings or categories, with
    distinct strings as column labels, and every admissible number of chunks: the frame that is read back through the interchange protocol
    is the frame – the same cells in the same order under the same labels, missing strings included.  Missing: missing values in columns of
    categories (`C69_missing_category`), the category -1 (`C69_minus_one`), empty row blocks and frames without rows (`C69_empty_band`), and
    labels still to be written to the blocks when the frame is divided anew (`C69_pending_labels`). -/
theorem C69_interchange_partial [DecidableEq ι] [DecidableEq κ] [DecidableEq α] (cfg : Cfg) (hp : 1 ≤ cfg.nPartitions) (hmr : 1 ≤ cfg.minRow)
    (hmc : 1 ≤ cfg.minCol) (known : Nat → Nat → Nat → Bool × Bool) (knownCol : Nat → κ → Nat → Nat → Bool × Bool) (u : Utf8 α)
    (isMinusOne : α → Bool) (nan : α) (isStr : κ → Bool) (kind : κ → ColKind α) (m : LFrame ι κ α) (df : Frame ι κ α) (h : m.Shows df)
    (hu : df.columns.Nodup) (hc : df.columns ≠ []) (hstr : ∀ c ∈ df.columns, isStr c = true)
    (hk : ∀ e ∈ df.named, (kind e.1).Holds u nan e.2 ∧ (∀ cats s, kind e.1 = .categorical cats s → ∀ v ∈ e.2, isMinusOne v = false))
    (n : Option Nat) (hn : ChunksOk m.getRowLens df.nrows n)
    (hd : n = none ∨ n = some m.getRowLens.length ∨ (m.defIndex = false ∧ m.defColumns = false)) :
    m.fromInterchange cfg known knownCol u isMinusOne nan isStr kind n = some df :=
  fromInterchange_spec cfg hp hmr hmc known knownCol u isMinusOne nan isStr kind h hu hc hstr hk hn hd

/-- **C69, names.**  A frame with a column label that is no string, or with repeated column labels, is refused: nothing is read under a
    name that stands for another column. -/
theorem C69_refused [DecidableEq ι] [DecidableEq κ] [DecidableEq α] (cfg : Cfg) (hp : 1 ≤ cfg.nPartitions) (hmr : 1 ≤ cfg.minRow)
    (hmc : 1 ≤ cfg.minCol) (known : Nat → Nat → Nat → Bool × Bool) (knownCol : Nat → κ → Nat → Nat → Bool × Bool) (u : Utf8 α)
    (isMinusOne : α → Bool) (nan : α) (isStr : κ → Bool) (kind : κ → ColKind α) (m : LFrame ι κ α) (df : Frame ι κ α) (h : m.Shows df)
    (n : Option Nat) (hn : ChunksOk m.getRowLens df.nrows n)
    (hd : n = none ∨ n = some m.getRowLens.length ∨ (m.defIndex = false ∧ m.defColumns = false))
    (hbad : ¬ df.columns.Nodup ∨ ∃ c ∈ df.columns, isStr c = false) :
    m.fromInterchange cfg known knownCol u isMinusOne nan isStr kind n = none := by
  cases hr : m.fromInterchange cfg known knownCol u isMinusOne nan isStr kind n with
  | none => rfl
  | some g =>
    obtain ⟨h1, h2⟩ := fromInterchange_names cfg hp hmr hmc known knownCol u isMinusOne nan isStr kind h hn hd hr
    rcases hbad with hb | ⟨c, hc, hb⟩
    · exact absurd h1 hb
    · rw [h2 c hc] at hb; cases hb

/-- **C69, chunks.**  `get_chunks(n)` gives `n` chunks (as many as there are row blocks if `n` is not given): consecutive pieces of the
    frame, none of them empty, whose rows add up to the frame. -/
theorem C69_chunks_partial [DecidableEq ι] [DecidableEq κ] (cfg : Cfg) (hp : 1 ≤ cfg.nPartitions) (hmr : 1 ≤ cfg.minRow) (hmc : 1 ≤ cfg.minCol)
    (known : Nat → Nat → Nat → Bool × Bool) (nan : α) (m : LFrame ι κ α) (df : Frame ι κ α) (h : m.Shows df) (n : Option Nat)
    (hn : ChunksOk m.getRowLens df.nrows n)
    (hd : n = none ∨ n = some m.getRowLens.length ∨ (m.defIndex = false ∧ m.defColumns = false)) :
    ∃ (cs : List (LFrame ι κ α)) (lens : List Nat), m.getChunks cfg known n = some cs ∧ lens.length = n.getD m.getRowLens.length ∧
      lens.sum = df.nrows ∧ 0 ∉ lens ∧
      cs.mapM (·.toPandas nan) = some ((List.range lens.length).map fun i => df.ilocRows (lens.take i).sum (lens.take (i + 1)).sum) := by
  obtain ⟨cs, h1, h2, h3, h4, h5, h6⟩ := getChunks_shows cfg hp hmr hmc known h hn hd
  refine ⟨cs, chunkSizes m.getRowLens df.nrows n, h1, ?_, h3, h4, ?_⟩
  · cases n with
    | none => rfl
    | some k =>
      unfold ChunksOk at hn
      unfold chunkSizes
      simp only [Option.getD_some]
      by_cases h7 : k = m.getRowLens.length
      · rw [if_pos h7, h7]
      · rw [if_neg h7]
        simp only [h7, ↓reduceIte] at hn
        exact chunkLengths_length hn.1
  · generalize chunkSizes m.getRowLens df.nrows n = lens at h2 h3 h4 h5 h6 ⊢
    have key : ∀ (l : List (LFrame ι κ α)) (fs : List (Frame ι κ α)), l.length = fs.length →
        (∀ (i : Nat) (c : LFrame ι κ α) (f : Frame ι κ α), l[i]? = some c → fs[i]? = some f → c.toPandas nan = some f) →
        l.mapM (·.toPandas nan) = some fs := by
      intro l
      induction l with
      | nil =>
        intro fs hl _
        have : fs = [] := by simpa using hl.symm
        subst this; rfl
      | cons c l ih =>
        intro fs hl hq
        cases fs with
        | nil => cases hl
        | cons f fs =>
          rw [List.mapM_cons, hq 0 c f rfl rfl, ih fs (by simpa using hl) (fun i c' f' hc' hf' => hq (i + 1) c' f' hc' hf')]
          rfl
    apply key
    · simp [h2]
    · intro i c f hc hf
      have hi : i < lens.length := by
        rw [← h2]
        exact (List.getElem?_eq_some_iff.1 hc).1
      have hb : (sliceBounds lens)[i]? = some (off lens i, off lens (i + 1)) := by
        have hi2 : i < (sliceBounds lens).length := by simpa [sliceBounds_length] using hi
        rw [List.getElem?_eq_getElem hi2]
        simp [sliceBounds_eq]
      rw [List.getElem?_map, List.getElem?_range hi, Option.map_some, Option.some.injEq] at hf
      rw [← hf]
      exact ((h6 i _ c hb hc).observed nan).1

namespace InterchangeEx

/-- a cell: a number, a string given by its bytes, a missing value -/
inductive C where
  | num (i : Int)
  | str (bytes : List Nat)
  | nan
deriving DecidableEq, Repr

def u : Utf8 C where
  enc | .str b => some b | _ => none
  dec b := some (.str b)
  dec_enc := by
    intro a b h
    cases a with
    | num => cases h
    | str c => simp only [Option.some.injEq] at h; rw [h]
    | nan => cases h

def isMinusOne : C → Bool := (· == .num (-1))

/-- strings, numbers and categories; the string in the second row is missing -/
def df : Frame Nat Nat C :=
  Frame.mk [10, 11, 12, 13, 14, 15] [1, 2, 3]
    [[.str [97, 98], .num 1, .str [120]], [.nan, .num 2, .str [121]], [.str [], .num 3, .str [120]],
     [.str [99], .num 4, .str [121]], [.str [100, 101, 102], .num (-1), .str [121]], [.str [97], .nan, .str [120]]]

def kind : Nat → ColKind C
  | 1 => .string
  | 2 => .primitive
  | _ => .categorical [.str [120], .str [121], .str [122]] true

def m0 : MFrame Nat Nat C := { parts := df.cut [4, 2] [2, 1], index := none, columns := none, rowLens := none, colWidths := none }

theorem m0_represents : m0.Represents df :=
  ⟨⟨by decide, by decide⟩, ⟨[4, 2], [2, 1], ⟨by simp, by simp, rfl, rfl⟩, rfl, Or.inl rfl, Or.inl rfl⟩, Or.inl rfl, Or.inl rfl⟩

def m : LFrame Nat Nat C := { m0 with defIndex := false, defColumns := false }

theorem m_shows : m.Shows df := represents_shows m0_represents

theorem holds : ∀ e ∈ df.named, (kind e.1).Holds u .nan e.2 ∧ (∀ cats s, kind e.1 = .categorical cats s → ∀ v ∈ e.2, isMinusOne v = false) := by
  intro e he
  have hn : df.named = [(1, [.str [97, 98], .nan, .str [], .str [99], .str [100, 101, 102], .str [97]]),
      (2, [.num 1, .num 2, .num 3, .num 4, .num (-1), .nan]), (3, [.str [120], .str [121], .str [120], .str [121], .str [121], .str [120]])] := by
    decide +kernel
  rw [hn] at he
  simp only [List.mem_cons, List.not_mem_nil, or_false] at he
  rcases he with rfl | rfl | rfl
  · exact ⟨by simp [kind, ColKind.Holds, u], fun _ _ h => by cases h⟩
  · exact ⟨trivial, fun _ _ h => by cases h⟩
  · exact ⟨by simp [kind, ColKind.Holds, u], fun _ _ _ => by simp [isMinusOne]⟩

/-- as it is divided, and in four chunks of 1, 1, 1 and 3 rows -/
example : m.fromInterchange ⟨4, 2, 2⟩ (fun _ _ _ => (true, true)) (fun _ _ _ _ => (false, true)) u isMinusOne .nan (fun _ => true) kind none = some df :=
  C69_interchange_partial ⟨4, 2, 2⟩ (by decide) (by decide) (by decide) _ _ u isMinusOne .nan _ kind m df m_shows (by decide) (by decide) (by simp) holds
    none (by unfold ChunksOk; decide) (Or.inl rfl)

example : m.fromInterchange ⟨4, 2, 2⟩ (fun _ _ _ => (true, true)) (fun _ _ _ _ => (false, true)) u isMinusOne .nan (fun _ => true) kind (some 4) = some df :=
  C69_interchange_partial ⟨4, 2, 2⟩ (by decide) (by decide) (by decide) _ _ u isMinusOne .nan _ kind m df m_shows (by decide) (by decide) (by simp) holds
    (some 4) (by unfold ChunksOk; decide) (Or.inr (Or.inr ⟨rfl, rfl⟩))

/-- refused: the label 2 is no string; the label 1 is repeated -/
example : m.fromInterchange ⟨4, 2, 2⟩ (fun _ _ _ => (true, true)) (fun _ _ _ _ => (false, true)) u isMinusOne .nan (· != 2) kind none = none :=
  C69_refused ⟨4, 2, 2⟩ (by decide) (by decide) (by decide) _ _ u isMinusOne .nan _ kind m df m_shows none (by unfold ChunksOk; decide)
    (Or.inl rfl) (Or.inr ⟨2, by decide, rfl⟩)

def dup : Frame Nat Nat C := Frame.mk [10, 11] [1, 1] [[.num 1, .num 2], [.num 3, .num 4]]

def dup0 : MFrame Nat Nat C := { parts := dup.cut [1, 1] [2], index := none, columns := none, rowLens := none, colWidths := none }

example : LFrame.fromInterchange (ι := Nat) ⟨4, 2, 2⟩ (fun _ _ _ => (true, true)) (fun _ _ _ _ => (false, true)) u isMinusOne .nan (fun _ => true)
    (fun _ => .primitive) none { dup0 with defIndex := false, defColumns := false } = none :=
  C69_refused ⟨4, 2, 2⟩ (by decide) (by decide) (by decide) _ _ u isMinusOne .nan _ _ _ dup
    (represents_shows ⟨⟨by decide, by decide⟩, ⟨[1, 1], [2], ⟨by simp, by simp, rfl, rfl⟩, rfl, Or.inl rfl, Or.inl rfl⟩, Or.inl rfl, Or.inl rfl⟩)
    none (by unfold ChunksOk; decide) (Or.inl rfl) (Or.inl (by decide))

def one (vals : List C) : Frame Nat Nat C := Frame.mk (List.range vals.length) [1] (vals.map fun v => [v])

def frameOf (vals : List C) (rl : List Nat) (defIndex : Bool) (index : Option (List Nat)) : LFrame Nat Nat C :=
  { parts := (one vals).cut rl [1], index := index, columns := none, rowLens := none, colWidths := none, defIndex := defIndex, defColumns := false }

def read (kind : ColKind C) (n : Option Nat) (m : LFrame Nat Nat C) : Option (Frame Nat Nat C) :=
  m.fromInterchange ⟨4, 2, 2⟩ (fun _ _ _ => (true, true)) (fun _ _ _ _ => (true, true)) u isMinusOne .nan (fun _ => true) (fun _ => kind) n

end InterchangeEx

open InterchangeEx

/-- **C69, missing categories.**  A missing value in a column of categories is read back as the last category: its code -1 is reduced modulo
    the number of categories, and the values, not the codes, are compared with the sentinel. -/
theorem C69_missing_category :
    let m := frameOf [.str [120], .nan, .str [121]] [2, 1] false none
    m.toPandas .nan = some (one [.str [120], .nan, .str [121]]) ∧
    read (.categorical [.str [120], .str [121]] true) none m = some (one [.str [120], .str [121], .str [121]]) := by decide +kernel

/-- **C69, the category -1.**  It is taken for the sentinel and read back as a missing value. -/
theorem C69_minus_one :
    let m := frameOf [.num (-1), .num 3, .num 3] [2, 1] false none
    m.toPandas .nan = some (one [.num (-1), .num 3, .num 3]) ∧
    read (.categorical [.num (-1), .num 3] false) none m = some (one [.nan, .num 3, .num 3]) := by decide +kernel

/-- **C69, objects that are not strings.**  Every column of dtype `object` is taken for a column of strings; anything else in it is
    read back as a missing value. -/
theorem C69_mixed_objects :
    let m := frameOf [.str [120], .num 3, .str [121]] [2, 1] false none
    m.toPandas .nan = some (one [.str [120], .num 3, .str [121]]) ∧
    read .string none m = some (one [.str [120], .nan, .str [121]]) := by decide +kernel

/-- **C69, an empty row block** makes a chunk without blocks, which has no cells to put together (an error from NumPy). -/
theorem C69_empty_band :
    let m : LFrame Nat Nat C := { frameOf [.num 1, .num 2, .num 3] [2, 0, 1] false none with columns := some [1] }
    m.toPandas .nan = some (one [.num 1, .num 2, .num 3]) ∧ read .primitive none m = none := by decide +kernel

/-- **C69, labels still to be written.**  A frame that is divided anew forgets that its row labels are not yet in the blocks; a column of
    categories, which is fetched with its labels, then fails the check for inner and outer labels (an internal error). -/
theorem C69_pending_labels :
    let m := frameOf [.num 2, .num 3, .num 3] [3] true (some [5, 6, 7])
    m.toPandas .nan = some { one [.num 2, .num 3, .num 3] with index := [5, 6, 7] } ∧
    read (.categorical [.num 2, .num 3] false) none m = some { one [.num 2, .num 3, .num 3] with index := [5, 6, 7] } ∧
    read (.categorical [.num 2, .num 3] false) (some 3) m = none ∧
    read .primitive (some 3) m = some { one [.num 2, .num 3, .num 3] with index := [5, 6, 7] } := by decide +kernel
