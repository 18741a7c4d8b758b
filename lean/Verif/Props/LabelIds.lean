import Verif.Lemmas.LabelIds

/-!
# C74: frames made from one another can be combined whatever has been asked of them in between

A program makes frames, derives frames from frames, sets labels, asks for lengths and
labels, and combines frames; `plainRun` (Pandas/Pairing) is the same program in pandas.
The library pairs the blocks of two frames without looking at their labels when
identifiers say that labels and lengths are the same.
-/

open IFrame

/-- the program that has done nothing yet -/
def IdWorld.start : IdWorld := ⟨[], 0⟩

theorem IdWorld.start_ok : IdWorld.start.Ok :=
  ⟨fun _ h => (List.not_mem_nil h).elim, fun _ h => (List.not_mem_nil h).elim, fun _ h => (List.not_mem_nil h).elim⟩

/-- **C74** Every frame of every program has the rows it has in pandas: in an operation of two
frames every row meets the row with its label, however the two frames were made, and
whichever of their labels and lengths were known at the time.
Partial: no chunk of a file that was read is without rows (see `C74_empty_chunk`). -/
theorem C74_programs_partial (ops : List IdOp) (h : ∀ op ∈ ops, op.FullChunks) :
    (IdWorld.start.run ops).frames.map IFrame.rows = plainRun ops :=
  (IdWorld.run_spec ops h IdWorld.start IdWorld.start_ok).2

/-- **C74** Whatever a program has done, `df.index` and `len(df)` are the labels and the number of
the rows that pandas has.  Partial as above. -/
theorem C74_index_and_len_partial (ops : List IdOp) (h : ∀ op ∈ ops, op.FullChunks) (i : Nat) (f : IFrame)
    (hf : (IdWorld.start.run ops).frames[i]? = some f) :
    ∃ r, (plainRun ops)[i]? = some r ∧ f.getIndex.cache.labels = LRows.labels r ∧ f.lenValue = r.length := by
  obtain ⟨hok, hrows⟩ := IdWorld.run_spec ops h IdWorld.start IdWorld.start_ok
  have hs := hok.sound f (List.mem_of_getElem? hf)
  refine ⟨f.rows, ?_, getIndex_labels hs, ?_⟩
  · have : ((IdWorld.start.run ops).frames.map IFrame.rows)[i]? = some f.rows := by
      rw [List.getElem?_map, hf]; rfl
    rw [hrows] at this
    exact this
  · unfold IFrame.lenValue
    split
    · rw [rowLengths_lensC hs, Option.getD_some, IFrame.cuts, IFrame.rows, List.length_flatten]
    · rename_i hc
      have : f.cache.labels = LRows.labels f.rows := by
        obtain ⟨blocks, ⟨val, lens, iid, lid⟩, lensC⟩ := f
        cases val with
        | known l => exact hs.known l rfl
        | pending l n => exact absurd rfl hc
        | own => exact absurd rfl hc
      rw [this, LRows.labels, List.length_map]

/-- **C74** The test whether two frames may be combined block by block answers yes exactly if they have
the same labels and are cut at the same rows, in every state a program can reach.  Partial
as above. -/
theorem C74_same_cuts_partial (ops : List IdOp) (h : ∀ op ∈ ops, op.FullChunks) (f g : IFrame)
    (hf : f ∈ (IdWorld.start.run ops).frames) (hg : g ∈ (IdWorld.start.run ops).frames) :
    (IFrame.identical f g).1 = true
      ↔ LRows.labels f.blocks.flatten = LRows.labels g.blocks.flatten
        ∧ f.blocks.map (·.length) = g.blocks.map (·.length) := by
  obtain ⟨hok, _⟩ := IdWorld.run_spec ops h IdWorld.start IdWorld.start_ok
  exact (identical_spec (hok.sound f hf) (hok.sound g hg) (hok.agree f hf g hg)).verdict

/-! ### the hypotheses are met -/

/-- `x + y` on cells -/
def addCells (a b : Option Int) : Option Int := a.bind fun x => b.map fun y => x + y

/-- a file in two chunks, a frame with an empty piece, derived frames, new labels, sums -/
def idProgram : List IdOp :=
  [.read [[(1, some 10), (2, some 20)], [(3, some 30)]],
   .len 0,
   .derive 0 (fun x => x.map (· * 2)) true,
   .derive 0 (fun x => x.map (· + 1)) false,
   .binary addCells 1 2,
   .fresh [[(1, some 5)], [], [(2, some 6), (3, none)]],
   .index 3,
   .binary addCells 3 4,
   .relabel 4 [7, 8, 9],
   .lazy [[(7, some 1), (8, some 1), (9, some 1)]],
   .binary addCells 4 6,
   .binary addCells 4 0]

example : ∀ op ∈ idProgram, op.FullChunks := by
  intro op h
  simp only [idProgram, List.mem_cons, List.not_mem_nil, or_false] at h
  rcases h with rfl | rfl | rfl | rfl | rfl | rfl | rfl | rfl | rfl | rfl | rfl | rfl <;>
    first | trivial | (intro b hb; simp at hb; rcases hb with rfl | rfl <;> simp)

example : (IdWorld.start.run idProgram).frames.map IFrame.rows =
    [[(1, some 10), (2, some 20), (3, some 30)], [(1, some 20), (2, some 40), (3, some 60)],
     [(1, some 11), (2, some 21), (3, some 31)], [(1, some 31), (2, some 61), (3, some 91)],
     [(7, some 5), (8, some 6), (9, none)], [(1, some 36), (2, some 67), (3, none)],
     [(7, some 1), (8, some 1), (9, some 1)], [(7, some 6), (8, some 7), (9, none)]] := by decide +kernel

/-! ### a chunk without rows -/

/-- a file that is read with its labels in a column, in three chunks; the second holds only
comments or blank lines -/
def emptyChunk : List LRows :=
  [[(1, some 10), (2, some 20), (3, some 30)], [], [(4, some 40), (5, some 50)]]

/-- `df = read_csv(…, index_col=0); len(df); x = df.abs(); y = x + df` -/
def emptyChunkProgram (i j : Nat) : List IdOp :=
  [.read emptyChunk, .len 0, .derive 0 (fun x => x.map fun v => if v < 0 then -v else v) true, .binary addCells i j]

/-- **C74** The property fails when a chunk of the file has no rows: the derived frame drops the empty block
and with it the lengths identifier, but the callable it has inherited still reports the
lengths of the file, so the blocks are paired one by one: rows 4 and 5 of the sum are
missing values (pandas: 80 and 100). -/
theorem C74_empty_chunk :
    (IdWorld.start.run (emptyChunkProgram 1 0)).frames[2]?.map IFrame.rows
        = some [(1, some 20), (2, some 40), (3, some 60), (4, none), (5, none)]
      ∧ (plainRun (emptyChunkProgram 1 0))[2]?
        = some [(1, some 20), (2, some 40), (3, some 60), (4, some 80), (5, some 100)] := by decide +kernel

/-- **C74** With the operands in the other order the same program raises an `IndexError`. -/
theorem C74_empty_chunk_raises :
    ((IdWorld.start.run (emptyChunkProgram 0 1)).frames[0]?.bind fun f =>
      (IdWorld.start.run (emptyChunkProgram 0 1)).frames[1]?.map fun g => (IFrame.binary addCells f g 100).1) = some none
      ∧ (IdWorld.start.run (emptyChunkProgram 0 1)).frames.length = 2
      ∧ (plainRun (emptyChunkProgram 0 1))[2]?
        = some [(1, some 20), (2, some 40), (3, some 60), (4, some 80), (5, some 100)] := by decide +kernel

/-- **C74** Asking for the labels first avoids it: they are then known when the block is dropped. -/
theorem C74_empty_chunk_labels_first :
    (IdWorld.start.run [.read emptyChunk, .index 0, .derive 0 (fun x => x) true, .binary addCells 1 0]).frames[2]?.map
        IFrame.rows
      = some [(1, some 20), (2, some 40), (3, some 60), (4, some 80), (5, some 100)] := by decide +kernel
