import Verif.Pandas.Pairing

/-!
# Labels that are known lazily, and the identity shortcuts on them

`ModinIndex` (modin/core/dataframe/pandas/metadata/index.py) holds the row labels of a
frame, computed on demand, with two identifiers: frames whose labels carry the same
`_index_id` are taken to have the same labels, frames whose labels carry the same
`_lengths_id` are taken to be cut at the same rows.  `_check_if_axes_identical`
(modin/core/dataframe/pandas/dataframe/dataframe.py 3678–3707) uses both to decide
whether the blocks of two frames may be paired one by one.

Simplifications, for the whole file: only the row axis; one column stands for all;
the column widths are taken to be cached (if they are not, `_filter_empties` does
nothing); blocks carry their labels (deferred labels are C14–C16); an object of labels
belongs to one frame (`maybe_specify_new_frame_ref` lets several frames share an object
that holds known labels, which then only become known for all of them at once).
-/

/-- What `ModinIndex._value` holds (modin/core/dataframe/pandas/metadata/index.py:48–65): labels, a callable given by the
reader whose answer is labels and lengths fixed when it was made (modin/core/io/text/text_file_dispatcher.py:855–888, 942), or the default callable, which asks the blocks of the frame
(modin/core/dataframe/pandas/metadata/index.py:94–111). -/
inductive LVal where
  | known (labels : List Int)
  | pending (labels : List Int) (lens : List Nat)
  | own
  deriving DecidableEq, Repr

/-- `ModinIndex` (modin/core/dataframe/pandas/metadata/index.py:47–70): `_value`, `_lengths_cache`, `_index_id`, `_lengths_id`. -/
structure LCache where
  val : LVal
  lens : Option (List Nat)
  iid : Nat
  lid : Nat
  deriving DecidableEq, Repr

/-- A frame along its rows (modin/core/dataframe/pandas/dataframe/dataframe.py:160–190): the blocks, the labels object and
`_row_lengths_cache`. -/
structure IFrame where
  blocks : List LRows
  cache : LCache
  lensC : Option (List Nat)
  deriving DecidableEq, Repr

/-- `ModinIndex.get` (modin/core/dataframe/pandas/metadata/index.py:177–207); the blocks are those of the frame that a default
callable refers to (`_compute_axis_labels_and_lengths`, modin/core/dataframe/pandas/dataframe/dataframe.py:841–863). -/
def LCache.get (c : LCache) (blocks : List LRows) : LCache :=
  match c.val with
  | .known _ => c
  | .pending l n => { c with val := .known l, lens := some n }
  | .own => { c with val := .known (LRows.labels blocks.flatten), lens := some (blocks.map (·.length)) }

/-- The labels of an object on which `get` has been called. -/
def LCache.labels (c : LCache) : List Int :=
  match c.val with
  | .known l => l
  | _ => []

/-- `callable(self._value)`. -/
def LCache.callable (c : LCache) : Bool :=
  match c.val with
  | .known _ => false
  | _ => true

/-- `ModinIndex.copy` (modin/core/dataframe/pandas/metadata/index.py:349–371): the labels identifier always, the lengths and
their identifier on request; `fresh` is the new `uuid4()`. -/
def LCache.copy (c : LCache) (copyLens : Bool) (fresh : Nat) : LCache :=
  if copyLens then c else { c with lens := none, lid := fresh }

/-- `_filter_empties(compute_metadata=False)` (modin/core/dataframe/pandas/dataframe/dataframe.py:865–914): drops the blocks
without rows if the lengths are known, and then gives the labels object a new lengths
identifier. -/
def IFrame.filterEmpties (f : IFrame) (fresh : Nat) : IFrame :=
  match f.lensC with
  | none => f
  | some ls =>
    if (f.cache.val = .known []) ∨ ls.sum = 0 then f
    else
      let new := ls.filter (· != 0)
      { blocks := ((f.blocks.zip ls).filter (fun p => p.2 != 0)).map (·.1)
        cache := if new = ls then f.cache else f.cache.copy false fresh
        lensC := some new }

/-- `row_lengths` (modin/core/dataframe/pandas/dataframe/dataframe.py:240–256): the cached lengths, or the lengths of the
blocks, which are then kept. -/
def IFrame.rowLengths (f : IFrame) : IFrame :=
  { f with lensC := some (f.lensC.getD (f.blocks.map (·.length))) }

/-- `_get_index` (modin/core/dataframe/pandas/dataframe/dataframe.py:722–738): labels and lengths become known. -/
def IFrame.getIndex (f : IFrame) : IFrame :=
  let c := f.cache.get f.blocks
  { f with cache := c, lensC := match f.lensC with
                                | some l => some l
                                | none => c.lens }

/-- `len(df)` (modin/core/dataframe/pandas/dataframe/dataframe.py:277–289): from the labels if they are known, otherwise from
the lengths of the blocks. -/
def IFrame.len (f : IFrame) : IFrame :=
  if f.cache.callable then f.rowLengths else f.getIndex

/-- The number that `len(df)` returns (modin/core/dataframe/pandas/dataframe/dataframe.py:285–289). -/
def IFrame.lenValue (f : IFrame) : Nat :=
  if f.cache.callable then (f.rowLengths.lensC.getD []).sum else f.cache.labels.length

/-- The rows a frame shows: its blocks one after the other (`to_pandas`,
modin/core/dataframe/pandas/dataframe/dataframe.py:4692–4722, along the rows). -/
def IFrame.rows (f : IFrame) : LRows := f.blocks.flatten

/-- `ModinIndex.equals` (modin/core/dataframe/pandas/metadata/index.py:209–229). -/
def IFrame.equalsLabels (a b : IFrame) : Bool × IFrame × IFrame :=
  if a.cache.iid = b.cache.iid then (true, a, b)
  else
    let ca := a.cache.get a.blocks
    let cb := b.cache.get b.blocks
    (decide (ca.labels = cb.labels), { a with cache := ca }, { b with cache := cb })

/-- `ModinIndex.compare_partition_lengths_if_possible` (modin/core/dataframe/pandas/metadata/index.py:231–262). -/
def IFrame.compareLens (a b : IFrame) : Option Bool × IFrame × IFrame :=
  if a.cache.lid = b.cache.lid then (some true, a, b)
  else if (a.cache.lens.isSome || a.cache.callable) && (b.cache.lens.isSome || b.cache.callable) then
    let ca := a.cache.get a.blocks
    let cb := b.cache.get b.blocks
    (some (decide (ca.lens = cb.lens)), { a with cache := ca }, { b with cache := cb })
  else (none, a, b)

/-- `_check_if_axes_identical` (modin/core/dataframe/pandas/dataframe/dataframe.py:3678–3707); both frames always have a labels
object (`set_index_cache`, 517–531).  The frames are returned with what has become known. -/
def IFrame.identical (a b : IFrame) : Bool × IFrame × IFrame :=
  match IFrame.equalsLabels a b with
  | (false, a1, b1) => (false, a1, b1)
  | (true, a1, b1) =>
    match IFrame.compareLens a1 b1 with
    | (some r, a2, b2) => (r, a2, b2)
    | (none, a2, b2) =>
      (decide (a2.rowLengths.lensC = b2.rowLengths.lensC), a2.rowLengths, b2.rowLengths)

/-- `split_pandas_df_into_partitions` of a full axis with the given lengths
(`map_axis_partitions(lengths=…)`, modin/core/dataframe/pandas/dataframe/dataframe.py:3829–3838). -/
def splitLens : List Nat → LRows → List LRows
  | [], _ => []
  | n :: ns, r => r.take n :: splitLens ns (r.drop n)

/-- `n_ary_operation` (modin/core/dataframe/pandas/partitioning/partition_manager.py:1725–1790): block by block, by position; a
block of the left operand without a partner is an `IndexError`. -/
def pairBlocks (op : Option Int → Option Int → Option Int) : List LRows → List LRows → Option (List LRows)
  | [], _ => some []
  | _ :: _, [] => none
  | x :: xs, y :: ys => (pairBlocks op xs ys).map (LRows.align op x y :: ·)

/-- What is left to say about a frame's labels when it is made of another frame: the
constructor (modin/core/dataframe/pandas/dataframe/dataframe.py:163–189), which drops blocks without rows at once. -/
def IFrame.build (blocks : List LRows) (cache : LCache) (lensC : Option (List Nat)) (fresh : Nat) : IFrame :=
  IFrame.filterEmpties ⟨blocks, cache, lensC⟩ fresh

/-- A binary operation of two frames along the rows (`n_ary_op`, modin/core/dataframe/pandas/dataframe/dataframe.py:3885–3949,
and `_copartition`, 3709–3857): the result and the two operands as they are afterwards.
`none` in the first place: an `IndexError`.  The branch in which the labels differ joins
them (C13, C43) and is not modelled here: it gives `some none`.
`fresh`, `fresh + 1`, `fresh + 2` are new identifiers. -/
def IFrame.binary (op : Option Int → Option Int → Option Int) (a b : IFrame) (fresh : Nat) :
    Option (Option IFrame) × IFrame × IFrame :=
  match IFrame.identical b a with
  | (true, b1, a1) =>
    ((pairBlocks op a1.blocks b1.blocks).map fun bs =>
      some (IFrame.build bs (a1.cache.copy true fresh) a1.lensC fresh), a1, b1)
  | (false, b1, a1) =>
    let a2 := a1.getIndex.rowLengths
    let b2 := b1.getIndex.rowLengths
    if a2.cache.labels = b2.cache.labels then
      let ls := a2.lensC.getD []
      let right := if b2.lensC = a2.lensC then b2.blocks else splitLens ls b2.blocks.flatten
      ((pairBlocks op a2.blocks right).map fun bs =>
        some (IFrame.build bs ⟨.known a2.cache.labels, none, fresh, fresh + 1⟩ (some ls) (fresh + 2)),
        a2, b2)
    else (some none, a2, b2)

/-- The frames of a program and the next unused identifier. -/
structure IdWorld where
  frames : List IFrame
  next : Nat

/-- Blocks with labels replaced (`set_axis` on every block, modin/core/dataframe/pandas/dataframe/dataframe.py:983–1008). -/
def relabelBlocks : List Int → List LRows → List LRows
  | _, [] => []
  | l, b :: bs => b.zipWith (fun p x => (x, p.2)) (l.take b.length) :: relabelBlocks (l.drop b.length) bs

/-- One step, for the steps of `IdOp` (Pandas/Pairing).
`read`: a reader that leaves the labels to be collected later
(modin/core/io/text/text_file_dispatcher.py:940–947).  `fresh`: a frame whose labels are known and
belong to nobody else.  `lazy`: the result of an operation that says nothing about labels
(`set_index_cache(None)`, modin/core/dataframe/pandas/dataframe/dataframe.py:525–526).  `derive`: an operation cell by cell that keeps
the labels, with the lengths (`map`, 2253–2319) or without (`broadcast_apply`, 3305–3332).
`relabel`: `_set_index` (762–774), with the labels put on the blocks at the next operation
(934–1008); labels of another number are refused.  `len`: 277–289.  `index`: 722–738.
  Steps that name a frame which does not exist, give labels of the wrong
number, or raise, change nothing. -/
def IdWorld.step (w : IdWorld) : IdOp → IdWorld
  | .read bs =>
    ⟨w.frames ++ [IFrame.build bs
        ⟨.pending (LRows.labels bs.flatten) (bs.map (·.length)), none, w.next, w.next + 1⟩ none (w.next + 2)],
      w.next + 3⟩
  | .fresh bs =>
    ⟨w.frames ++ [IFrame.build bs ⟨.known (LRows.labels bs.flatten), none, w.next, w.next + 1⟩
        (some (bs.map (·.length))) (w.next + 2)], w.next + 3⟩
  | .lazy bs =>
    ⟨w.frames ++ [IFrame.build bs ⟨.own, none, w.next, w.next + 1⟩ none (w.next + 2)], w.next + 3⟩
  | .derive i f keep =>
    match w.frames[i]? with
    | none => w
    | some x =>
      ⟨w.frames ++ [IFrame.build (x.blocks.map fun b => b.map fun p => (p.1, f p.2))
          (x.cache.copy keep w.next) x.lensC (w.next + 1)], w.next + 2⟩
  | .relabel i labels =>
    match w.frames[i]? with
    | none => w
    | some x =>
      if x.blocks.flatten.length = labels.length then
        ⟨w.frames.set i (IFrame.build (relabelBlocks labels x.blocks)
            ⟨.known labels, none, w.next, w.next + 1⟩ x.lensC (w.next + 2)).rowLengths, w.next + 3⟩
      else w
  | .len i =>
    match w.frames[i]? with
    | none => w
    | some x => ⟨w.frames.set i x.len, w.next⟩
  | .index i =>
    match w.frames[i]? with
    | none => w
    | some x => ⟨w.frames.set i x.getIndex, w.next⟩
  | .binary op i j =>
    match w.frames[i]?, w.frames[j]? with
    | some x, some y =>
      match IFrame.binary op x y w.next with
      | (some (some r), x1, y1) => ⟨(w.frames.set i x1).set j y1 ++ [r], w.next + 3⟩
      | (_, x1, y1) => ⟨(w.frames.set i x1).set j y1, w.next + 3⟩
    | _, _ => w

/-- A program. -/
def IdWorld.run (w : IdWorld) (ops : List IdOp) : IdWorld := ops.foldl IdWorld.step w
