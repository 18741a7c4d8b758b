import Verif.Model.MapPlans
import Verif.Pandas.Take
import Verif.Pandas.Sort
/-
Positional selection (`df.iloc[rows, cols]`).
Models modin/core/dataframe/pandas/dataframe/dataframe.py (`_get_dict_of_block_index`,
`_take_2d_positional`, `_maybe_reorder_labels`, `_reorder_labels`),
modin/core/dataframe/pandas/partitioning/partition.py (`mask`) and
modin/pandas/indexing.py (`_compute_lookup`).
-/

variable {ι κ α : Type}

/-- What is taken from one block along one axis: `slice(None)`, `slice(i, j)` (`j = None` is
    "to the end"), or a list of internal positions
    (the values of the dictionaries of
    modin/core/dataframe/pandas/dataframe/dataframe.py:1830-1985). -/
inductive BlockSel where
  | full
  | slice (i : Nat) (j : Option Nat)
  | list (js : List Nat)
deriving DecidableEq, Repr

/-- The positions inside a block of length `len` that a selector picks
    (Python `range(*slice.indices(len))`, or the list itself). -/
def BlockSel.positions (len : Nat) : BlockSel → List Nat
  | .full => List.range len
  | .slice i j => pySlice (List.range len) i (j.getD len)
  | .list js => js

/-- modin/core/dataframe/pandas/dataframe/dataframe.py:1942 `bins[:-1].cumsum()`; the appended
    `INT_MAX` edge is above every position and is left out. -/
def innerEdges (lens : List Nat) : List Nat := (cumsumFrom 0 lens.dropLast).drop 1

/-- `np.digitize(x, cumulative)` (increasing bins, `right=False`): the number of edges `≤ x`
    (modin/core/dataframe/pandas/dataframe/dataframe.py:1954). -/
def digitize (edges : List Nat) (x : Nat) : Nat := (edges.filter (fun e => decide (e ≤ x))).length

/-- modin/core/dataframe/pandas/dataframe/dataframe.py:1944-1952 `internal`. -/
def internalPos (edges : List Nat) (block x : Nat) : Nat :=
  if block = 0 then x else x - edges.getD (block - 1) 0

/-- modin/core/dataframe/pandas/dataframe/dataframe.py:1911-1985, the list part of
    `_get_dict_of_block_index`, for non-negative sorted positions.  The first block is handled
    by the same rule as the others with lower bound 0 (the code special-cases it because there
    is no `count[-1]`).  Order of the list is the insertion order of the dictionary. -/
def blockDict (lens : List Nat) (ps : List Nat) : List (Nat × BlockSel) :=
  if ps.isEmpty then [(0, .list [])]
  else
    let edges := innerEdges lens
    let ids := ps.map (digitize edges)
    let counts := (List.range (edges.length + 1)).map fun i => ids.count i
    (sliceBounds counts).zipIdx.filterMap fun e =>
      if e.1.1 < e.1.2 then
        some (e.2, .list ((pySlice ps e.1.1 e.1.2).map (internalPos edges e.2)))
      else none

/-- `list(self._get_dict_of_block_index(axis, [x]).items())[0]`: block number and internal
    position of one position
    (modin/core/dataframe/pandas/dataframe/dataframe.py:1873-1876 and the like). -/
def blockOf (lens : List Nat) (x : Nat) : Option (Nat × Nat) :=
  match blockDict lens [x] with
  | (b, .list (i :: _)) :: _ => some (b, i)
  | _ => none

/-- modin/core/dataframe/pandas/dataframe/dataframe.py:1854-1910, the slice part of
    `_get_dict_of_block_index` (step 1).  `n` is the length of the axis, `np` the number of
    blocks along it. -/
def blockSlices (lens : List Nat) (n np start stop : Nat) : Option (List (Nat × BlockSel)) :=
  if start = 0 && decide (stop ≥ n) then some ((List.range np).map fun i => (i, .full))
  else if start = stop then some []
  else if start = 0 then do
    let l ← blockOf lens stop
    return (List.range l.1).map (fun i => (i, .full)) ++ [(l.1, .slice 0 (some l.2))]
  else if stop ≥ n then do
    let f ← blockOf lens start
    return (f.1, .slice f.2 none)
      :: (List.range' (f.1 + 1) (np - (f.1 + 1))).map (fun i => (i, .full))
  else do
    let f ← blockOf lens start
    let l ← blockOf lens stop
    if f.1 = l.1 then return [(f.1, .slice f.2 (some l.2))]
    else
      return (f.1, .slice f.2 none)
        :: (List.range' (f.1 + 1) (l.1 - (f.1 + 1))).map (fun i => (i, .full))
        ++ [(l.1, .slice 0 (some l.2))]

/-- An indexer along one axis as `_take_2d_positional` receives it: a step-1 range, or an array
    of non-negative positions.  (Ranges with another step are handled there exactly like the
    array of their elements; a range of step ≠ 1 that is empty is not modelled.) -/
inductive Positions where
  | range (start stop : Nat)
  | array (ps : List Nat)
deriving DecidableEq, Repr

/-- the positions an indexer stands for -/
def Positions.toList : Positions → List Nat
  | .range a b => List.range' a (b - a)
  | .array ps => ps

/-- `np.all(p[1:] >= p[:-1])`
    (modin/core/dataframe/pandas/dataframe/dataframe.py:1250-1255). -/
def nondecreasing : List Nat → Bool
  | a :: b :: rest => decide (a ≤ b) && nondecreasing (b :: rest)
  | _ => true

/-- modin/core/dataframe/pandas/partitioning/partition.py:241-253 `is_full_axis_mask`;
    `len = none` when the block's cached length is not an integer. -/
def isFullMask (sel : BlockSel) (len : Option Nat) : Bool :=
  match sel, len with
  | .full, _ => true
  | .slice i j, some n => ((BlockSel.slice i j).positions n).length == n
  | .list js, some n => js.length == n
  | _, none => false

/-- modin/core/dataframe/pandas/partitioning/partition.py:224-274 `mask`, with the deferred
    `iloc` applied at once (deferring is transparent: C06).  `kl`/`kw` say whether the block's
    length and width caches hold integers; when they do the integers are right. -/
def maskBlock (kl kw : Bool) (rs cs : BlockSel) (b : Frame ι κ α) : Frame ι κ α :=
  if isFullMask rs (if kl then some b.nrows else none)
      && isFullMask cs (if kw then some b.ncols else none) then b
  else (b.takeRows (rs.positions b.nrows)).takeCols (cs.positions b.ncols)

/-- modin/core/dataframe/pandas/dataframe/dataframe.py:1328-1338: the new grid.
    A block number outside the grid raises. -/
def maskGrid (known : Nat → Nat → Bool × Bool) (rd cd : List (Nat × BlockSel))
    (g : Grid ι κ α) : Option (Grid ι κ α) :=
  rd.mapM fun r => cd.mapM fun c => do
    let row ← g[r.1]?
    let b ← row[c.1]?
    return maskBlock (known r.1 c.1).1 (known r.1 c.1).2 r.2 c.2 b

/-- modin/core/dataframe/pandas/dataframe/dataframe.py:1132-1162 `_get_new_lengths`. -/
def newLengths (lens : List Nat) (d : List (Nat × BlockSel)) : Option (List Nat) :=
  d.mapM fun e => match e.2 with
    | .list js => some js.length
    | s => (lens[e.1]?).map fun n => (s.positions n).length

/-- modin/core/dataframe/pandas/dataframe/dataframe.py:245-300 `row_lengths` /
    `_get_lengths`: the cache, or the lengths of the blocks of the first block column. -/
def MFrame.getRowLens (m : MFrame ι κ α) : List Nat :=
  m.rowLens.getD (m.parts.filterMap fun row => row.head?.map (·.nrows))

/-- `column_widths`: the cache, or the widths of the blocks of the first block row. -/
def MFrame.getColWidths (m : MFrame ι κ α) : List Nat :=
  m.colWidths.getD ((m.parts.head?.getD []).map (·.ncols))

/-- `index[positions]` with an array of positions: raises (`none`) if one is out of bounds
    (modin/core/dataframe/pandas/dataframe/dataframe.py:1196 and 1616). -/
def checkedTake {τ : Type} (l : List τ) (ps : List Nat) : Option (List τ) :=
  if ps.all (· < l.length) then some (takeList l ps) else none

/-- modin/core/dataframe/pandas/dataframe/dataframe.py:1619-1631 / 1660-1673: the lengths
    recorded after reordering one axis: the standard division if the length changed, the
    previous cache otherwise. -/
def reorderedLens (newLen oldLen numSplits minBlock : Nat) (cache : Option (List Nat)) :
    Option (Option (List Nat)) :=
  if newLen ≠ oldLen then (getLengthList newLen numSplits minBlock).map some else some cache

/-- modin/core/dataframe/pandas/dataframe/dataframe.py:1606-1635: the row half of
    `_reorder_labels` (new grid, labels, row lengths).  Out-of-bounds positions raise where
    the labels are taken. -/
def reorderRowsStep [DecidableEq ι] [DecidableEq κ] (cfg : Cfg) (m : MFrame ι κ α)
    (rp : Option (List Nat)) : Option (Grid ι κ α × Option (List ι) × Option (List Nat)) :=
  match rp with
  | some ps =>
    (mapAxisPartitions cfg true (fun b => some (b.takeRows ps)) m.parts true none none).bind
      fun g => (checkedTake m.getIndex ps).bind fun idx =>
        (reorderedLens idx.length m.getIndex.length g.length cfg.minRow m.rowLens).map
          fun rl => (g, some idx, rl)
  | none => some (m.parts, m.index, m.rowLens)

/-- modin/core/dataframe/pandas/dataframe/dataframe.py:1636-1677: the column half. -/
def reorderColsStep [DecidableEq ι] [DecidableEq κ] (cfg : Cfg) (m : MFrame ι κ α)
    (g : Grid ι κ α) (cp : Option (List Nat)) :
    Option (Grid ι κ α × Option (List κ) × Option (List Nat)) :=
  match cp with
  | some ps =>
    (mapAxisPartitions cfg false (fun b => some (b.takeCols ps)) g true none none).bind
      fun g => (checkedTake m.getColumns ps).bind fun cols =>
        (reorderedLens cols.length m.getColumns.length (gridWidth g) cfg.minCol m.colWidths).map
          fun cw => (g, some cols, cw)
  | none => some (g, m.columns, m.colWidths)

/-- modin/core/dataframe/pandas/dataframe/dataframe.py:1589-1683 `_reorder_labels`.
    dtypes are not modelled. -/
def reorderLabels [DecidableEq ι] [DecidableEq κ] (cfg : Cfg) (m : MFrame ι κ α)
    (rp cp : Option (List Nat)) : Option (MFrame ι κ α) :=
  (reorderRowsStep cfg m rp).bind fun r =>
    (reorderColsStep cfg m r.1 cp).bind fun c =>
      MFrame.mk' { parts := c.1, index := r.2.1, columns := c.2.1, rowLens := r.2.2,
                   colWidths := c.2.2 }

/-- modin/core/dataframe/pandas/dataframe/dataframe.py:1221-1229: a full step-1 range counts as
    "no selection". -/
def normPositions (n : Nat) : Option Positions → Option Positions
  | some (.range a b) => if b - a = n then none else some (.range a b)
  | p => p

/-- modin/core/dataframe/pandas/dataframe/dataframe.py:1113-1130 `_get_sorted_positions` and
    1295-1298: the indexer after sorting. -/
def sortedPositions : Positions → Positions
  | .range a b => .range a b
  | .array ps => .array (if nondecreasing ps then ps else npSort ps)

/-- `_get_dict_of_block_index(axis, sorted, are_indices_sorted=True)`. -/
def blockIndex (lens : List Nat) (n np : Nat) : Positions → Option (List (Nat × BlockSel))
  | .range a b => blockSlices lens n np a b
  | .array ps => some (blockDict lens ps)

/-- modin/core/dataframe/pandas/dataframe/dataframe.py:1164-1197 `_get_new_index_obj`. -/
def newLabels {τ : Type} (labels : List τ) : Positions → Option (List τ)
  | .range a b => some (pySlice labels a b)
  | .array ps => checkedTake labels ps

/-- "positions are already in order" in `_maybe_reorder_labels`
    (modin/core/dataframe/pandas/dataframe/dataframe.py:1404-1417). -/
def inOrder : Option Positions → Bool
  | none => true
  | some (.range _ _) => true
  | some (.array ps) => ps.length == 1 || nondecreasing ps

/-- modin/core/dataframe/pandas/dataframe/dataframe.py:1430-1445: the order passed to
    `_reorder_labels`. -/
def unsortOrder : Option Positions → Option (List Nat)
  | some (.array ps) => some (npArgsort (npArgsort ps))
  | _ => none

/-- modin/core/dataframe/pandas/dataframe/dataframe.py:1257-1290: skip the masking step and
    reorder directly.  0.9 and 0.2 are read as exact fractions. -/
def jumpToReorder (allRows ncols : Nat) (ps : List Nat) : Bool :=
  (decide (allRows > 0) && decide (10 * ps.length > 9 * allRows))
  || (!nondecreasing ps
      && decide (100 * ps.length ≥ min (2 * allRows * ncols) (100 * ps.length)))

/-- modin/core/dataframe/pandas/dataframe/dataframe.py:1291-1345: the row part of the masking
    step: dictionary, new lengths, new labels. -/
def maskAxisPlan {τ : Type} (lens : List Nat) (lensCache : Option (List Nat)) (labels : List τ)
    (labelCache : Option (List τ)) (np : Nat) (p : Option Positions) :
    Option (List (Nat × BlockSel) × Option (List Nat) × Option (List τ)) :=
  match p with
  | some p => do
    let d ← blockIndex lens labels.length np (sortedPositions p)
    let nl ← newLengths lens d
    let lab ← newLabels labels (sortedPositions p)
    return (d, some nl, some lab)
  | none => some ((List.range np).map fun i => (i, .full), lensCache, labelCache)

/-- modin/core/dataframe/pandas/dataframe/dataframe.py:1314-1318: the sum check on the new column
    widths. -/
def widthsOk (cp : Option Positions) (cw : Option (List Nat)) (cols : Option (List κ)) : Bool :=
  match cp, cw, cols with
  | some _, some w, some c => w.sum == c.length
  | _, _, _ => true

/-- modin/core/dataframe/pandas/dataframe/dataframe.py:1291-1345: select by masking, without the
    final reordering.  The sum check on the new column widths (1314-1318) is modelled; dtypes
    are not.  `known` says which length/width caches of the blocks hold integers. -/
def takeByMask (known : Nat → Nat → Bool × Bool) (m : MFrame ι κ α)
    (rp cp : Option Positions) : Option (MFrame ι κ α) := do
  let (rd, rl, idx) ← maskAxisPlan m.getRowLens m.rowLens m.getIndex m.index m.parts.length rp
  let (cd, cw, cols) ←
    maskAxisPlan m.getColWidths m.colWidths m.getColumns m.columns (gridWidth m.parts) cp
  if !widthsOk cp cw cols then none
  else do
    let g ← maskGrid known rd cd m.parts
    MFrame.mk' { parts := g, index := idx, columns := cols, rowLens := rl, colWidths := cw }

/-- modin/core/dataframe/pandas/dataframe/dataframe.py:1253-1290: whether the request goes straight
    to `_reorder_labels` (only without column positions). -/
def jumps (n w : Nat) : Option Positions → Option Positions → Bool
  | some r, none => jumpToReorder n w r.toList
  | _, _ => false

/-- modin/core/dataframe/pandas/dataframe/dataframe.py:1291-1380: mask with the sorted positions,
    then restore the requested order if something had to be sorted. -/
def maskThenReorder [DecidableEq ι] [DecidableEq κ] (cfg : Cfg) (known : Nat → Nat → Bool × Bool)
    (m : MFrame ι κ α) (rp cp : Option Positions) : Option (MFrame ι κ α) :=
  (takeByMask known m rp cp).bind fun im =>
    if inOrder rp && inOrder cp then some im
    else reorderLabels cfg im (unsortOrder rp) (unsortOrder cp)

/-- modin/core/dataframe/pandas/dataframe/dataframe.py:1199-1380 `_take_2d_positional`.
    The index is taken as materialised when deciding about the jump to `_reorder_labels`
    (otherwise the code may skip the first test; both outcomes are covered because the two
    paths are proved to agree). -/
def take2d [DecidableEq ι] [DecidableEq κ] (cfg : Cfg) (known : Nat → Nat → Bool × Bool)
    (m : MFrame ι κ α) (rows cols : Option Positions) : Option (MFrame ι κ α) :=
  let rp := normPositions m.getIndex.length rows
  let cp := normPositions m.getColumns.length cols
  if rp = none ∧ cp = none then some m
  else if jumps m.getIndex.length m.getColumns.length rp cp then
    reorderLabels cfg m (rp.map (·.toList)) none
  else maskThenReorder cfg known m rp cp

/-! ### The `iloc` layer -/

/-- An `iloc` key along one axis after parsing: `:`, a slice with step 1, integers, or a
    boolean mask. -/
inductive Loc where
  | all
  | slice (start stop : Option Int)
  | ints (ps : List Int)
  | bools (bs : List Bool)
deriving DecidableEq, Repr

/-- Python `slice(start, stop).indices(n)` (step 1): missing bounds are the ends, negative ones
    count from the end, everything is clipped to `[0, n]`. -/
def sliceIndices (n : Nat) (start stop : Option Int) : Nat × Nat :=
  let clip (d : Nat) : Option Int → Nat
    | none => d
    | some x => if x < 0 then (x + n).toNat else min x.toNat n
  (clip 0 start, clip n stop)

/-- modin/pandas/indexing.py:1171-1236 `_compute_lookup`, one axis.  Scalars are one-element
    arrays; for negative integers `RangeIndex(n)[axis_loc]` normalises them and raises when
    out of bounds; without negative integers no bound is checked here. -/
def computeLookup (n : Nat) : Loc → Option (Option Positions)
  | .all => some none
  | .slice a b => some (some (.range (sliceIndices n a b).1 (sliceIndices n a b).2))
  | .bools bs => some (some (.array (bs.zipIdx.filterMap fun e => if e.1 then some e.2 else none)))
  | .ints ps =>
    if ps.any (· < 0) then
      (ps.mapM fun (p : Int) =>
        if 0 ≤ p ∧ p < (n : Int) then some p.toNat
        else if p < 0 ∧ 0 ≤ p + (n : Int) then some (p + n).toNat
        else none).map fun l => some (.array l)
    else some (some (.array (ps.map Int.toNat)))

/-- `df.iloc[r, c]` (the two-dimensional result; squeezing to a Series or a scalar is not
    modelled): modin/pandas/indexing.py:1080-1110 `_iLocIndexer.__getitem__`. -/
def ilocGet [DecidableEq ι] [DecidableEq κ] (cfg : Cfg) (known : Nat → Nat → Bool × Bool)
    (m : MFrame ι κ α) (r c : Loc) : Option (MFrame ι κ α) := do
  let rp ← computeLookup m.getIndex.length r
  let cp ← computeLookup m.getColumns.length c
  take2d cfg known m rp cp
