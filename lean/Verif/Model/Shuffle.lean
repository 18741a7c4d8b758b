import Verif.Pandas.SortValues
import Verif.Model.MapPlans
import Verif.Model.Rebalance
/-
Range partitioning and the distributed sort.
Models modin/core/dataframe/pandas/dataframe/utils.py (`ShuffleSortFunctions`),
modin/core/dataframe/pandas/partitioning/partition_manager.py (`shuffle_partitions`) and
modin/core/dataframe/pandas/dataframe/dataframe.py (`_apply_func_to_range_partitioning`,
`combine_and_apply`, `sort_by`).
Not modelled: index levels as keys, `ShuffleResample`, dtypes and index names, the pandas exceptions for
incomparable values.
-/

variable {ι κ α Q ι' κ' β : Type}

/-- numpy's order of floats: NaN (`none`) is above everything. -/
def npLe (le : Q → Q → Bool) : Option Q → Option Q → Bool
  | _, none => true
  | none, some _ => false
  | some a, some b => le a b

/-- `np.searchsorted(a, x, side)` for a sorted `a`: how many entries are `≤ x` (`side="right"`) or
    `< x` (`side="left"`). -/
def searchsorted (le : Q → Q → Bool) (right : Bool) (a : List (Option Q)) (x : Option Q) : Nat :=
  (a.filter fun p => if right then npLe le p x else !npLe le x p).length

/-- `np.digitize(x, bins, right)`: increasing bins are searched; decreasing bins are reversed, searched, and
    the result is counted from the other end.  (Bins that are neither raise; the callers pass
    increasing or decreasing bins only.) -/
def npDigitize (le : Q → Q → Bool) (right : Bool) (bins : List (Option Q)) (x : Option Q) : Nat :=
  if (bins.zip (bins.drop 1)).all (fun p => npLe le p.1 p.2) then searchsorted le (!right) bins x
  else bins.length - searchsorted le (!right) bins.reverse x

/-- `len(np.unique(a)) == 1` -/
def allEqual (le : Q → Q → Bool) : List (Option Q) → Bool
  | [] => false
  | p :: ps => ps.all fun q => npLe le p q && npLe le q p

/-- A key column with its pivots (modin/core/dataframe/pandas/dataframe/utils.py:34-46 `ColumnInfo`).
    The column is given by its position; `isna` says which cells count as missing, `conv` is the value a
    cell is compared by, that is the cell after the user's `key` function. -/
structure KeyCol (α Q : Type) where
  pos : Nat
  isna : α → Bool
  conv : α → Option Q
  numeric : Bool
  pivots : List (Option Q)

/-- Whether a row's cell in the column is missing. -/
def KeyCol.missing (c : KeyCol α Q) (r : ι × List α) : Bool := r.2[c.pos]?.any c.isna

/-- modin/core/dataframe/pandas/dataframe/utils.py:401-442, one column: the number of the range a value
    belongs to. -/
def KeyCol.code (le : Q → Q → Bool) (asc closedRight : Bool) (c : KeyCol α Q) (r : ι × List α) : Nat :=
  if c.numeric then
    let ps := if asc then c.pivots else c.pivots.reverse
    let g := npDigitize le closedRight ps (sortKey c.conv c.pos r)
    if !asc && allEqual le ps then ps.length - g else g
  else
    let g := searchsorted le (!closedRight) c.pivots (sortKey c.conv c.pos r)
    if asc then g else c.pivots.length - g

/-- `pandas.MultiIndex.from_product(group_keys)` -/
def codesProduct : List Nat → List (List Nat)
  | [] => [[]]
  | n :: ns => (List.range n).flatMap fun i => (codesProduct ns).map (i :: ·)

/-- put `xs` at the end of the last (first) list -/
def addTo (last : Bool) (xs : List β) (gs : List (List β)) : List (List β) :=
  if last then gs.dropLast ++ (gs.getLast?.map (· ++ xs)).toList
  else (gs.head?.map (· ++ xs)).toList ++ gs.drop 1

/-- modin/core/dataframe/pandas/dataframe/utils.py:335-475 `split_partitions_using_pivots_for_sort` on
    the labelled rows of one row partition.  `none`: with several key columns and exactly one row without
    missing keys, `key != groupby_codes[0]` (line 462) compares a tuple with an array and its truth
    value is ambiguous.  (`kwargs.pop("key")` hands the key function to the first column only; only one
    column is used when there is one.) -/
def splitRecords (le : Q → Q → Bool) (asc naLast closedRight : Bool) (cols : List (KeyCol α Q))
    (rows : List (ι × List α)) : Option (List (List (ι × List α))) :=
  let active := cols.filter fun c => !c.pivots.isEmpty
  if active.isEmpty then some [rows]
  else
    let na := rows.filter fun r => cols.any fun c => c.missing r
    let ok := rows.filter fun r => !(cols.any fun c => c.missing r)
    if ok.length = 1 ∧ 1 < active.length then none
    else
      some (addTo naLast na ((codesProduct (active.map fun c => c.pivots.length + 1)).map fun k =>
        ok.filter fun r => active.map (fun c => c.code le asc closedRight r) == k))

/-- `split_fn` on a row partition -/
def splitFrame (le : Q → Q → Bool) (asc naLast closedRight : Bool) (cols : List (KeyCol α Q))
    (f : Frame ι κ α) : Option (List (Frame ι κ α)) :=
  (splitRecords le asc naLast closedRight cols f.records).map (·.map (Frame.ofRecords f.columns))

/-- modin/core/dataframe/pandas/dataframe/utils.py:288-332
    `pick_pivots_from_samples_for_sort`: `draw` stands for the quantiles of whatever was sampled;
    no quantiles are asked for when one range is wanted. -/
def pickPivots (draw : Nat → List (Option Q)) (num : Nat) : List (Option Q) :=
  if num ≤ 1 then [] else draw num

/-- modin/core/dataframe/pandas/dataframe/utils.py:163-192 `pivot_fn`: a column after the first gets
    pivots only while fewer ranges than wanted have been made. `draws`: one draw per key column. -/
def pivotFn (ideal : Nat) : List (KeyCol α Q × (Nat → List (Option Q))) → Nat → Bool → List (KeyCol α Q)
  | [], _, _ => []
  | (c, draw) :: rest, groups, first =>
    if ideal / groups < 2 && !first then []
    else
      let pivots := pickPivots draw (ideal / groups)
      { c with pivots := pivots } :: pivotFn ideal rest (groups * (pivots.length + 1)) false

/-- the number of ranges -/
def numBins (cols : List (KeyCol α Q)) : Nat :=
  (cols.map fun c => c.pivots.length + 1).foldl (· * ·) 1

/-- modin/core/dataframe/pandas/partitioning/partition_manager.py:1937-2052 `shuffle_partitions` without
    `right_partitions`: split every row partition, stack the pieces that belong to the same range, apply
    `func`.  With a single range, `func` is applied to the row partitions one by one. -/
def shufflePartitions [DecidableEq ι] [DecidableEq κ]
    (le : Q → Q → Bool) (asc naLast closedRight : Bool) (cols : List (KeyCol α Q))
    (func : Frame ι κ α → Option (Frame ι' κ' β)) (g : Grid ι κ α) : Option (Grid ι' κ' β) :=
  (g.mapM Frame.hcat).bind fun rowParts =>
  if numBins cols > 1 then
    (rowParts.mapM (splitFrame le asc naLast closedRight cols)).bind fun splits =>
    (colBlocks splits).mapM fun pieces => (Frame.vcat pieces).bind fun b => (func b).map fun r => [r]
  else rowParts.mapM fun b => (func b).map fun r => [r]

/-- Python's `round(a / b)`: to the nearest integer, halves to the even one. -/
def pyRoundDiv (a b : Nat) : Nat :=
  if 2 * (a % b) < b then a / b
  else if 2 * (a % b) > b then a / b + 1
  else if a / b % 2 = 0 then a / b else a / b + 1

/-- modin/core/dataframe/pandas/dataframe/dataframe.py:2667-2690: neighbouring row partitions are joined
    when fewer are wanted than there are. -/
def joinRows [DecidableEq κ] (g : Grid ι κ α) (ideal : Nat) : Option (Grid ι κ α) :=
  if ideal < g.length then
    let step := if g.length % ideal = 0 then g.length / ideal else pyRoundDiv g.length ideal
    (pyRangeStep g.length step).mapM fun i => mergeRows (pySlice g i (i + step))
  else some g

/-- modin/core/dataframe/pandas/dataframe/dataframe.py:2518-2562 `combine_and_apply`: one column of full
    row partitions, then the function on all of it. -/
def combineAndApply [DecidableEq ι] [DecidableEq κ] (cfg : Cfg)
    (func : Frame ι κ α → Option (Frame ι' κ' β)) (m : MFrame ι κ α) : Option (MFrame ι' κ' β) :=
  ((if gridWidth m.parts > 1 then
      (m.parts.mapM Frame.hcat).bind fun rows =>
        MFrame.mk' { parts := rows.map fun r => [r], index := m.index, columns := m.columns,
                     rowLens := m.rowLens, colWidths := m.columns.map fun c => [c.length] }
    else some m).bind fun m =>
  (mapAxisPartitions cfg true func m.parts true none none).bind fun parts =>
  MFrame.mk' { parts := parts, index := none, columns := none, rowLens := none, colWidths := none })

/-- What the range partitioning is asked to do. -/
structure RangeReq (α Q : Type) where
  le : Q → Q → Bool
  asc : Bool
  naLast : Bool
  closedRight : Bool
  cols : List (KeyCol α Q × (Nat → List (Option Q)))

/-- how many ranges are wanted, modin/core/dataframe/pandas/dataframe/dataframe.py:2645-2664.
    `over`: the sampling probability is at least 1 (a comparison of floats). -/
def idealPartitions (cfg : Cfg) (over : Bool) (nparts nrows : Nat) : Nat :=
  if over then pyRoundDiv nrows cfg.minRow else min nparts cfg.nPartitions

/-- modin/core/dataframe/pandas/dataframe/dataframe.py:2565-2740 `_apply_func_to_range_partitioning`
    without `data`, with `preserve_columns=True` when `keepCols` is given. -/
def applyRangePartitioning [DecidableEq ι] [DecidableEq κ] (cfg : Cfg) (over : Bool) (rq : RangeReq α Q)
    (func : Frame ι κ α → Option (Frame ι' κ' β)) (preserve : Option (κ → κ')) (m : MFrame ι κ α) :
    Option (MFrame ι' κ' β) :=
  let keptCols := preserve.bind fun f => m.columns.map (·.map f)
  if m.parts.length = 1 then
    (mapAxisPartitions cfg false func m.parts true none none).bind fun parts =>
    let widths := if m.colWidths.any (fun w => !w.contains 0 && m.columns.any (·.length == w.sum))
      then preserve.bind fun _ => m.colWidths else none
    (MFrame.mk' { parts := parts, index := none, columns := keptCols, rowLens := none,
                  colWidths := widths }).map fun r =>
      if preserve.isSome then { r with colWidths := m.colWidths } else r
  else
    let n := m.getIndex.length
    let ideal := idealPartitions cfg over m.parts.length n
    if over && (decide (n < cfg.minRow) || decide (ideal < 2)) then combineAndApply cfg func m
    else
      (if over then joinRows m.parts ideal else some m.parts).bind fun g =>
      (shufflePartitions rq.le rq.asc rq.naLast rq.closedRight (pivotFn ideal rq.cols 1 true) func g).bind
        fun parts =>
      (MFrame.mk' { parts := parts, index := none, columns := none, rowLens := none,
                    colWidths := none }).map fun r =>
        if preserve.isSome then
          { r with columns := keptCols,
                   colWidths := if m.columns.isSome then m.columns.map fun c => [c.length] else r.colWidths }
        else r

/-- modin/core/dataframe/pandas/dataframe/dataframe.py:2742-2813 `sort_by` (rows, without `ignore_index`):
    ranges are built on the first of the columns sorted by, every range is sorted by all of them.
    `draw`: the pivots the sampling leads to. -/
def sortByValues [DecidableEq ι] [DecidableEq κ] (cfg : Cfg) (over : Bool) (le : Q → Q → Bool)
    (isna : α → Bool) (key : α → Option Q) (numeric naLast : Bool) (draw : Nat → List (Option Q))
    (by_ : List (Nat × Bool)) (m : MFrame ι κ α) : Option (MFrame ι κ α) :=
  match by_ with
  | [] => none
  | (pos, asc) :: _ =>
    if m.getColumns.length = 0 ∨ m.getIndex.length = 0 then some m
    else
      applyRangePartitioning cfg over
        { le := le, asc := asc, naLast := naLast, closedRight := false,
          cols := [({ pos := pos, isna := isna, conv := key, numeric := numeric, pivots := [] }, draw)] }
        (fun f => some (f.sortValues le key naLast by_)) (some id) m
