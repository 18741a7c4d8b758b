import Verif.Model.MapPlans
/-
Rebalancing row partitions.
Models modin/core/dataframe/pandas/partitioning/partition_manager.py `rebalance_partitions`.
-/

variable {ι κ α : Type}

/-- A row of partitions with the length recorded for it
    (modin/core/dataframe/pandas/partitioning/partition_manager.py:1842-1843, 1883:
    `partition._length_cache` / `partitions[i][0].length()`). -/
structure RowPart (ι κ α : Type) where
  len : Nat
  blocks : List (Frame ι κ α)
deriving DecidableEq, Repr

/-- `cls.column_partitions(partitions[start : stop + 1], full_axis=False)`: one virtual partition
    per block column (modin/core/dataframe/pandas/partitioning/partition_manager.py:1853-1856,
    1927-1929).  A virtual partition is the concatenation of its blocks. -/
def mergeRows [DecidableEq κ] (rows : List (List (Frame ι κ α))) : Option (List (Frame ι κ α)) :=
  (colBlocks rows).mapM Frame.vcat

/-- The inner loop, modin/core/dataframe/pandas/partitioning/partition_manager.py:1882-1889.
    `acc`: rows `start .. stop-1`; `cur`: row `stop`; `rest`: the rows after it.
    `none` as third component: `stop` has run past the last row. -/
def grow (ideal : Nat) : List (RowPart ι κ α) → Nat → RowPart ι κ α → List (RowPart ι κ α) →
    List (RowPart ι κ α) × Nat × Option (RowPart ι κ α) × List (RowPart ι κ α)
  | acc, size, cur, [] =>
    if size < ideal then (acc ++ [cur], size, none, []) else (acc, size, some cur, [])
  | acc, size, cur, x :: xs =>
    if size < ideal then grow ideal (acc ++ [cur]) (size + x.len) x xs
    else (acc, size, some cur, x :: xs)

/-- Lines 1895-1919: split row `stop` when the group is more than 1.5 times too large
    (`size > ideal * 1.5` over the integers).  `mask` is `iloc` on every block of the row, and
    the recorded lengths of the two halves are set explicitly. -/
def takeGroup (ideal : Nat) (cur : RowPart ι κ α) (rest : List (RowPart ι κ α)) :
    List (RowPart ι κ α) × List (RowPart ι κ α) :=
  match grow ideal [] cur.len cur rest with
  | (before, _, none, rest) => (before, rest)
  | (before, size, some last, rest) =>
    if 2 * size > 3 * ideal then
      let prev := (before.map (·.len)).sum
      let k := ideal - prev
      (before ++ [⟨k, last.blocks.map fun b => b.ilocRows 0 k⟩],
       ⟨size - (prev + k), last.blocks.map fun b => b.ilocRows k b.nrows⟩ :: rest)
    else (before ++ [last], rest)

/-- The outer loop, lines 1876-1930: at most `ideal_num_new_partitions` groups. -/
def rebalanceLoop (ideal : Nat) : Nat → List (RowPart ι κ α) → List (List (RowPart ι κ α))
  | 0, _ => []
  | _ + 1, [] => []
  | n + 1, cur :: rest =>
    (takeGroup ideal cur rest).1 :: rebalanceLoop ideal n (takeGroup ideal cur rest).2

/-- modin/core/dataframe/pandas/partitioning/partition_manager.py:1803-1933
    `rebalance_partitions` (Ray and Dask; the other engines return the grid unchanged).
    `known`: every block has a recorded length. -/
def rebalance [DecidableEq κ] (np : Nat) (known : Bool) (g : Grid ι κ α) :
    Option (Grid ι κ α × Option (List Nat)) :=
  if 2 * g.length ≤ 3 * np then some (g, none)
  else if !known then
    (computeChunksize g.length np 1).bind fun c =>
      ((pyRangeStep g.length c).mapM fun i => mergeRows (pySlice g i (i + c))).map fun g' => (g', none)
  else
    let rows := g.map fun row => (⟨(row.head?.map (·.nrows)).getD 0, row⟩ : RowPart ι κ α)
    (computeChunksize (rows.map (·.len)).sum np 1).bind fun ideal =>
      let groups := rebalanceLoop ideal np rows
      (groups.mapM fun grp => mergeRows (grp.map (·.blocks))).map fun g' =>
        (g', some (groups.map fun grp => (grp.map (·.len)).sum))
