import Verif.Model.Grid
/-
Applying functions to partitions.
Models modin/core/dataframe/pandas/partitioning/partition_manager.py (`base_map_partitions`,
`map_partitions`, `lazy_map_partitions`, `map_axis_partitions`, `broadcast_axis_partitions`
without a right operand, `map_partitions_joined_by_column`) and
modin/core/dataframe/pandas/partitioning/axis_partition.py (`apply`, `deploy_axis_func`).
Functions that may raise return `Option` (`none` = an exception was raised).
-/

variable {ι κ α ι' κ' β : Type}

/-- `partitions.shape[1]` of a rectangular grid with at least one row. -/
def gridWidth {τ : Type} (g : List (List τ)) : Nat := (g.head?.map (·.length)).getD 0

/-- `partitions.T` / the block columns (`column_partitions`,
    modin/core/dataframe/pandas/partitioning/partition_manager.py:216-243). -/
def colBlocks {τ : Type} (g : List (List τ)) : List (List τ) :=
  (List.range (gridWidth g)).map fun j => g.filterMap (·[j]?)

/-- `pandas.concat(list(partitions), axis=axis, copy=False)`
    (modin/core/dataframe/pandas/partitioning/axis_partition.py:447). -/
def axisConcat [DecidableEq ι] [DecidableEq κ] (axis0 : Bool) (parts : List (Frame ι κ α)) :
    Option (Frame ι κ α) :=
  if axis0 then Frame.vcat parts else Frame.hcat parts

/-- modin/core/dataframe/pandas/partitioning/axis_partition.py:396-499 `deploy_axis_func`.
    The retry on "assignment destination is read-only" is not modelled. -/
def deployAxisFunc [DecidableEq ι] [DecidableEq κ] (axis0 : Bool)
    (func : Frame ι κ α → Option (Frame ι' κ' β)) (numSplits : Nat) (maintain : Bool)
    (parts : List (Frame ι κ α)) (minBlock : Nat) (lengths : Option (List Nat))
    (manual : Bool) : Option (List (Frame ι' κ' β)) := do
  let dataframe ← axisConcat axis0 parts
  let result ← func dataframe
  let lengths :=
    if numSplits = 1 then none
    else if manual then lengths
    else if numSplits ≠ parts.length || !maintain then none
    else if axis0 then
      let l := parts.map (·.nrows)
      if l.sum ≠ result.nrows then none else some l
    else
      let l := parts.map (·.ncols)
      if l.sum ≠ result.ncols then none else some l
  splitResult axis0 numSplits result minBlock lengths

/-- modin/core/dataframe/pandas/partitioning/partition_manager.py:567-588: `if lengths:`,
    an empty list counts as no lengths. -/
def truthyLengths : Option (List Nat) → Option (List Nat)
  | some (x :: xs) => some (x :: xs)
  | _ => none

/-- modin/core/dataframe/pandas/partitioning/partition_manager.py:562-577: how many pieces an
    axis partition's result is split into. -/
def axisNumSplits (cfg : Cfg) (keep : Bool) (numSplits : Option Nat)
    (lengths : Option (List Nat)) (nBlocks : Nat) : Nat :=
  if keep && numSplits.isNone then nBlocks
  else match lengths with
    | some l => l.length
    | none => match numSplits with
      | some n => n
      | none => cfg.nPartitions

/-- modin/core/dataframe/pandas/partitioning/partition_manager.py:498-611
    `broadcast_axis_partitions` with `right=None` (that is, `map_axis_partitions`, 818-879).
    Passing both `keep_partitioning` and `lengths` is reported as a bug (`none`);
    an empty `lengths` list is falsy and ignored.  `apply_indices`, extra arguments and
    partition numbering are not modelled here. -/
def mapAxisPartitions [DecidableEq ι] [DecidableEq κ] (cfg : Cfg) (axis0 : Bool)
    (func : Frame ι κ α → Option (Frame ι' κ' β)) (g : Grid ι κ α) (keep : Bool)
    (numSplits : Option Nat) (lengths : Option (List Nat)) : Option (Grid ι' κ' β) :=
  if keep && lengths.isSome then none
  else
    let k := axisNumSplits cfg keep numSplits (truthyLengths lengths)
      (if axis0 then g.length else gridWidth g)
    let lengths := truthyLengths lengths
    do
      let blocks ← (if axis0 then colBlocks g else g).mapM fun parts =>
        deployAxisFunc axis0 func k keep parts (if axis0 then cfg.minRow else cfg.minCol)
          lengths lengths.isSome
      return if axis0 then colBlocks blocks else blocks

/-- modin/core/dataframe/pandas/partitioning/partition_manager.py:613-653 `base_map_partitions`
    (`lazy_map_partitions`, 773-815, applies the same function to the same blocks when the
    queue is drained: see `Verif/Model/CallQueue.lean`). -/
def baseMapPartitions (func : Frame ι κ α → Option (Frame ι' κ' β)) (g : Grid ι κ α) :
    Option (Grid ι' κ' β) :=
  g.mapM fun row => row.mapM func

/-- modin/core/dataframe/pandas/partitioning/partition_manager.py:882-940
    `map_partitions_joined_by_column`; `column_splits < 1` raises. -/
def mapJoinedByColumn [DecidableEq ι] [DecidableEq κ] (cfg : Cfg)
    (func : Frame ι κ α → Option (Frame ι' κ' β)) (g : Grid ι κ α) (columnSplits : Nat) :
    Option (Grid ι' κ' β) :=
  if columnSplits < 1 then none
  else do
    let step := max (g.length / columnSplits) 1
    let groups ← (pyRangeStep g.length step).mapM fun i => do
      let subset := pySlice g i (i + step)
      let cols ← (colBlocks subset).mapM fun parts =>
        deployAxisFunc true func subset.length true parts cfg.minRow none false
      return colBlocks cols
    return groups.flatten

/-- modin/core/dataframe/pandas/partitioning/partition_manager.py:708-770 `map_partitions`:
    the choice of plan.  `dyn` is `DynamicPartitioning`, `cpu` is `CpuCount`.
    An empty second dimension makes `CpuCount // shape[1]` raise. -/
def mapPartitions [DecidableEq ι] [DecidableEq κ] (cfg : Cfg) (dyn : Bool) (cpu : Nat)
    (func : Frame ι κ α → Option (Frame ι' κ' β)) (g : Grid ι κ α) : Option (Grid ι' κ' β) :=
  if !dyn then baseMapPartitions func g
  else
    let shape0 := g.length
    let shape1 := gridWidth g
    let axis0 := !decide (((shape0 : Int) - cpu).natAbs < ((shape1 : Int) - cpu).natAbs)
    if shape1 = 0 then none
    else
      let columnSplits := cpu / shape1
      if axis0 && decide (columnSplits > 1) then mapJoinedByColumn cfg func g columnSplits
      else mapAxisPartitions cfg axis0 func g true none none
