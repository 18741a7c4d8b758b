import Verif.Model.Labels
/-
Handing out the partitions of a frame and building a frame from partitions.
Models modin/distributed/dataframe/pandas/partitions.py (`unwrap_partitions`, `from_partitions`).
References to remote objects are modelled by the objects; the addresses of the nodes (`get_ip`) are not modelled here
(see `Verif/Model/XGBoost.lean`).
-/

variable {ι κ α : Type}

/-- the `axis` argument of `unwrap_partitions` -/
inductive PartAxis
  | none
  | rows
  | cols
deriving DecidableEq, Repr

/-- A list of partitions together with the `axis` argument of `from_partitions` that goes with it: rows of blocks
    (`axis=None`), row partitions (`axis=0`), column partitions (`axis=1`). -/
inductive Parts (ι κ α : Type)
  | blocks (g : Grid ι κ α)
  | rows (l : List (Frame ι κ α))
  | cols (l : List (Frame ι κ α))
deriving DecidableEq, Repr

/-- modin/distributed/dataframe/pandas/partitions.py:58-151 `unwrap_partitions`: the labels are written into the blocks
    (line 94), then the blocks are handed out as they are, or each row (column) of blocks put together into one frame
    (`force_materialization`, modin/core/dataframe/base/partitioning/axis_partition.py). -/
def LFrame.unwrapPartitions [DecidableEq ι] [DecidableEq κ] (m : LFrame ι κ α) (axis : PartAxis) : Option (Parts ι κ α) :=
  (m.propagate true true).bind fun m1 =>
  match axis with
  | .none => some (.blocks m1.parts)
  | .rows => (m1.parts.mapM (axisConcat false)).map .rows
  | .cols => ((colBlocks m1.parts).mapM (axisConcat true)).map .cols

/-- modin/distributed/dataframe/pandas/partitions.py:207-246: the two-dimensional array of partitions -/
def Parts.grid : Parts ι κ α → Grid ι κ α
  | .blocks g => g
  | .rows l => l.map ([·])
  | .cols l => [l]

/-- modin/distributed/dataframe/pandas/partitions.py:154-275 `from_partitions`: labels and sizes that are not given are read off the
    partitions (`get_indices`); labels that are given are to be written into the blocks (`synchronize_labels`: both axes if both are
    given, lines 251-273). -/
def fromPartitions (p : Parts ι κ α) (index : Option (List ι)) (columns : Option (List κ)) (rowLens colWidths : Option (List Nat)) :
    Option (LFrame ι κ α) :=
  (MFrame.mk' ⟨p.grid, some (index.getD (gridIndex p.grid)), some (columns.getD (gridColumns p.grid)),
      if index.isNone && rowLens.isNone then some (p.grid.filterMap fun row => row.head?.map (·.nrows)) else rowLens,
      if columns.isNone && colWidths.isNone then some ((p.grid.head?.getD []).map (·.ncols)) else colWidths⟩).map fun r =>
    { r with defIndex := index.isSome, defColumns := columns.isSome }
