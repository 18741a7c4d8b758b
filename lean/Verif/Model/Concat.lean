import Verif.Pandas.Align
import Verif.Model.Rebalance
import Verif.Model.Select
/-
Aligning frames (`_copartition`), cell-by-cell operations on several frames (`n_ary_op`) and
concatenation (`concat`).
Models modin/core/dataframe/pandas/dataframe/dataframe.py (`_join_index_objects`,
`_check_if_axes_identical`, `_copartition`, `n_ary_op`, `concat`) and
modin/core/dataframe/pandas/partitioning/partition_manager.py (`concat`, `n_ary_operation`).
Row and column labels have the same type `L` here, so that one definition serves both axes.
-/

variable {L α : Type}

/-- What pandas decides when two `Index` objects are joined under a given `how` and `sort`
    (modin/core/dataframe/pandas/dataframe/dataframe.py:2021-2026 and 2048-2050).
    `first`: `how is None`.  `merge`: `left.join(right, how=how, sort=sort)`, or `union`;
    `join2`: `left.join(right, ..., return_indexers=True)`. -/
structure JoinOps (L : Type) where
  first : Bool
  merge : List L → List L → List L
  join2 : List L → List L → List L × List (Option Nat) × List (Option Nat)

/-- `index.get_indexer_for(J)` for an index with repeated labels: every position of every label,
    so the answer may be longer than `J`. -/
def getIndexerFor [DecidableEq L] (labels J : List L) : List (Option Nat) :=
  J.flatMap fun x =>
    let ps := (List.range labels.length).filter fun p => labels[p]? == some x
    if ps.isEmpty then [none] else ps.map some

/-- `df.reindex(J, axis=axis)`: pandas returns a copy when the labels are the same already and
    raises for repeated labels otherwise. -/
def reindexPositions [DecidableEq L] (labels J : List L) : Option (List (Option Nat)) :=
  if labels = J then some ((List.range J.length).map some)
  else if labels.Nodup then some (J.map fun x => labels.findIdx? (· == x))
  else none

/-- modin/core/dataframe/pandas/dataframe/dataframe.py:2029: all labels equal to the first's. -/
def allSame [DecidableEq L] (first : List L) (rest : List (List L)) : Bool := rest.all (· == first)

/-- Lines 2033-2037 `need_indexers`. -/
def needIndexers [DecidableEq L] (axis0 : Bool) (first : List L) (rest : List (List L)) : Bool :=
  axis0 && !allSame first rest && (first :: rest).any fun l => !decide l.Nodup

/-- Lines 2030, 2041-2057: the joined labels. -/
def joinedLabels [DecidableEq L] (P : JoinOps L) (axis0 : Bool) (first : List L)
    (rest : List (List L)) : List L :=
  if P.first || allSame first rest then first
  else match rest with
    | [second] =>
      if needIndexers axis0 first rest then (P.join2 first second).1 else P.merge first second
    | _ => rest.foldl P.merge first

/-- Lines 2039, 2048-2050, 2059-2060: the indexers obtained along with the join. -/
def joinIndexer [DecidableEq L] (P : JoinOps L) (axis0 : Bool) (first : List L)
    (rest : List (List L)) (i : Nat) (labels : List L) : List (Option Nat) :=
  match !(P.first || allSame first rest), rest with
  | true, [second] => if i = 0 then (P.join2 first second).2.1 else (P.join2 first second).2.2
  | _, _ => getIndexerFor labels (joinedLabels P axis0 first rest)

/-- Lines 2062-2075 `make_reindexer(True, i)`: which positions frame `i` (with the given labels) is reindexed with.
    An indexer of the wrong length makes a malformed frame: `none`. -/
def madeReindexer [DecidableEq L] (P : JoinOps L) (axis0 : Bool) (first : List L)
    (rest : List (List L)) (i : Nat) (labels : List L) : Option (List (Option Nat)) :=
  let J := joinedLabels P axis0 first rest
  if needIndexers axis0 first rest then
    let I := joinIndexer P axis0 first rest i labels
    if I.length = J.length then some I else none
  else reindexPositions labels J

/-- `make_reindexer(do_reindex, i)`: a frame that has the joined labels already is left as it is (`do_reindex_base`, line 3793). -/
def reindexer [DecidableEq L] (P : JoinOps L) (axis0 : Bool) (first : List L)
    (rest : List (List L)) (i : Nat) (labels : List L) : Option (List (Option Nat)) :=
  let J := joinedLabels P axis0 first rest
  if labels = J then some ((List.range J.length).map some)
  else madeReindexer P axis0 first rest i labels

/-- `get_axis(axis)` -/
def MFrame.axisLabels (axis0 : Bool) (m : MFrame L L α) : List L :=
  if axis0 then m.getIndex else m.getColumns

/-- `_get_axis_lengths(axis)`, modin/core/dataframe/pandas/dataframe/dataframe.py:343-355. -/
def MFrame.axisLens (axis0 : Bool) (m : MFrame L L α) : List Nat :=
  if axis0 then m.getRowLens else m.getColWidths

/-- `copy_axis_cache` and `_get_axis_lengths_cache`,
    modin/core/dataframe/pandas/dataframe/dataframe.py:653-672 and 327-341. -/
def MFrame.axisCache (axis0 : Bool) (m : MFrame L L α) : Option (List L) × Option (List Nat) :=
  if axis0 then (m.index, m.rowLens) else (m.columns, m.colWidths)

/-- `_check_if_axes_identical`, modin/core/dataframe/pandas/dataframe/dataframe.py:3689-3707. -/
def axesIdentical [DecidableEq L] (axis0 : Bool) (self o : MFrame L L α) : Bool :=
  o.axisLabels axis0 == self.axisLabels axis0 && o.axisLens axis0 == self.axisLens axis0

/-- What the successful check leaves in `self`'s caches: labels and lengths have been computed
    (as soon as there was another frame to compare with). -/
def cacheAfterCheck (axis0 : Bool) (self : MFrame L L α) (others : List (MFrame L L α)) :
    Option (List L) × Option (List Nat) :=
  if others.isEmpty then self.axisCache axis0
  else (some (self.axisLabels axis0), some (self.axisLens axis0))

/-- The reindexing function applied to an axis partition. -/
def reindexFn (axis0 : Bool) (nan : α) (J : List L) (I : List (Option Nat)) (f : Frame L L α) :
    Frame L L α :=
  if axis0 then f.reindexRows nan J I else f.reindexCols nan J I

/-- Lines 3801-3804: sizes read from the blocks of the first block row (column). -/
def gridAxisLens (axis0 : Bool) (g : Grid L L α) : List Nat :=
  if axis0 then g.filterMap fun row => row.head?.map (·.nrows)
  else (g.head?.getD []).map (·.ncols)

/-- `map_axis_partitions(axis, partitions, make_reindexer(True, i), lengths=lens)`. -/
def reindexGrid [DecidableEq L] (cfg : Cfg) (axis0 : Bool) (nan : α) (J : List L)
    (I : Option (List (Option Nat))) (g : Grid L L α) (lens : Option (List Nat)) :
    Option (Grid L L α) :=
  I.bind fun I => mapAxisPartitions cfg axis0 (fun b => some (reindexFn axis0 nan J I b)) g false none lens

/-- Lines 3793-3807: the base frame's blocks and their sizes along the axis. -/
def alignBase [DecidableEq L] (cfg : Cfg) (axis0 : Bool) (nan : α) (J : List L)
    (I : Option (List (Option Nat))) (base : MFrame L L α) : Option (Grid L L α × List Nat) :=
  if base.axisLabels axis0 ≠ J then
    (reindexGrid cfg axis0 nan J I base.parts none).map fun g => (g, gridAxisLens axis0 g)
  else some (base.parts, base.axisLens axis0)

/-- Lines 3809-3842: another frame's blocks.  A frame that has the joined labels already but is divided differently is reindexed all
    the same (`make_reindexer(do_repartition_others[i], ...)`, line 3838). -/
def alignOther [DecidableEq L] (cfg : Cfg) (axis0 : Bool) (nan : α) (J : List L) (baseLens : List Nat)
    (I : Option (List (Option Nat))) (o : MFrame L L α) : Option (Grid L L α) :=
  if o.axisLabels axis0 ≠ J || o.axisLens axis0 ≠ baseLens then
    reindexGrid cfg axis0 nan J I o.parts (some baseLens)
  else some o.parts

/-- modin/core/dataframe/pandas/dataframe/dataframe.py:3709-3848 `_copartition` with
    `force_repartition=False`: the blocks of all frames, the labels and sizes along the axis. -/
def copartition [DecidableEq L] (P : JoinOps L) (cfg : Cfg) (axis0 : Bool) (nan : α)
    (self : MFrame L L α) (others : List (MFrame L L α)) :
    Option (List (Grid L L α) × Option (List L) × Option (List Nat)) :=
  if others.all (axesIdentical axis0 self) then
    some ((self :: others).map (·.parts), cacheAfterCheck axis0 self others)
  else
    let first := self.axisLabels axis0
    let rest := others.map (·.axisLabels axis0)
    let J := joinedLabels P axis0 first rest
    let ix := fun (e : MFrame L L α × Nat) => madeReindexer P axis0 first rest e.2 (e.1.axisLabels axis0)
    let frames := (self :: others).zipIdx
    let before := frames.takeWhile fun e => e.1.parts.isEmpty
    match frames.dropWhile fun e => e.1.parts.isEmpty with
    | [] => some (frames.map (·.1.parts), some J, some [])
    | base :: rest =>
      (alignBase cfg axis0 nan J (ix base) base.1).bind fun b =>
      (rest.mapM fun e => alignOther cfg axis0 nan J b.2 (ix e) e.1).map fun gs =>
        (before.map (·.1.parts) ++ b.1 :: gs, some J, some b.2)

/-- A cell-by-cell `op` as a block function: the blocks must carry the same labels. -/
def cellwiseBlock {β : Type} [DecidableEq L] (f : α → List α → β) (b : Frame L L α) (os : List (Frame L L α)) :
    Option (Frame L L β) :=
  if os.all fun o => o.index == b.index && o.columns == b.columns then some (b.cellwise f os) else none

/-- modin/core/dataframe/pandas/partitioning/partition_manager.py:1725-1788 `n_ary_operation`: the
    shape is the left grid's; a missing right block raises (`none`). -/
def nAryOperation {β : Type} (op : Frame L L α → List (Frame L L α) → Option (Frame L L β)) (left : Grid L L α)
    (right : List (Grid L L α)) : Option (Grid L L β) :=
  left.zipIdx.mapM fun r => r.1.zipIdx.mapM fun c =>
    (right.mapM fun g => g[r.2]?.bind (·[c.2]?)).bind (op c.1)

/-- Lines 3897-3916: the frames after the rows have been aligned. -/
def realigned (idx : Option (List L)) (rl : Option (List Nat)) (e : Grid L L α × MFrame L L α) :
    Option (MFrame L L α) :=
  MFrame.mk' { parts := e.1, index := idx, columns := e.2.columns, rowLens := rl, colWidths := e.2.colWidths }

/-- Lines 3932-3942: no blocks at all if some operand has none. -/
def nAryBlocks {β : Type} (op : Frame L L α → List (Frame L L α) → Option (Frame L L β)) :
    List (Grid L L α) → Option (Grid L L β)
  | [] => none
  | left :: right =>
    if left.isEmpty || right.any (·.isEmpty) then some [] else nAryOperation op left right

/-- modin/core/dataframe/pandas/dataframe/dataframe.py:3850-3950 `n_ary_op` with
    `copartition_along_columns=True`, `labels="replace"`. -/
def nAryOp {β : Type} [DecidableEq L] (P : JoinOps L) (cfg : Cfg) (nan : α)
    (op : Frame L L α → List (Frame L L α) → Option (Frame L L β))
    (self : MFrame L L α) (others : List (MFrame L L α)) : Option (MFrame L L β) :=
  (copartition P cfg true nan self others).bind fun r =>
  ((r.1.zip (self :: others)).mapM (realigned r.2.1 r.2.2)).bind fun fs =>
  match fs with
  | [] => none
  | left :: right =>
    (copartition P cfg false nan left right).bind fun c =>
    (nAryBlocks op c.1).bind fun g =>
    MFrame.mk' { parts := g, index := r.2.1, columns := c.2.1, rowLens := r.2.2, colWidths := c.2.2 }

/-- modin/core/dataframe/pandas/partitioning/partition_manager.py:943-984 `concat` of a list of
    grids, rows. -/
def pmConcatRows [DecidableEq L] (cfg : Cfg) (known : Grid L L α → Bool) (gs : List (Grid L L α)) :
    Option (Grid L L α × Option (List Nat)) :=
  let g := (gs.filter (!·.isEmpty)).flatten
  rebalance cfg.nPartitions (known g) g

/-- The same for columns: `np.concatenate(..., axis=1)` raises when the heights differ. -/
def pmConcatCols (gs : List (Grid L L α)) : Option (Grid L L α) :=
  match gs.filter (!·.isEmpty) with
  | [] => some []
  | g :: rest =>
    if rest.all (·.length == g.length) then
      some (Frame.hrows g.length (g :: rest))
    else none

/-- `if not new_lengths:` … (modin/core/dataframe/pandas/dataframe/dataframe.py:4039-4049): sizes
    still unknown are read from the first block column if every one is known. -/
def lengthsOrFirstColumn (known : Bool) (g : Grid L L α) : Option (List Nat) → Option (List Nat)
  | some (x :: xs) => some (x :: xs)
  | _ => if g.isEmpty then some [] else if known then some (gridAxisLens true g) else none

/-- Lines 4050-4071: the same for the first block row. -/
def widthsOrFirstRow (known : Bool) (g : Grid L L α) : Option (List Nat) → Option (List Nat)
  | some (x :: xs) => some (x :: xs)
  | _ => if g.isEmpty then some [] else if known then some (gridAxisLens false g) else none

/-- `self.index.append([...])` if every frame has its labels (lines 4027-4028, 4051-4052). -/
def appendLabels (ls : List (Option (List L))) : Option (List L) :=
  (ls.mapM id).map List.flatten

/-- Lines 3987-3996 `_compute_new_widths`. -/
def appendWidths (ls : List (Option (List Nat))) : Option (List Nat) :=
  (ls.mapM id).map List.flatten

/-- modin/core/dataframe/pandas/dataframe/dataframe.py:3952-4085 `concat` for rows.
    `known`: what the blocks of the new grid say about their `_length_cache` (for rebalancing: all
    of them; afterwards: those of the first block column).  dtypes: see Verif/Model/Dtypes.lean. -/
def concatRows [DecidableEq L] (P : JoinOps L) (cfg : Cfg) (nan : α) (known : Grid L L α → Bool)
    (self : MFrame L L α) (others : List (MFrame L L α)) : Option (MFrame L L α) :=
  (copartition P cfg false nan self others).bind fun c =>
  (pmConcatRows cfg known c.1).bind fun r =>
  MFrame.mk' { parts := r.1, index := appendLabels ((self :: others).map (·.index)), columns := c.2.1,
               rowLens := lengthsOrFirstColumn (known r.1) r.1 r.2, colWidths := c.2.2 }

/-- The same for columns. -/
def concatCols [DecidableEq L] (P : JoinOps L) (cfg : Cfg) (nan : α) (known : Grid L L α → Bool)
    (self : MFrame L L α) (others : List (MFrame L L α)) : Option (MFrame L L α) :=
  (copartition P cfg true nan self others).bind fun c =>
  (pmConcatCols c.1).bind fun g =>
  MFrame.mk' { parts := g, index := c.2.1, columns := appendLabels ((self :: others).map (·.columns)),
               rowLens := c.2.2,
               colWidths := widthsOrFirstRow (known g) g
                 (appendWidths ((self :: others).map (·.colWidths))) }
