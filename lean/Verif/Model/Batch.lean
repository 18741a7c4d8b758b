import Verif.Pandas.Batch
import Verif.Model.MapPlans
import Verif.Model.Labels
/-
The experimental batch pipeline.
Models modin/experimental/batch/pipeline.py, with the call queues of row partitions from
modin/core/dataframe/pandas/partitioning/axis_partition.py (`add_to_apply_calls`, `drain_call_queue`, `force_materialization`).
A function that is put in a queue is called when the queue is drained; Python functions see the variables around them as they are then.
-/

variable {ι κ α : Type}

/-- The variables `node` (of which only `reduce_fn` matters) and `new_dfs` of `_complete_nodes`, which its inner function `reducer` sees
    (modin/experimental/batch/pipeline.py:225-250). -/
structure Cells (ι κ α : Type) where
  reduce : Option (List (Frame ι κ α) → Option (Frame ι κ α))
  newDfs : List (Frame ι κ α)

/-- An entry of a call queue: a function with its arguments, or `reducer`. -/
inductive BatchCall (ι κ α : Type) where
  | func (f : Frame ι κ α → Option (Frame ι κ α))
  | reducer

/-- modin/experimental/batch/pipeline.py:244-248 `reducer`; calling `None` raises. -/
def BatchCall.run (cells : Cells ι κ α) (df : Frame ι κ α) : BatchCall ι κ α → Option (Frame ι κ α)
  | .func f => f df
  | .reducer => cells.reduce.bind fun r => r (df :: cells.newDfs)

/-- modin/core/dataframe/pandas/partitioning/axis_partition.py:595-612 `drain` -/
def runCalls (cells : Cells ι κ α) : List (BatchCall ι κ α) → Frame ι κ α → Option (Frame ι κ α)
  | [], df => some df
  | c :: cs, df => (c.run cells df).bind (runCalls cells cs)

/-- A row partition: its blocks and the calls that are still to be made. -/
structure BatchPart (ι κ α : Type) where
  blocks : List (Frame ι κ α)
  queue : List (BatchCall ι κ α)

/-- modin/core/dataframe/pandas/partitioning/axis_partition.py:716-744 `add_to_apply_calls` -/
def BatchPart.add (p : BatchPart ι κ α) (c : BatchCall ι κ α) : BatchPart ι κ α := { p with queue := p.queue ++ [c] }

/-- the blocks of a row partition side by side; `pandas.concat` of one frame is that frame -/
def BatchPart.whole [DecidableEq ι] (p : BatchPart ι κ α) : Option (Frame ι κ α) :=
  match p.blocks with
  | [b] => some b
  | bs => Frame.hcat bs

/-- modin/core/dataframe/pandas/partitioning/axis_partition.py:152-179 `drain_call_queue(num_splits=1)` of a queue that is not empty, and
    modin/core/dataframe/base/partitioning/axis_partition.py:149-168 `force_materialization`: the one block that results.  Simplified: when
    the queue is drained by `force_materialization` the result is divided and put together again (C03). -/
def BatchPart.drain [DecidableEq ι] (cells : Cells ι κ α) (p : BatchPart ι κ α) : Option (Frame ι κ α) :=
  p.whole.bind (runCalls cells p.queue)

/-- modin/experimental/batch/pipeline.py:260-264 `mask_partition` -/
def maskPartition (n i : Nat) (f : Frame ι κ α) : Option (Frame ι κ α) :=
  if i = n - 1 then some (f.ilocRows (i * (f.nrows / n)) f.nrows)
  else some (f.ilocRows (i * (f.nrows / n)) ((i + 1) * (f.nrows / n)))

/-- One turn of the loop of `_complete_nodes`, modin/experimental/batch/pipeline.py:225-284.  The first thing that happens is that `node`
    is another one.  `none`: it raises (more than one partition, none, or a function). -/
def completeNode [DecidableEq ι] (n : Nat) (q : Query ι κ α) (s : List (BatchPart ι κ α) × Cells ι κ α) :
    Option (List (BatchPart ι κ α) × Cells ι κ α) :=
  let cells : Cells ι κ α := { s.2 with reduce := q.reduce }
  if q.fanOut then
    match s.1 with
    | [p] => (p.drain cells).bind fun b =>
        (q.func (some 0) b).bind fun df =>
        ((List.range (n - 1)).mapM fun i => q.func (some (i + 1)) b).bind fun newDfs =>
        some ([{ blocks := [df], queue := [.reducer] }], { cells with newDfs := newDfs })
    | _ => none
  else if q.repartition then
    match s.1 with
    | [p] => ((p.add (.func (q.func none))).drain cells).map fun b =>
        ((List.range n).map fun i => { blocks := [b], queue := [.func (maskPartition n i)] }, cells)
    | _ => none
  else some (s.1.zipIdx.map fun (p : BatchPart ι κ α × Nat) => p.1.add (.func (q.func (if q.passId then some p.2 else none))), cells)

/-- modin/experimental/batch/pipeline.py:208-284 `_complete_nodes` -/
def completeNodes [DecidableEq ι] (n : Nat) : List (Query ι κ α) → List (BatchPart ι κ α) × Cells ι κ α →
    Option (List (BatchPart ι κ α) × Cells ι κ α)
  | [], s => some s
  | q :: qs, s => (completeNode n q s).bind (completeNodes n qs)

/-- modin/experimental/batch/pipeline.py:335-357: the function that is put in the queue of partition `i` of an output -/
def postCall (post : Option (Post ι κ α)) (id : Option Nat) (i : Nat) : Frame ι κ α → Option (Frame ι κ α) :=
  match post with
  | none => some
  | some p => p.func ((if p.passOutput then id.toList else []) ++ (if p.passPartition then [i] else []))

/-- modin/experimental/batch/pipeline.py:330-361, the loop over the outputs: the partitions are drained, each into one block; the
    postprocessed ones are drained into `num_partitions` blocks.  The result: for each output its id and its grid of blocks. -/
def runOutputs [DecidableEq ι] [DecidableEq κ] (cfg : Cfg) (n : Nat) (post : Option (Post ι κ α)) :
    List (Option Nat × List (Query ι κ α)) → List (BatchPart ι κ α) → Option (List (Option Nat × Grid ι κ α))
  | [], _ => some []
  | o :: os, ps =>
    (completeNodes n o.2 (ps, { reduce := none, newDfs := [] })).bind fun s =>
    (s.1.mapM fun (p : BatchPart ι κ α) => p.drain s.2).bind fun drained =>
    (drained.zipIdx.mapM fun (b : Frame ι κ α × Nat) =>
      deployAxisFunc false (postCall post o.1 b.2) n true [b.1] cfg.minCol none false).bind fun grid =>
    (runOutputs cfg n post os (drained.map fun b => { blocks := [b], queue := [] })).map fun rest => (o.1, grid) :: rest

/-- modin/experimental/batch/pipeline.py:369-384: a frame from the grid of an output; the labels and sizes are read from the blocks -/
def frameOfGrid (g : Grid ι κ α) : Option (MFrame ι κ α) :=
  MFrame.mk' (MFrame.mk g (some (gridIndex g)) (some (gridColumns g)) (some (g.filterMap fun row => row.head?.map (·.nrows)))
    (some ((g.headD []).map (·.ncols))))

/-- modin/experimental/batch/pipeline.py:286-388 `compute_batch`, the frames of the outputs in order.  The labels that are still to be
    written to the blocks of the frame are not looked at. -/
def LFrame.computeBatch [DecidableEq ι] [DecidableEq κ] (cfg : Cfg) (n : Nat) (post : Option (Post ι κ α))
    (outputs : List (Option Nat × List (Query ι κ α))) (m : LFrame ι κ α) : Option (List (Option Nat × MFrame ι κ α)) :=
  (runOutputs cfg n post outputs (m.parts.map fun row => { blocks := row, queue := [] })).bind fun outs =>
  outs.mapM fun (o : Option Nat × Grid ι κ α) => (frameOfGrid o.2).map fun r => (o.1, r)

/-! ### Building a pipeline -/

/-- The state of a `PandasQueryPipeline` (modin/experimental/batch/pipeline.py:116-121): the outputs, the queries since the last of them,
    whether ids are given. -/
structure Pipeline (ι κ α : Type) where
  outputs : List (Option Nat × List (Query ι κ α))
  queries : List (Query ι κ α)
  ids : Bool

/-- modin/experimental/batch/pipeline.py:139-206 `add_query`.  `none`: it raises a `ValueError`; then nothing has changed. -/
def Pipeline.add (p : Pipeline ι κ α) (q : Query ι κ α) (isOutput : Bool) (id : Option Nat) : Option (Pipeline ι κ α) :=
  if !isOutput && id.isSome then none
  else if isOutput && !p.ids && id.isSome && p.outputs.length != 0 then none
  else if isOutput && id.isNone && p.ids then none
  else if isOutput then
    some { outputs := p.outputs ++ [(id, p.queries ++ [q])], queries := [], ids := p.ids || id.isSome }
  else some { p with queries := p.queries ++ [q] }

/-- the results of outputs with ids are put in a dictionary, modin/experimental/batch/pipeline.py:322-325 and 358-361: a later output
    replaces an earlier one with the same id -/
def dictOf {A : Type} (outs : List (Option Nat × A)) : List (Option Nat × A) :=
  outs.foldl (fun d o => if d.any (·.1 == o.1) then d.map (fun e => if e.1 == o.1 then (e.1, o.2) else e) else d ++ [o]) []

/-- modin/experimental/batch/pipeline.py:286-388 `compute_batch` of a pipeline.  No outputs: an empty list.  `pass_output_id` without ids
    is refused.  Otherwise a list, or, when there are ids, a dictionary. -/
def Pipeline.compute [DecidableEq ι] [DecidableEq κ] (cfg : Cfg) (n : Nat) (post : Option (Post ι κ α)) (p : Pipeline ι κ α)
    (m : LFrame ι κ α) : Option (List (Option Nat × MFrame ι κ α)) :=
  if p.outputs.isEmpty then some []
  else if !p.ids && (post.map (·.passOutput)).getD false then none
  else (m.computeBatch cfg n post p.outputs).map fun rs => if p.ids then dictOf rs else rs
