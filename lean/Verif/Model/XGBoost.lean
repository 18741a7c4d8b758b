import Verif.Model.Partitions
/-
Distributed training and prediction with XGBoost.
Models modin/experimental/xgboost/xgboost.py (`DMatrix`) and modin/experimental/xgboost/xgboost_ray.py
(`_assign_row_partitions_to_actors`, `_split_data_across_actors`, `ModinXGBoostActor._get_dmatrix`, `_get_num_actors`,
`create_actors`, `_train`, `_predict`).
What a worker process does with the data it is given is not modelled: the outcome of training is the data every actor holds.
-/

variable {ι κ α β A P V : Type}

/-! ### a Python `defaultdict(list)`: its entries in order of insertion -/

/-- `d[k]` -/
def ddGet [DecidableEq A] (d : List (A × List V)) (k : A) : List V :=
  match d with
  | [] => []
  | e :: es => if e.1 = k then e.2 else ddGet es k

/-- `d[k] = l` -/
def ddSet [DecidableEq A] (d : List (A × List V)) (k : A) (l : List V) : List (A × List V) :=
  match d with
  | [] => [(k, l)]
  | e :: es => if e.1 = k then (k, l) :: es else e :: ddSet es k l

/-- `d[k].append(v)` -/
def ddAppend [DecidableEq A] (d : List (A × List V)) (k : A) (v : V) : List (A × List V) :=
  ddSet d k (ddGet d k ++ [v])

/-- a dict of lists filled one entry at a time -/
def ddOf [DecidableEq A] (l : List (A × V)) : List (A × List V) := l.foldl (fun d e => ddAppend d e.1 e.2) []

/-! ### sharing out the row partitions -/

/-- modin/experimental/xgboost/xgboost_ray.py:383-414, the actors with the given ranks on one node: each takes its share of the
    partitions lying on the node (`pool`); `given` is what every actor has so far, `w` the number of actors that may still get one
    partition more than the others. -/
def fillNode (mn mx : Nat) : List Nat → List V → List (List V) → Nat → List V × List (List V) × Nat
  | [], pool, given, w => (pool, given, w)
  | r :: rs, pool, given, w =>
    if pool.length = 0 then (pool, given, w)
    else if mn ≤ pool.length then
      if mx ≤ pool.length ∧ 0 < w then
        fillNode mn mx rs (pool.drop mx) (given.modify r (· ++ pool.take mx)) (w - 1)
      else fillNode mn mx rs (pool.drop mn) (given.modify r (· ++ pool.take mn)) w
    else fillNode mn mx rs [] (given.modify r (· ++ pool)) w

/-- modin/experimental/xgboost/xgboost_ray.py:382-414: all nodes with actors, one after the other -/
def fillNodes [DecidableEq A] (mn mx : Nat) : List (A × List Nat) → List (A × List V) → List (List V) → Nat →
    List (A × List V) × List (List V) × Nat
  | [], dist, given, w => (dist, given, w)
  | (ip, ranks) :: es, dist, given, w =>
    let r := fillNode mn mx ranks (ddGet dist ip) given w
    fillNodes mn mx es (ddSet dist ip r.1) r.2.1 r.2.2

/-- modin/experimental/xgboost/xgboost_ray.py:426-443: actors with too little take from what is left.  The slices `[0:k]` have
    `0 ≤ k`, since no actor has more than `mx` (and none more than `mn` once `w` is 0 and it does not have `mx`). -/
def topUp (mn mx : Nat) : List (List V) → List V → Nat → List (List V) × List V
  | [], pool, _ => ([], pool)
  | l :: ls, pool, w =>
    if l.length = mx ∨ (l.length = mn ∧ w = 0) then
      let r := topUp mn mx ls pool w
      (l :: r.1, r.2)
    else if 0 < w then
      let r := topUp mn mx ls (pool.drop (mx - l.length)) (w - 1)
      ((l ++ pool.take (mx - l.length)) :: r.1, r.2)
    else
      let r := topUp mn mx ls (pool.drop (mn - l.length)) w
      ((l ++ pool.take (mn - l.length)) :: r.1, r.2)

/-- modin/experimental/xgboost/xgboost_ray.py:332-453 `_assign_row_partitions_to_actors` without `data_for_aligning`: for every actor
    (given by the address of its node) the partitions it gets with their positions.  `none`: there are no actors (division by zero)
    or no partitions (`zip(*[])`), partitions are left over (`RuntimeError`), or an actor has got nothing (`zip(*[])`).
    Simplification: `math.floor(a / b)` and `math.ceil(a / b)` are computed exactly. -/
def assignRowPartitions [DecidableEq A] (actors : List A) (parts : List (A × P)) : Option (List (List (P × Nat))) :=
  if actors.length = 0 ∨ parts.length = 0 then none else
  let actorIps := ddOf (actors.zipIdx)
  let dist := ddOf (parts.zipIdx.map fun e => (e.1.1, (e.1.2, e.2)))
  let mn := parts.length / actors.length
  let mx := (parts.length + actors.length - 1) / actors.length
  let s := fillNodes mn mx actorIps dist (List.replicate actors.length []) (parts.length % actors.length)
  let left := ((s.1.filter fun e => e.2.length ≠ 0).map (·.2)).flatten
  let r := topUp mn mx s.2.1 left s.2.2
  if r.2.length ≠ 0 then none else if r.1.any (·.isEmpty) then none else some r.1

/-- modin/experimental/xgboost/xgboost_ray.py:454-460, `data_for_aligning`: the partitions at the positions `given` has -/
def alignRowPartitions {Q : Type} (given : List (List (P × Nat))) (parts : List Q) : Option (List (List Q)) :=
  given.mapM fun l => l.mapM fun e => parts[e.2]?

/-- modin/experimental/xgboost/xgboost_ray.py:64-93 `_get_dmatrix`: the first half of the frames is data, the second half labels; each
    half is concatenated.  `xgb.DMatrix` wants as many labels as rows.  The result pairs every row with its label row. -/
def actorDMatrix [DecidableEq κ] (xy : List (Frame ι κ α)) : Option (List (List α × List α)) :=
  let x := xy.take (xy.length / 2)
  let y := xy.drop (xy.length / 2)
  if x.length = y.length ∧ 0 < x.length then
    (Frame.vcat x).bind fun x => (Frame.vcat y).bind fun y =>
      if x.rows.length = y.rows.length then some (x.rows.zip y.rows) else none
  else none

/-- modin/experimental/xgboost/xgboost.py:28-106 `DMatrix`: the row partitions of the data with the addresses of the nodes they are on,
    the row partitions of the labels, and the metadata.  Feature names and the like are not modelled. -/
structure DMat (ι κ α A : Type) where
  data : List (A × Frame ι κ α)
  label : Option (List (Frame ι κ α))
  index : List ι
  columns : List κ
  rowLens : List Nat
deriving DecidableEq, Repr

/-- the list in `Parts.rows` -/
def Parts.toRows : Parts ι κ α → Option (List (Frame ι κ α))
  | .rows l => some l
  | _ => none

/-- modin/experimental/xgboost/xgboost.py:62-106 `DMatrix.__init__`; `node` says on which node each row partition ends up,
    `x1` is `x` after `unwrap_partitions` has written the labels. -/
def mkDMat [DecidableEq ι] [DecidableEq κ] (node : Nat → A) (x : LFrame ι κ α) (y : Option (LFrame ι κ α)) : Option (DMat ι κ α A) :=
  (match y with
   | none => some none
   | some y => ((y.unwrapPartitions .rows).bind Parts.toRows).map some).bind fun label =>
  (x.propagate true true).bind fun x1 =>
  ((x.unwrapPartitions .rows).bind Parts.toRows).map fun (rows : List (Frame ι κ α)) =>
  ⟨rows.zipIdx.map fun (e : Frame ι κ α × Nat) => (node e.2, e.1), label, x1.getIndex, x1.getColumns, x1.getRowLens⟩

/-- modin/experimental/xgboost/xgboost_ray.py:297-329 `_split_data_across_actors`: the data every actor holds -/
def splitData [DecidableEq A] [DecidableEq κ] (actors : List A) (d : DMat ι κ α A) : Option (List (List (List α × List α))) :=
  d.label.bind fun label =>
  (assignRowPartitions actors d.data).bind fun xs => (alignRowPartitions xs label).bind fun ys =>
  (xs.zip ys).mapM fun e => actorDMatrix (e.1.map (·.1) ++ e.2)

/-- modin/experimental/xgboost/xgboost_ray.py:229-254 `_get_num_actors` on a cluster of `nodes` nodes with at least `minCpus`
    processors each -/
def getNumActors (nodes minCpus : Nat) : Option Nat → Option Nat
  | none => some (max 1 (minCpus / 2) * nodes)
  | some k => if k % nodes = 0 then some k else none

/-- modin/experimental/xgboost/xgboost_ray.py:257-294 `create_actors`: the nodes of the actors by rank -/
def createActors (nodes : List A) (numActors : Nat) : List A :=
  nodes.flatMap fun n => List.replicate (max (numActors / nodes.length) 1) n

/-- What the actors hold: their training data by rank, and the evaluation sets in the order every actor has them, with their data by
    rank.  `evalsLeft`: the names in the caller's `evals` list after the call. -/
structure TrainData (α : Type) where
  train : List (List (List α × List α))
  evals : List (String × List (List (List α × List α)))
  evalsLeft : List String
deriving DecidableEq, Repr

/-- modin/experimental/xgboost/xgboost_ray.py:465-575 `_train` up to the start of the workers.  An evaluation set is `none` if it is the
    training data itself: it is removed from the caller's list (lines 533-538) and added by each actor when it gets its training data. -/
def xgbTrain [DecidableEq A] [DecidableEq κ] (nodes : List A) (minCpus : Nat) (numActors : Option Nat) (d : DMat ι κ α A)
    (evals : List (Option (DMat ι κ α A) × String)) : Option (TrainData α) :=
  d.label.bind fun label =>
  if d.data.length = label.length then
    (getNumActors nodes.length minCpus numActors).bind fun k =>
    let k := min k d.data.length
    let k := evals.foldl (fun k e => min k ((e.1.getD d).data.length)) k
    let actors := createActors nodes k
    let own := (evals.filter fun e => e.1.isNone).getLast?.map (·.2)
    let others := evals.filterMap fun e => e.1.map fun x => (x, e.2)
    (others.mapM fun e => (splitData actors e.1).map fun r => (e.2, r)).bind fun es =>
    (splitData actors d).map fun t => ⟨t, es ++ own.toList.map fun n => (n, t), others.map (·.2)⟩
  else none

/-- modin/experimental/xgboost/xgboost_ray.py:578-607 `_map_predict`: predict a partition, keep its row labels -/
def mapPredict (predict : List (List α) → List (List β)) (cols : List Nat) (part : Frame ι κ α) : Frame ι Nat β :=
  ⟨part.index, cols, predict part.rows⟩

/-- modin/experimental/xgboost/xgboost_ray.py:610-673 `_predict`; `width` is the number of values predicted for a row. -/
def xgbPredict (predict : List (List α) → List (List β)) (width : Nat) (d : DMat ι κ α A) : Option (LFrame ι Nat β) :=
  let cols := List.range width
  fromPartitions (.rows (d.data.map fun e => mapPredict predict cols e.2)) (some d.index) (some cols) (some d.rowLens) (some [width])
