import Verif.Pandas.Frame
/-
Specification vocabulary for the batch pipeline: what a pipeline of queries over the row partitions of a frame means.
-/

variable {ι κ α : Type}

/-- A query of a pipeline: a function of a partition, called with the number of the partition or without, and the arguments of
    `add_query`. -/
structure Query (ι κ α : Type) where
  func : Option Nat → Frame ι κ α → Option (Frame ι κ α)
  passId : Bool
  fanOut : Bool
  repartition : Bool
  reduce : Option (List (Frame ι κ α) → Option (Frame ι κ α))

/-- `n` consecutive pieces of a frame, all of the same length but the last, which takes what remains -/
def evenPieces (n : Nat) (f : Frame ι κ α) : List (Frame ι κ α) :=
  (List.range n).map fun i => f.ilocRows (i * (f.nrows / n)) (if i = n - 1 then f.nrows else (i + 1) * (f.nrows / n))

/-- What a query makes of the partitions (`n`: the number of partitions of the pipeline).  Fanned out: `n` results from one and the same
    partition, reduced to one.  Divided anew: the result cut into `n` pieces.  Otherwise each partition by itself.  `none`: it raises. -/
def Query.meaning (n : Nat) (q : Query ι κ α) (ps : List (Frame ι κ α)) : Option (List (Frame ι κ α)) :=
  if q.fanOut then
    match ps with
    | [p] => ((List.range n).mapM fun i => q.func (some i) p).bind fun rs => q.reduce.bind fun r => (r rs).map fun f => [f]
    | _ => none
  else if q.repartition then
    match ps with
    | [p] => (q.func none p).map fun f => evenPieces n f
    | _ => none
  else ps.zipIdx.mapM fun (p : Frame ι κ α × Nat) => q.func (if q.passId then some p.2 else none) p.1

/-- A postprocessing function and which arguments it gets: the id of the output, the number of the partition. -/
structure Post (ι κ α : Type) where
  func : List Nat → Frame ι κ α → Option (Frame ι κ α)
  passOutput : Bool
  passPartition : Bool

/-- what the postprocessing makes of partition `i` of the output `id` -/
def Post.meaning (post : Option (Post ι κ α)) (id : Option Nat) (i : Nat) (f : Frame ι κ α) : Option (Frame ι κ α) :=
  match post with
  | none => some f
  | some p => p.func ((if p.passOutput then id.toList else []) ++ (if p.passPartition then [i] else [])) f

/-- The queries one after the other. -/
def queriesMeaning (n : Nat) : List (Query ι κ α) → List (Frame ι κ α) → Option (List (Frame ι κ α))
  | [], ps => some ps
  | q :: qs, ps => (q.meaning n ps).bind (queriesMeaning n qs)

/-- The outputs of a pipeline, each with its id and the queries since the output before: the partitions of an output are postprocessed for
    the user and handed on, as they were before, to the queries that follow. -/
def batchMeaning (n : Nat) (post : Option (Post ι κ α)) : List (Option Nat × List (Query ι κ α)) → List (Frame ι κ α) →
    Option (List (Option Nat × List (Frame ι κ α)))
  | [], _ => some []
  | o :: os, ps => (queriesMeaning n o.2 ps).bind fun ps' =>
      (ps'.zipIdx.mapM fun (p : Frame ι κ α × Nat) => Post.meaning post o.1 p.2 p.1).bind fun out =>
      (batchMeaning n post os ps').map fun rest => (o.1, out) :: rest

/-- A function of frames that looks at one row at a time: applied to pieces it makes the pieces of the result. -/
def RowWise [DecidableEq κ] (g : Frame ι κ α → Frame ι κ α) : Prop :=
  ∀ fs f, Frame.vcat fs = some f → Frame.vcat (fs.map g) = some (g f)

/-- The functions of a query return data frames (as many labels as rows, and so on) when they get data frames. -/
structure Query.Sound (q : Query ι κ α) : Prop where
  func : ∀ i f r, f.WF → q.func i f = some r → r.WF
  reduce : ∀ red, q.reduce = some red → ∀ fs r, (∀ f ∈ fs, Frame.WF f) → red fs = some r → r.WF

/-- the same of a postprocessing function -/
def Post.Sound (post : Option (Post ι κ α)) : Prop := ∀ p, post = some p → ∀ a f r, f.WF → p.func a f = some r → r.WF

/-- `add_query` of a function of the partition alone; perhaps the result is to be divided anew -/
def Query.ofFunction (repartition : Bool) (g : Frame ι κ α → Frame ι κ α) : Query ι κ α :=
  { func := fun _ f => some (g f), passId := false, fanOut := false, repartition := repartition, reduce := none }

/-- What the outputs are if the functions are applied to the whole frame, one after the other. -/
def applyAll : List (Option Nat × List (Bool × (Frame ι κ α → Frame ι κ α))) → Frame ι κ α → List (Option Nat × Frame ι κ α)
  | [], _ => []
  | o :: os, f => (o.1, o.2.foldl (fun x g => g.2 x) f) :: applyAll os (o.2.foldl (fun x g => g.2 x) f)
