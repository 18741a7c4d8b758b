/-
Block partitions with a queue of deferred calls, as a state machine over a store of
partition objects.

Simplification: the wrapped data has an arbitrary type `D` with a length `len : D → Nat`
(the width cache behaves in the same way); extra arguments of a deferred call are part of the
function; a call that raises returns `none`.
-/

variable {D : Type}

/-- Deferred calls are executed in queue order, stopping at the first exception:
    modin/core/execution/python/implementations/pandas_on_python/partitioning/partition.py:95-117
    `call_queue_closure` and
    modin/core/execution/dask/implementations/pandas_on_dask/partitioning/partition.py:351-371
    `apply_list_of_funcs` (unidist: `_apply_list_of_funcs`). -/
def runQueue : Option D → List (D → Option D) → Option D
  | d, [] => d
  | none, _ => none
  | some d, f :: fs => runQueue (f d) fs

/-- What a caller of one method sees. -/
inductive Obs (D : Type) where
  | value (d : D)
  | num (n : Nat)
  | done
  | raised
  | noObject
deriving DecidableEq, Repr

/-- Method calls on the partition objects of a store; objects are numbered in order of
    creation.  `add i f n` is `add_to_apply_calls(f, length=n)`, `apply` is the immediate
    application, both create an object; `read` is `get()`/`to_pandas()`. -/
inductive POp (D : Type) where
  | add (i : Nat) (f : D → Option D) (n : Option Nat)
  | drain (i : Nat)
  | read (i : Nat)
  | apply (i : Nat) (f : D → Option D)
  | copy (i : Nat)
  | length (i : Nat)

/-- modin/core/execution/python/implementations/pandas_on_python/partitioning/partition.py:49-58
    `__init__`: fields of a partition object of the in-process engine. -/
structure PyPart (D : Type) where
  data : D
  queue : List (D → Option D)
  lenCache : Option Nat

/-- modin/core/execution/python/implementations/pandas_on_python/partitioning/partition.py:119-120
    (first part of `apply`): run the queue on the data and store the result.  When a queued
    call raises, lines 114-116 clear the queue and re-raise; the data stays as it was. -/
def PyPart.flush (p : PyPart D) : PyPart D × Bool :=
  match runQueue (some p.data) p.queue with
  | some d => ({ p with data := d, queue := [] }, true)
  | none => ({ p with queue := [] }, false)

/-- modin/core/execution/python/implementations/pandas_on_python/partitioning/partition.py:125-129
    `drain_call_queue`. -/
def PyPart.drain (p : PyPart D) : PyPart D × Bool :=
  if p.queue.length = 0 then (p, true) else p.flush

/-- One method call on the in-process engine.
    modin/core/execution/python/implementations/pandas_on_python/partitioning/partition.py:60-123
    (`get`, `apply`), modin/core/dataframe/pandas/partitioning/partition.py:140-172
    (`add_to_apply_calls`), 341-359 (`length`); `copy` is Python's default shallow copy. -/
def pyStep (len : D → Nat) (s : List (PyPart D)) : POp D → List (PyPart D) × Obs D
  | .add i f n => match s[i]? with
    | none => (s, .noObject)
    | some p => (s ++ [{ data := p.data, queue := p.queue ++ [f], lenCache := n }], .done)
  | .drain i => match s[i]? with
    | none => (s, .noObject)
    | some p => (s.set i p.drain.1, if p.drain.2 then .done else .raised)
  | .read i => match s[i]? with
    | none => (s, .noObject)
    | some p => (s.set i p.drain.1, if p.drain.2 then .value p.drain.1.data else .raised)
  | .apply i f => match s[i]? with
    | none => (s, .noObject)
    | some p =>
      if p.flush.2 then
        match f p.flush.1.data with
        | some d => (s.set i p.flush.1 ++ [{ data := d, queue := [], lenCache := none }], .done)
        | none => (s.set i p.flush.1, .raised)
      else (s.set i p.flush.1, .raised)
  | .copy i => match s[i]? with
    | none => (s, .noObject)
    | some p => (s ++ [p], .done)
  | .length i => match s[i]? with
    | none => (s, .noObject)
    | some p => match p.lenCache with
      | some n => (s, .num n)
      | none =>
        if p.flush.2 then
          (s.set i { p.flush.1 with lenCache := some (len p.flush.1.data) },
            .num (len p.flush.1.data))
        else (s.set i p.flush.1, .raised)

/-- modin/core/execution/dask/implementations/pandas_on_dask/partitioning/partition.py:46-55
    `__init__` (unidist: partition.py:50-57): a partition whose data is a future; `none` is a
    future whose computation raised.  The length cache may itself be a future. -/
structure FutPart (D : Type) where
  data : Option D
  queue : List (D → Option D)
  lenCache : Option (Option Nat)

/-- modin/core/execution/dask/implementations/pandas_on_dask/partitioning/partition.py:117-153
    `drain_call_queue` (unidist: 109-143): the queue is submitted as one remote task, and the
    partition then holds its future. -/
def FutPart.drain (p : FutPart D) : FutPart D :=
  if p.queue.length = 0 then p else { p with data := runQueue p.data p.queue, queue := [] }

/-- One method call on an engine with futures.
    modin/core/execution/dask/implementations/pandas_on_dask/partitioning/partition.py:67-115
    (`apply`: the queue and the new function go into one task, the partition itself is not
    changed), 198-213 (`__copy__`), 253-273 (`length`);
    modin/core/dataframe/pandas/partitioning/partition.py:77-98 (`get`). -/
def futStep (len : D → Nat) (s : List (FutPart D)) : POp D → List (FutPart D) × Obs D
  | .add i f n => match s[i]? with
    | none => (s, .noObject)
    | some p => (s ++ [{ data := p.data, queue := p.queue ++ [f], lenCache := n.map some }], .done)
  | .drain i => match s[i]? with
    | none => (s, .noObject)
    | some p => (s.set i p.drain, .done)
  | .read i => match s[i]? with
    | none => (s, .noObject)
    | some p => (s.set i p.drain, match p.drain.data with | some d => .value d | none => .raised)
  | .apply i f => match s[i]? with
    | none => (s, .noObject)
    | some p => (s ++ [{ data := runQueue p.data (p.queue ++ [f]), queue := [], lenCache := none }],
        .done)
  | .copy i => match s[i]? with
    | none => (s, .noObject)
    | some p => (s ++ [p], .done)
  | .length i => match s[i]? with
    | none => (s, .noObject)
    | some p =>
      let c := match p.lenCache with
        | some c => c
        | none => (runQueue p.data p.queue).map len
      (s.set i { p with lenCache := some c }, match c with | some n => .num n | none => .raised)

/-- A history of method calls and what each of them showed. -/
def runOps {S O : Type} (step : S → O → S × Obs D) : S → List O → List (Obs D)
  | _, [] => []
  | s, o :: os => (step s o).2 :: runOps step (step s o).1 os

/-- A store of freshly `put` blocks (`put` records the length:
    pandas_on_python/partitioning/partition.py:140-154, pandas_on_dask/.../partition.py:216-234). -/
def pyInit (len : D → Nat) (ds : List D) : List (PyPart D) :=
  ds.map fun d => { data := d, queue := [], lenCache := some (len d) }

def futInit (len : D → Nat) (ds : List D) : List (FutPart D) :=
  ds.map fun d => { data := some d, queue := [], lenCache := some (some (len d)) }
