import Verif.Model.Labels
import Verif.Pandas.ToCsv
/-
`to_csv` in parallel.
Models modin/core/execution/ray/implementations/pandas_on_ray/io/io.py:144-262 (`_to_csv_check_support`, `to_csv`), the
same functions of modin/core/execution/unidist/implementations/pandas_on_unidist/io/io.py, and `SignalActor`
(modin/core/execution/ray/common/engine_wrapper.py:241-288).
-/

variable {ι κ α β : Type}

/-- Where a worker, the task that writes one row partition, is in its function
    (modin/core/execution/ray/implementations/pandas_on_ray/io/io.py:201-249). -/
inductive CsvPhase where
  /-- submitted, not started -/
  | pending
  /-- making the text of its rows (lines 215-233) -/
  | running
  /-- in `signals.wait` (line 236) -/
  | waiting
  /-- has opened the file (lines 239-248) -/
  | opened
  /-- has written and closed the file (line 249) -/
  | written
  /-- has sent its signal and returned (lines 252-254) -/
  | done
  /-- has raised or died -/
  | failed
deriving DecidableEq, Repr

/-- The file, the events of the `SignalActor`, the workers. -/
structure CsvState (β : Type) where
  file : Option (List β)
  events : List Bool
  phases : List CsvPhase
deriving DecidableEq, Repr

/-- What the workers are given: the text of each row partition (`none`: `df.to_csv` raises), and the mode.  Of the engine:
    how many tasks run at a time, and whether a task that waits counts (`holds`); in Ray it does not. -/
structure CsvJob (β : Type) where
  texts : List (Option (List β))
  mode : OpenMode
  slots : Nat
  holds : Bool

/-- modin/core/execution/ray/implementations/pandas_on_ray/io/io.py:219-223: the mode of worker `i`; only `w` is replaced. -/
def workerMode (mode : OpenMode) (i : Nat) : OpenMode :=
  if i ≠ 0 then (match mode with
    | .w => .a
    | m => m)
  else mode

/-- `get_handle`: what the file is after opening it; `none`: raises. -/
def openFile (mode : OpenMode) (file : Option (List β)) : Option (List β) :=
  match mode, file with
  | .w, _ => some []
  | .a, file => some (file.getD [])
  | .x, none => some []
  | .x, some _ => none

/-- `handle.write`: at the end in mode `a`, else from where the file was opened, which is its beginning. -/
def writeHandle (mode : OpenMode) (content file : List β) : List β :=
  match mode with
  | .a => file ++ content
  | _ => content ++ file.drop content.length

/-- What can happen next, to worker `i`. -/
inductive CsvEvent where
  | start (i : Nat)
  | buffer (i : Nat)
  | enter (i : Nat)
  | write (i : Nat)
  | send (i : Nat)
  /-- the worker dies; if it was about to write, the first `torn` characters have been written -/
  | crash (i torn : Nat)
deriving DecidableEq, Repr

/-- Does a worker take one of the places of the engine? -/
def CsvPhase.busy (holds : Bool) : CsvPhase → Bool
  | .running | .opened | .written => true
  | .waiting => holds
  | _ => false

def CsvState.setPhase (s : CsvState β) (i : Nat) (p : CsvPhase) : CsvState β := { s with phases := s.phases.set i p }

/-- One step; `none`: it cannot happen. -/
def csvStep (job : CsvJob β) (s : CsvState β) : CsvEvent → Option (CsvState β)
  | .start i =>
    -- the engine starts the tasks in any order, when there is a place
    if s.phases[i]? = some .pending ∧ (s.phases.filter (·.busy job.holds)).length < job.slots then
      some (s.setPhase i .running)
    else none
  | .buffer i =>
    -- lines 228-233
    if s.phases[i]? = some .running then
      some (s.setPhase i (match job.texts[i]? with
        | some (some _) => .waiting
        | _ => .failed))
    else none
  | .enter i =>
    -- lines 236-248: goes on when event `i` is set
    if s.phases[i]? = some .waiting ∧ s.events[i]? = some true then
      match openFile (workerMode job.mode i) s.file with
      | some f => some { s with file := some f, phases := s.phases.set i .opened }
      | none => some (s.setPhase i .failed)
    else none
  | .write i =>
    -- line 249
    if s.phases[i]? = some .opened then
      match job.texts[i]?, s.file with
      | some (some t), some f =>
        some { s with file := some (writeHandle (workerMode job.mode i) t f), phases := s.phases.set i .written }
      | _, _ => none
    else none
  | .send i =>
    -- line 252 and `SignalActor.send`: there is no event with a number that is too large
    if s.phases[i]? = some .written then
      if i + 1 < s.events.length then
        some { s with events := s.events.set (i + 1) true, phases := s.phases.set i .done }
      else some (s.setPhase i .failed)
    else none
  | .crash i torn =>
    match s.phases[i]? with
    | some .opened =>
      match job.texts[i]?, s.file with
      | some (some t), some f =>
        some { s with file := some (writeHandle (workerMode job.mode i) (t.take torn) f), phases := s.phases.set i .failed }
      | _, _ => none
    | some .pending | some .running | some .waiting | some .written => some (s.setPhase i .failed)
    | _ => none

/-- A run: `none` if one of the events cannot happen. -/
def csvRun (job : CsvJob β) : CsvState β → List CsvEvent → Option (CsvState β)
  | s, [] => some s
  | s, e :: es => (csvStep job s e).bind fun s' => csvRun job s' es

/-- modin/core/execution/ray/implementations/pandas_on_ray/io/io.py:197-199 and 257: `count` events, of which the first is
    set, and as many tasks as there are row partitions. -/
def csvInit (job : CsvJob β) (count : Nat) (old : Option (List β)) : CsvState β :=
  { file := old, events := (List.replicate count false).set 0 true, phases := job.texts.map fun _ => .pending }

/-- modin/core/execution/ray/implementations/pandas_on_ray/io/io.py:197-272: the job of `to_csv` and the state when the
    tasks are submitted.  The number of events is taken before empty partitions are left out (line 198), the tasks are made
    after (line 259).  `text header df`: `df.to_csv` of pandas; only the first partition is written with a header (225).
    `none`: the labels cannot be written into the blocks, or the blocks of a row do not fit. -/
def LFrame.toCsv [DecidableEq ι] [DecidableEq κ] (text : Bool → Frame ι κ α → Option (List β)) (header : Bool)
    (mode : OpenMode) (slots : Nat) (holds : Bool) (old : Option (List β)) (m : LFrame ι κ α) :
    Option (CsvJob β × CsvState β) :=
  (m.propagate true true).bind fun m1 => (m1.parts.mapM Frame.hcat).map fun bands =>
    let job : CsvJob β :=
      { texts := bands.mapIdx fun i b => text (if i ≠ 0 then false else header) b, mode := mode, slots := slots, holds := holds }
    (job, csvInit job (m.parts.length + 1) old)

/-! ### when it is done in parallel -/

/-- Is `s` somewhere in `l`? (Python's `in`) -/
def isIn (s : List Char) : List Char → Bool
  | [] => s.isEmpty
  | c :: l => s.isPrefixOf (c :: l) || isIn s l

/-- The arguments `_to_csv_check_support` looks at; `path = none`: not a string; `compression = none`: not a string. -/
structure CsvArgs where
  path : Option (List Char)
  mode : List Char
  encoding : Option (List Char)
  compression : Option (List Char)

/-- modin/core/execution/ray/implementations/pandas_on_ray/io/io.py:144-177 `_to_csv_check_support` -/
def csvSupported (k : CsvArgs) : Bool :=
  match k.path with
  | none => false
  | some path =>
    if isIn "r".toList k.mode && isIn "+".toList k.mode then false
    else if (match k.encoding with
      | none => false
      | some e => (isIn "u".toList (e.map Char.toLower) || isIn "utf".toList (e.map Char.toLower)) &&
          (isIn "16".toList (e.map Char.toLower) || isIn "32".toList (e.map Char.toLower))) then false
    else if k.compression ≠ some "infer".toList then false
    else if ([".gz", ".bz2", ".zip", ".xz"].map String.toList).any (·.isSuffixOf path) then false
    else true
