/-
Configuration parameters.  Models modin/config/pubsub.py (`Parameter`, `context`) and the subclasses in
modin/config/envvars.py.

A callback is modelled by the event it causes: it reads the parameter and records the value it sees.  Callbacks that set
parameters or raise are not modelled.  Deprecation warnings are not modelled.
-/

variable {V : Type} [DecidableEq V]

/-- What distinguishes one parameter from another. -/
structure Kind (V : Type) where
  /-- the check a subclass makes in `put` (modin/config/envvars.py, e.g. 995-1006, 1112-1123) -/
  putOk : V → Bool
  /-- `TypeDescriptor.verify` (modin/config/pubsub.py:122-177) -/
  verify : V → Bool
  /-- `TypeDescriptor.normalize` -/
  normalize : V → V
  /-- the check a subclass makes in `get` (e.g. modin/config/envvars.py:803-815, 872-883) -/
  getOk : V → Bool
  /-- `_get_value_from_config`: `none` when it raises, `some none` when the variable is not set -/
  config : Option (Option V)
  /-- `_get_default` -/
  default : V

/-- modin/config/pubsub.py:184-192 -/
inductive Source where
  | default
  | user
  | config
deriving DecidableEq

/-- The class attributes of a parameter and the events caused by its callbacks: who read which value. -/
structure Param (V : Type) where
  value : Option V := none
  source : Option Source := none
  subs : List Nat := []
  once : List (V × Nat) := []
  log : List (Nat × V) := []

/-- modin/config/pubsub.py:328-348 `get` (and the overriding checks); `none` when it raises -/
def Param.get (k : Kind V) (p : Param V) : Option V × Param V :=
  let q : Option (Param V) :=
    match p.value with
    | some _ => some p
    | none =>
      match k.config with
      | none => none
      | some none => some { p with value := some k.default, source := some .default }
      | some (some v) => some { p with value := some v, source := some .config }
  match q with
  | none => (none, p)
  | some q => (q.value.filter k.getOk, q)

/-- run callback `id`: it reads the parameter -/
def Param.call (k : Kind V) (p : Param V) (id : Nat) : Param V :=
  match p.get k with
  | (some v, q) => { q with log := q.log ++ [(id, v)] }
  | (none, q) => q

/-- modin/config/pubsub.py:423-438 `_check_callbacks`: `false` when it raises -/
def Param.checkCallbacks (k : Kind V) (p : Param V) (old : V) : Bool × Param V :=
  match p.get k with
  | (none, q) => (false, q)
  | (some v, q) =>
    if old = v then (true, q)
    else
      let q1 := q.subs.foldl (Param.call k) q
      let due := (q1.once.filter fun e => e.1 = v).map (·.2)
      (true, due.foldl (Param.call k) { q1 with once := q1.once.filter fun e => !decide (e.1 = v) })

/-- modin/config/pubsub.py:350-362, 402-421 `put` and `_put_nocallback`: `false` when it raises -/
def Param.put (k : Kind V) (p : Param V) (raw : V) : Bool × Param V :=
  if !k.putOk raw then (false, p)
  else if !k.verify raw then (false, p)
  else
    match p.get k with
    | (none, q) => (false, q)
    | (some old, q) =>
      match { q with value := some (k.normalize raw) }.checkCallbacks k old with
      | (false, r) => (false, r)
      | (true, r) => (true, { r with source := some .user })

/-- modin/config/pubsub.py:287-298 `subscribe` -/
def Param.subscribe (k : Kind V) (p : Param V) (id : Nat) : Param V :=
  { p with subs := p.subs ++ [id] }.call k id

/-- modin/config/pubsub.py:381-400 `once` -/
def Param.addOnce (k : Kind V) (p : Param V) (raw : V) (id : Nat) : Bool × Param V :=
  match p.get k with
  | (none, q) => (false, q)
  | (some v, q) =>
    if k.normalize raw = v then (true, q.call k id) else (true, { q with once := q.once ++ [(k.normalize raw, id)] })

/-- one call by a user -/
inductive ParamOp (V : Type) where
  | put (raw : V)
  | get
  | subscribe (id : Nat)
  | once (raw : V) (id : Nat)

def Param.step (k : Kind V) (p : Param V) : ParamOp V → Param V
  | .put raw => (p.put k raw).2
  | .get => (p.get k).2
  | .subscribe id => p.subscribe k id
  | .once raw id => (p.addOnce k raw id).2

def Param.run (k : Kind V) (p : Param V) (ops : List (ParamOp V)) : Param V := ops.foldl (Param.step k) p

/-! ### `context` -/

/-- all parameters, by number -/
abbrev Store (V : Type) := Nat → Param V

def Store.set (s : Store V) (n : Nat) (p : Param V) : Store V := fun m => if m = n then p else s m

/-- modin/config/pubsub.py:497-502: entering; the values on entry, or `none` when a `get` or a `put` raises -/
def Store.enter (ks : Nat → Kind V) : Store V → List (Nat × V) → Option (List (Nat × V)) × Store V
  | s, [] => (some [], s)
  | s, (n, v) :: rest =>
    match (s n).get (ks n) with
    | (none, p) => (none, s.set n p)
    | (some old, p) =>
      match p.put (ks n) v with
      | (false, q) => (none, s.set n q)
      | (true, q) =>
        match Store.enter ks (s.set n q) rest with
        | (none, t) => (none, t)
        | (some olds, t) => (some ((n, old) :: olds), t)

/-- modin/config/pubsub.py:505-507: leaving; `false` when a `put` raises -/
def Store.leave (ks : Nat → Kind V) : Store V → List (Nat × V) → Bool × Store V
  | s, [] => (true, s)
  | s, (n, old) :: rest =>
    match (s n).put (ks n) old with
    | (false, q) => (false, s.set n q)
    | (true, q) => Store.leave ks (s.set n q) rest

/-- A program: calls on parameters, `with context(...)` blocks, exceptions. -/
inductive Prog (V : Type) where
  | done
  | raise
  | op (n : Nat) (o : ParamOp V) (rest : Prog V)
  | block (config : List (Nat × V)) (body : Prog V) (rest : Prog V)

/-- Run a program; the flag says that it ended without an exception.  A call on a parameter that raises is caught by the
    program, so that all continuations are covered. -/
def Prog.exec (ks : Nat → Kind V) : Prog V → Store V → Bool × Store V
  | .done, s => (true, s)
  | .raise, s => (false, s)
  | .op n o rest, s => rest.exec ks (s.set n ((s n).step (ks n) o))
  | .block config body rest, s =>
    match s.enter ks config with
    | (none, t) => (false, t)
    | (some olds, t) =>
      let r := body.exec ks t
      let l := r.2.leave ks olds
      if r.1 && l.1 then rest.exec ks l.2 else (false, l.2)

/-! ### the registry of backends -/

/-- `Execution(storage_format, engine)` (modin/config/envvars.py:398); names are normalised strings -/
abbrev Exec (S : Type) := S × S

/-- modin/config/envvars.py:417-420 -/
structure Registry (S : Type) where
  toExec : List (S × Exec S) := []
  toBackend : List (Exec S × S) := []
  choices : List S := []

/-- modin/config/pubsub.py:440-462 `add_option` -/
def Registry.addOption {S : Type} [DecidableEq S] (g : Registry S) (name : S) : Registry S :=
  if name ∈ g.choices then g else { g with choices := g.choices ++ [name] }

/-- modin/config/envvars.py:449-473 `register_backend` (for a normalised name): `false` when it raises -/
def Registry.register {S : Type} [DecidableEq S] (g : Registry S) (name : S) (e : Exec S) : Bool × Registry S :=
  let g := g.addOption name
  if (g.toExec.lookup name).isSome then (false, g)
  else if (g.toBackend.lookup e).isSome then (false, g)
  else (true, { g with toExec := g.toExec ++ [(name, e)], toBackend := g.toBackend ++ [(e, name)] })

/-- modin/config/envvars.py:493-517 `set_active_backends` -/
def Registry.setActive {S : Type} [DecidableEq S] (g : Registry S) (names : List S) : Bool × Registry S :=
  if names.all fun n => (g.toExec.lookup n).isSome then (true, { g with choices := names }) else (false, g)

/-- modin/config/envvars.py:519-538 `activate` -/
def Registry.activate {S : Type} [DecidableEq S] (g : Registry S) (name : S) : Bool × Registry S :=
  if (g.toExec.lookup name).isSome then (true, { g with choices := g.choices ++ [name] }) else (false, g)

/-- modin/config/envvars.py:552-572 `get_backend_for_execution` -/
def Registry.backendFor {S : Type} [DecidableEq S] (g : Registry S) (e : Exec S) : Option S := g.toBackend.lookup e

/-- modin/config/envvars.py:574-611 `get_execution_for_backend` -/
def Registry.executionFor {S : Type} [DecidableEq S] (g : Registry S) (name : S) : Option (Exec S) :=
  if name ∈ g.choices then g.toExec.lookup name else none

inductive RegOp (S : Type) where
  | register (name : S) (e : Exec S)
  | activate (name : S)
  | setActive (names : List S)

def Registry.step {S : Type} [DecidableEq S] (g : Registry S) : RegOp S → Registry S
  | .register name e => (g.register name e).2
  | .activate name => (g.activate name).2
  | .setActive names => (g.setActive names).2

def Registry.run {S : Type} [DecidableEq S] (g : Registry S) (ops : List (RegOp S)) : Registry S := ops.foldl Registry.step g

/-! ### parameters that are spellings of each other -/

/-- modin/config/envvars.py:94-145 `EnvWithSibilings.get` of `a` with sibling `b`.  The base class `get` is `Param.get`. -/
def siblingGet (ka kb : Kind V) (a b : Param V) : Option V × Param V × Param V :=
  if a.value = none ∧ b.value = none then
    match a.get ka with
    | (none, a) => (none, a, b)
    | (some _, a) =>
      match b.get kb with
      | (none, b) => (none, a, b)
      | (some _, b) =>
        if a.source = some .config ∧ b.source = some .config then (none, a, b)
        else if a.source = some .config then
          let r := a.get ka
          (r.1, r.2, { b with value := a.value, source := some .config })
        else if b.source = some .config then
          let a := { a with value := b.value, source := some .config }
          let r := a.get ka
          (r.1, r.2, b)
        else
          let r := a.get ka
          (r.1, r.2, { b with value := a.value })
  else
    let r := a.get ka
    (r.1, r.2, b)

/-- `Parameter.put` of `a` when its `get` is `siblingGet` (callbacks left out): `false` when it raises -/
def siblingPutOne (ka kb : Kind V) (raw : V) (a b : Param V) : Bool × Param V × Param V :=
  if !ka.verify raw then (false, a, b)
  else
    match siblingGet ka kb a b with
    | (none, a, b) => (false, a, b)
    | (some _, a, b) => (true, { a with value := some (ka.normalize raw), source := some .user }, b)

/-- modin/config/envvars.py:147-166 `EnvWithSibilings.put` of `a`: the sibling's `put` sets `a` once more, because the flag
    against recursion is an attribute of each of the two classes. -/
def siblingPut (ka kb : Kind V) (raw : V) (a b : Param V) : Bool × Param V × Param V :=
  match siblingPutOne ka kb raw a b with
  | (false, a, b) => (false, a, b)
  | (true, a, b) =>
    match siblingPutOne kb ka raw b a with
    | (false, b, a) => (false, a, b)
    | (true, b, a) => siblingPutOne ka kb raw a b

/-- a call on the first (`true`) or the second spelling -/
inductive SiblingOp (V : Type) where
  | get (first : Bool)
  | put (first : Bool) (raw : V)

def siblingStep (ka kb : Kind V) (s : Param V × Param V) : SiblingOp V → Param V × Param V
  | .get true => (siblingGet ka kb s.1 s.2).2
  | .get false => let r := (siblingGet kb ka s.2 s.1).2; (r.2, r.1)
  | .put true raw => (siblingPut ka kb raw s.1 s.2).2
  | .put false raw => let r := (siblingPut kb ka raw s.2 s.1).2; (r.2, r.1)

/-! ### backend, engine and storage format -/

/-- The values of MODIN_ENGINE, MODIN_STORAGE_FORMAT, MODIN_BACKEND (decoded) and the defaults of the first two
    (`_get_default`; the import checks of `Engine._get_default` are not modelled). -/
structure ExecEnv (S : Type) where
  engine : Option S
  format : Option S
  backend : Option S
  defaultEngine : S
  defaultFormat : S

/-- modin/config/envvars.py:176-187: backend and execution must not both be given by the environment -/
def ExecEnv.conflict {S : Type} (v : ExecEnv S) : Bool := v.backend.isSome && (v.engine.isSome || v.format.isSome)

/-- `_value` of the three parameters, and the registry -/
structure ExecState (S : Type) where
  registry : Registry S
  engine : Option S := none
  format : Option S := none
  backend : Option S := none

/-- modin/config/envvars.py:315-331: the first value of the engine -/
def ExecEnv.initialEngine {S : Type} [DecidableEq S] (v : ExecEnv S) (g : Registry S) : Option S :=
  match v.engine, v.backend with
  | some e, _ => some e
  | none, some b => (g.executionFor b).map (·.2)
  | none, none => some v.defaultEngine

/-- modin/config/envvars.py:374-390: the first value of the storage format -/
def ExecEnv.initialFormat {S : Type} [DecidableEq S] (v : ExecEnv S) (g : Registry S) : Option S :=
  match v.format, v.backend with
  | some f, _ => some f
  | none, some b => (g.executionFor b).map (·.1)
  | none, none => some v.defaultFormat

/-- modin/config/envvars.py:297-332 `Engine.get` -/
def ExecState.getEngine {S : Type} [DecidableEq S] (v : ExecEnv S) (st : ExecState S) : Option S × ExecState S :=
  match st.engine with
  | some e => (some e, st)
  | none =>
    if v.conflict then (none, st)
    else
      match v.initialEngine st.registry with
      | none => (none, st)
      | some e => (some e, { st with engine := some e })

/-- modin/config/envvars.py:356-391 `StorageFormat.get` -/
def ExecState.getFormat {S : Type} [DecidableEq S] (v : ExecEnv S) (st : ExecState S) : Option S × ExecState S :=
  match st.format with
  | some f => (some f, st)
  | none =>
    if v.conflict then (none, st)
    else
      match v.initialFormat st.registry with
      | none => (none, st)
      | some f => (some f, { st with format := some f })

/-- modin/config/envvars.py:612-644 `Backend.get` -/
def ExecState.getBackend {S : Type} [DecidableEq S] (v : ExecEnv S) (st : ExecState S) : Option S × ExecState S :=
  match st.backend with
  | some b => (some b, st)
  | none =>
    if v.conflict then (none, st)
    else
      match v.backend with
      | some b => (some b, { st with backend := some b })
      | none =>
        match st.getFormat v with
        | (none, st) => (none, st)
        | (some f, st) =>
          match st.getEngine v with
          | (none, st) => (none, st)
          | (some e, st) =>
            match st.registry.backendFor (f, e) with
            | none => (none, st)
            | some b => (some b, { st with backend := some b })

/-- modin/__init__.py:37-66 `set_execution` (without callbacks): `false` when it raises -/
def ExecState.setExecution {S : Type} [DecidableEq S] (v : ExecEnv S) (st : ExecState S) (x : Exec S) : Bool × ExecState S :=
  match st.getEngine v with
  | (none, st) => (false, st)
  | (some _, st) =>
    match { st with engine := some x.2 }.getFormat v with
    | (none, st) => (false, st)
    | (some _, st) =>
      match { st with format := some x.1 }.getBackend v with
      | (none, st) => (false, st)
      | (some _, st) =>
        match st.registry.backendFor x with
        | none => (false, st)
        | some b => (true, { st with backend := some b })

/-- modin/config/envvars.py:422-433 `Backend.put` -/
def ExecState.putBackend {S : Type} [DecidableEq S] (v : ExecEnv S) (st : ExecState S) (b : S) : Bool × ExecState S :=
  match st.registry.executionFor b with
  | none => (false, st)
  | some x => st.setExecution v x

/-- modin/config/envvars.py:279-295 `Engine.put` -/
def ExecState.putEngine {S : Type} [DecidableEq S] (v : ExecEnv S) (st : ExecState S) (e : S) : Bool × ExecState S :=
  match st.getFormat v with
  | (none, st) => (false, st)
  | (some f, st) =>
    match st.registry.backendFor (f, e) with
    | none => (false, st)
    | some b => st.putBackend v b

/-- modin/config/envvars.py:338-354 `StorageFormat.put` -/
def ExecState.putFormat {S : Type} [DecidableEq S] (v : ExecEnv S) (st : ExecState S) (f : S) : Bool × ExecState S :=
  match st.getEngine v with
  | (none, st) => (false, st)
  | (some e, st) =>
    match st.registry.backendFor (f, e) with
    | none => (false, st)
    | some b => st.putBackend v b

inductive ExecOp (S : Type) where
  | getEngine | getFormat | getBackend
  | putEngine (e : S) | putFormat (f : S) | putBackend (b : S)
  | registry (o : RegOp S)

def ExecState.step {S : Type} [DecidableEq S] (v : ExecEnv S) (st : ExecState S) : ExecOp S → ExecState S
  | .getEngine => (st.getEngine v).2
  | .getFormat => (st.getFormat v).2
  | .getBackend => (st.getBackend v).2
  | .putEngine e => (st.putEngine v e).2
  | .putFormat f => (st.putFormat v f).2
  | .putBackend b => (st.putBackend v b).2
  | .registry o => { st with registry := st.registry.step o }

def ExecState.run {S : Type} [DecidableEq S] (v : ExecEnv S) (st : ExecState S) (ops : List (ExecOp S)) : ExecState S :=
  ops.foldl (ExecState.step v) st

/-! ### some of the parameters -/

/-- the Python values given to parameters here -/
inductive PyV where
  | none
  | bool (b : Bool)
  | int (i : Int)
  | str (s : String)
deriving DecidableEq

/-- `verify` of `int` (modin/config/pubsub.py:149-150); `bool` is a subclass of `int`; `strip` is left out -/
def verifyInt : PyV → Bool
  | .none => false
  | .bool _ => true
  | .int _ => true
  | .str s => s.isNat

/-- `int(value)` (modin/config/pubsub.py:148) -/
def normalizeInt : PyV → PyV
  | .bool b => .int b.toNat
  | .str s => .int ((s.toNat?).getD 0)
  | v => v

/-- `value <= 0` is refused -/
def positive : PyV → Bool
  | .int i => 0 < i
  | .bool b => b
  | _ => false

/-- modin/config/envvars.py:837-883 `NPartitions` (and `CpuCount`, 767-815): the check is in `get`, not in `put` -/
def npartitions (config : Option PyV) (cpus : Int) : Kind PyV :=
  { putOk := fun _ => true, verify := verifyInt, normalize := normalizeInt, getOk := positive, config := some config, default := .int cpus }

/-- modin/config/envvars.py:1149-1190 `MinRowPartitionSize` (and `MinColumnPartitionSize`): `put` refuses `value <= 0` (a
    comparison that raises for a string), and `get` checks again -/
def minSize (config : Option PyV) (default : Int) : Kind PyV :=
  { putOk := positive, verify := verifyInt, normalize := normalizeInt, getOk := positive, config := some config, default := .int default }

/-- modin/config/envvars.py:818-834 `GpuCount`, `Memory`: no default value -/
def gpuCount (config : Option PyV) : Kind PyV :=
  { putOk := fun _ => true, verify := verifyInt, normalize := normalizeInt, getOk := fun _ => true, config := some config, default := .none }

/-- modin/config/pubsub.py:136-144 `bool` parameters: what `verify` admits -/
def verifyBool : PyV → Bool
  | .bool _ => true
  | .str s => ["true", "yes", "1", "false", "no", "0"].contains s
  | _ => false

/-- `bool(value)`: a string is true unless it is empty -/
def normalizeBool : PyV → PyV
  | .bool b => .bool b
  | .str s => .bool (s ≠ "")
  | .int i => .bool (i ≠ 0)
  | .none => .bool false

/-- modin/config/pubsub.py:137 `decode`: what the environment variable means -/
def decodeBool (s : String) : PyV := .bool (["true", "yes", "1"].contains s)

/-- a `bool` parameter; the environment variable, if set, is decoded by `decodeBool` -/
def boolParameter (env : Option String) (default : Bool) : Kind PyV :=
  { putOk := fun _ => true, verify := verifyBool, normalize := normalizeBool, getOk := fun _ => true,
    config := some (env.map decodeBool), default := .bool default }
