/-
Deferred execution on Ray.  Models modin/core/execution/ray/common/deferred_execution.py and the use made of it in
modin/core/execution/ray/implementations/pandas_on_ray/partitioning/partition.py.

Simplifications.  The generators with an explicit stack (`_deconstruct`, `construct`) are written as recursive functions.
`num_returns` is 1 and the input of a task is not a list: no other use is made in the repository.  Functions do not raise.
Object references and the objects they stand for are not distinguished: Ray materialises the arguments of a task.
Attributes that `_set_result` deletes are kept; nothing reads them afterwards.
-/

/-- The positional arguments of a call: values, deferred nodes, lists of such. -/
inductive Args (V : Type) where
  | nil
  | val (v : V) (rest : Args V)
  | node (i : Nat) (rest : Args V)
  | list (inner rest : Args V)

/-- Arguments as the function receives them. -/
inductive VArgs (V : Type) where
  | nil
  | val (v : V) (rest : VArgs V)
  | list (inner rest : VArgs V)

/-- A deferred node as it is constructed (deferred_execution.py:89-110).  Nodes are numbered in the order of construction. -/
structure Def (V F : Type) where
  data : V ⊕ Nat
  fn : F
  args : Args V
  names : List String
  kwargs : Args V

/-- deferred_execution.py:112-133 `_flat_args`: neither a node nor a list -/
def Args.flat {V : Type} : Args V → Bool
  | .nil => true
  | .val _ rest => rest.flat
  | .node _ _ => false
  | .list _ _ => false

def Args.length {V : Type} : Args V → Nat
  | .nil => 0
  | .val _ rest => rest.length + 1
  | .node _ rest => rest.length + 1
  | .list _ rest => rest.length + 1

/-- how often the node occurs; `_flat_args` subscribes that often -/
def Args.occ {V : Type} (n : Nat) : Args V → Nat
  | .nil => 0
  | .val _ rest => rest.occ n
  | .node i rest => (if i = n then 1 else 0) + rest.occ n
  | .list inner rest => inner.occ n + rest.occ n

/-- how often the constructor of a node subscribes to node `n` -/
def Def.occ {V F : Type} (n : Nat) (d : Def V F) : Nat :=
  (match d.data with
  | .inl _ => 0
  | .inr i => if i = n then 1 else 0) + d.args.occ n + d.kwargs.occ n

/-- An element of the flat list sent to the worker. -/
inductive WTok (V F : Type) where
  | obj (v : V)
  | fn (f : F)
  | num (i : Int)
  | name (s : String)
  | chain
  | ref
  | list
  | done

/-! ### the flat list: `_deconstruct` -/

/-- `output`, the counters `subscribers`, the attributes `out_pos` and `result_consumers` -/
structure Enc (V F : Type) where
  out : List (WTok V F)
  subs : Nat → Nat
  pos : Nat → Option Nat
  cons : List Nat

variable {V F : Type}

def Enc.emit (e : Enc V F) (t : WTok V F) : Enc V F := { e with out := e.out ++ [t] }

/-- deferred_execution.py:209-212 `unsubscribe`: `none` when the assertion fails -/
def Enc.unsubscribe (e : Enc V F) (i : Nat) : Option (Enc V F) :=
  if e.subs i = 0 then none else some { e with subs := fun n => if n = i then e.subs i - 1 else e.subs n }

/-- deferred_execution.py:306-318 and 399-404: a reference to a node that is in the list already, at `p` -/
def Enc.refer (e : Enc V F) (i p : Nat) : Enc V F :=
  let e := (e.emit .ref).emit (.num p)
  let e := { e with out := e.out.set p (.num p) }
  if e.subs i = 0 then { e with out := e.out.set (p + 1) (.num 0), cons := e.cons.erase i } else e

/-- deferred_execution.py:366-416 `_deconstruct_list`; `rec` is `_deconstruct_chain` -/
def encArgs (res : Nat → Option V) (rec : Nat → Enc V F → Option (Enc V F)) : Args V → Enc V F → Option (Enc V F)
  | .nil, e => some (e.emit .done)
  | .val v rest, e => encArgs res rec rest (e.emit (.obj v))
  | .node i rest, e =>
    match e.pos i with
    | some p =>
      match e.unsubscribe i with
      | none => none
      | some e =>
        match res i with
        | some v => encArgs res rec rest (e.emit (.obj v))
        | none => encArgs res rec rest (e.refer i p)
    | none =>
      match rec i (e.emit .chain) with
      | none => none
      | some e => encArgs res rec rest (e.emit .done)
  | .list inner rest, e =>
    match encArgs res rec inner (e.emit .list) with
    | none => none
    | some e => encArgs res rec rest e

/-- `out_extend(args)` of flat arguments -/
def flatToks : Args V → List (WTok V F)
  | .val v rest => .obj v :: flatToks rest
  | _ => []

/-- deferred_execution.py:347-349: names and values in turn -/
def pairToks : List String → Args V → List (WTok V F)
  | s :: names, .val v rest => .name s :: .obj v :: pairToks names rest
  | _, _ => []

/-- deferred_execution.py:338-345: the positional arguments -/
def encPositional (res : Nat → Option V) (rec : Nat → Enc V F → Option (Enc V F)) (a : Args V) (e : Enc V F) : Option (Enc V F) :=
  if a.flat then
    let e := e.emit (.num a.length)
    some { e with out := e.out ++ flatToks a }
  else encArgs res rec a (e.emit (.num (-1)))

/-- deferred_execution.py:346-355: the keyword arguments -/
def encKeyword (res : Nat → Option V) (rec : Nat → Enc V F → Option (Enc V F)) (names : List String) (a : Args V) (e : Enc V F) : Option (Enc V F) :=
  if a.flat then
    let e := e.emit (.num names.length)
    some { e with out := e.out ++ pairToks names a }
  else
    match encArgs res rec a (e.emit (.num (-1))) with
    | none => none
    | some e => some { e with out := e.out ++ names.map .name }

/-- deferred_execution.py:357-364: the place for the reference id and the number of returned values -/
def Enc.finish (e : Enc V F) (i : Nat) : Enc V F :=
  let e := e.emit (.num 0)
  if 0 < e.subs i then
    { e with pos := fun n => if n = i then some (e.out.length - 1) else e.pos n, cons := e.cons ++ [i], out := e.out ++ [.num 1] }
  else e.emit (.num 0)

/-- deferred_execution.py:333-364: one call -/
def encCall (res : Nat → Option V) (rec : Nat → Enc V F → Option (Enc V F)) (i : Nat) (d : Def V F) (e : Enc V F) : Option (Enc V F) :=
  match encPositional res rec d.args (e.emit (.fn d.fn)) with
  | none => none
  | some e =>
    match encKeyword res rec d.names d.kwargs e with
    | none => none
    | some e => some (e.finish i)

/-- deferred_execution.py:275-364 `_deconstruct_chain`: the inputs first, then the calls from the innermost outwards -/
def encChain (defs : List (Def V F)) (res : Nat → Option V) : Nat → Nat → Enc V F → Option (Enc V F)
  | 0, _, _ => none
  | fuel + 1, i, e =>
    match e.unsubscribe i with
    | none => none
    | some e =>
      match res i with
      | some v => some (e.emit (.obj v))
      | none =>
        match e.pos i with
        | some p => some (e.refer i p)
        | none =>
          match defs[i]? with
          | none => none
          | some d =>
            match d.data with
            | .inl v => encCall res (encChain defs res fuel) i d (e.emit (.obj v))
            | .inr j =>
              match encChain defs res fuel j e with
              | none => none
              | some e => encCall res (encChain defs res fuel) i d e

/-! ### the worker: `construct` -/

/-- one call of a user function -/
structure Call (V F : Type) where
  fn : F
  obj : V
  args : VArgs V
  names : List String
  kwargs : VArgs V

/-- `chain`, `refs`, the yielded results, and the calls made -/
structure Dec (V F : Type) where
  toks : List (WTok V F)
  refs : List (Nat × V) := []
  out : List V := []
  log : List (Call V F) := []

/-- deferred_execution.py:696-702: the next `n` objects as arguments -/
def popObjs : Nat → List (WTok V F) → Option (VArgs V × List (WTok V F))
  | 0, ts => some (.nil, ts)
  | n + 1, .obj v :: ts => (popObjs n ts).map fun r => (.val v r.1, r.2)
  | _, _ => none

/-- deferred_execution.py:707 -/
def popPairs : Nat → List (WTok V F) → Option (List String × VArgs V × List (WTok V F))
  | 0, ts => some ([], .nil, ts)
  | n + 1, .name s :: .obj v :: ts => (popPairs n ts).map fun r => (s :: r.1, .val v r.2.1, r.2.2)
  | _, _ => none

def VArgs.length : VArgs V → Nat
  | .nil => 0
  | .val _ rest => rest.length + 1
  | .list _ rest => rest.length + 1

/-- deferred_execution.py:711: one name for each value -/
def popNames : Nat → List (WTok V F) → Option (List String × List (WTok V F))
  | 0, ts => some ([], ts)
  | n + 1, .name s :: ts => (popNames n ts).map fun r => (s :: r.1, r.2)
  | _, _ => none

/-- deferred_execution.py:696-705 -/
def decPositional (list : Dec V F → Option (VArgs V × Dec V F)) (st : Dec V F) : Option (VArgs V × Dec V F) :=
  match st.toks with
  | .num n :: ts =>
    if 0 ≤ n then (popObjs n.toNat ts).map fun r => (r.1, { st with toks := r.2 })
    else list { st with toks := ts }
  | _ => none

/-- deferred_execution.py:706-711 -/
def decKeyword (list : Dec V F → Option (VArgs V × Dec V F)) (st : Dec V F) : Option (List String × VArgs V × Dec V F) :=
  match st.toks with
  | .num n :: ts =>
    if 0 ≤ n then (popPairs n.toNat ts).map fun r => (r.1, r.2.1, { st with toks := r.2.2 })
    else
      match list { st with toks := ts } with
      | none => none
      | some (vals, st) => (popNames vals.length st.toks).map fun r => (r.1, vals, { st with toks := r.2 })
  | _ => none

/-- deferred_execution.py:715-725: save the result under the reference id, return it if asked -/
def decStore (obj : V) (st : Dec V F) : Option (Dec V F) :=
  match st.toks with
  | .num r :: .num n :: ts =>
    some { st with toks := ts, refs := if r ≠ 0 then (r.toNat, obj) :: st.refs else st.refs,
                   out := if n = 0 then st.out else st.out ++ [obj] }
  | _ => none

mutual

/-- deferred_execution.py:727-767 `construct_list` -/
def decList (app : F → V → VArgs V → List String → VArgs V → V) : Nat → Dec V F → Option (VArgs V × Dec V F)
  | 0, _ => none
  | fuel + 1, st =>
    match st.toks with
    | .done :: ts => some (.nil, { st with toks := ts })
    | .chain :: ts =>
      match decChain app fuel { st with toks := ts } with
      | none => none
      | some (v, st) => (decList app fuel st).map fun r => (.val v r.1, r.2)
    | .list :: ts =>
      match decList app fuel { st with toks := ts } with
      | none => none
      | some (l, st) => (decList app fuel st).map fun r => (.list l r.1, r.2)
    | .ref :: .num p :: ts =>
      match st.refs.lookup p.toNat with
      | none => none
      | some v => (decList app fuel { st with toks := ts }).map fun r => (.val v r.1, r.2)
    | .obj v :: ts => (decList app fuel { st with toks := ts }).map fun r => (.val v r.1, r.2)
    | _ => none

/-- deferred_execution.py:683-688: the input of the chain -/
def decChain (app : F → V → VArgs V → List String → VArgs V → V) : Nat → Dec V F → Option (V × Dec V F)
  | 0, _ => none
  | fuel + 1, st =>
    match st.toks with
    | .ref :: .num p :: ts =>
      match st.refs.lookup p.toNat with
      | none => none
      | some v => decLoop app fuel v { st with toks := ts }
    | .obj v :: ts => decLoop app fuel v { st with toks := ts }
    | _ => none

/-- deferred_execution.py:690-725: the calls of the chain, to its end -/
def decLoop (app : F → V → VArgs V → List String → VArgs V → V) : Nat → V → Dec V F → Option (V × Dec V F)
  | 0, _, _ => none
  | fuel + 1, obj, st =>
    match st.toks with
    | [] => some (obj, st)
    | .done :: ts => some (obj, { st with toks := ts })
    | .fn f :: ts =>
      match decPositional (decList app fuel) { st with toks := ts } with
      | none => none
      | some (args, st) =>
        match decKeyword (decList app fuel) st with
        | none => none
        | some (names, kwargs, st) =>
          match decStore (app f obj args names kwargs) { st with log := st.log ++ [⟨f, obj, args, names, kwargs⟩] } with
          | none => none
          | some st => decLoop app fuel (app f obj args names kwargs) st
    | _ => none

end

/-! ### the tasks and the partitions that hold them -/

/-- All nodes constructed so far, their results (`data` and the two entries of `meta` at `meta_offset`, once set), counters and
    `out_pos`; `held n` is the number of partitions with `_data_ref` node `n`; the calls made on workers. -/
structure Tasks (V F : Type) where
  defs : List (Def V F) := []
  res : Nat → Option V := fun _ => none
  shape : Nat → Option (Nat × Nat) := fun _ => none
  subs : Nat → Nat := fun _ => 0
  pos : Nat → Option Nat := fun _ => none
  held : Nat → Nat := fun _ => 0
  log : List (Call V F) := []

def Args.values (val : Nat → V) : Args V → VArgs V
  | .nil => .nil
  | .val v rest => .val v (rest.values val)
  | .node i rest => .val (val i) (rest.values val)
  | .list inner rest => .list (inner.values val) (rest.values val)

/-- the arguments of a call without nodes and lists -/
def Args.plain : Args V → VArgs V
  | .val v rest => .val v rest.plain
  | _ => .nil

/-- deferred_execution.py:166-182: results and their lengths, in the order of the consumers -/
def setResults (sizes : List Nat) : Nat → List Nat → List V → Tasks V F → Option (Tasks V F)
  | _, [], _, t => some t
  | _, _ :: _, [], _ => none
  | offset, n :: cons, v :: results, t =>
    match sizes[offset]?, sizes[offset + 1]? with
    | some l, some w =>
      setResults sizes (offset + 2) cons results
        { t with res := fun m => if m = n then some v else t.res m, shape := fun m => if m = n then some (l, w) else t.shape m }
    | _, _ => none

/-- deferred_execution.py:135-183 `exec`: `none` when an assertion fails or the worker cannot read the list.  `size` is the
    length and the width of an object.  Every recursive call of the worker takes an element from the list, so that the fuel
    suffices (the theorems show that it does). -/
def Tasks.exec (app : F → V → VArgs V → List String → VArgs V → V) (size : V → Nat × Nat) (t : Tasks V F) (i : Nat) : Option (Tasks V F) :=
  match t.res i with
  | some _ => some t
  | none =>
    match t.defs[i]? with
    | none => none
    | some d =>
      match (match d.data with
        | .inl v => if d.args.flat && d.kwargs.flat then some v else none
        | .inr _ => none) with
      | some v =>
        let r := app d.fn v d.args.plain d.names d.kwargs.plain
        some { t with res := fun m => if m = i then some r else t.res m, shape := fun m => if m = i then some (size r) else t.shape m,
                      log := t.log ++ [⟨d.fn, v, d.args.plain, d.names, d.kwargs.plain⟩] }
      | none =>
        let e : Enc V F :=
          { out := [], subs := fun n => if n = i then t.subs i + 2 else t.subs n, pos := t.pos, cons := [] }
        match encChain t.defs t.res (i + 1) i e with
        | none => none
        | some e =>
          match decChain app (e.out.length + 1) { toks := e.out } with
          | none => none
          | some (_, st) =>
            setResults (st.out.flatMap fun v => [(size v).1, (size v).2]) 0 e.cons st.out
              { t with subs := e.subs, pos := e.pos, log := t.log ++ st.log }

/-- deferred_execution.py:89-110 `__init__` (and partition.py:68-70 when a partition is to hold the node) -/
def Tasks.construct (t : Tasks V F) (d : Def V F) (hold : Bool) : Tasks V F :=
  { t with defs := t.defs ++ [d]
           subs := fun n => t.subs n + d.occ n + (if n = t.defs.length ∧ hold then 1 else 0)
           held := fun n => t.held n + (if n = t.defs.length ∧ hold then 1 else 0) }

/-- The calls on partitions.  Nodes are named by their number. -/
inductive TaskOp (V F : Type) where
  /-- partition.py:131-143 `add_to_apply_calls` -/
  | defer (d : Def V F)
  /-- partition.py:100-128 `apply` -/
  | apply (d : Def V F)
  /-- partition.py:164-177 `__copy__` of a partition that holds `n` -/
  | copy (n : Nat)
  /-- partition.py:93-97 `__del__` of a partition that holds `n` -/
  | delete (n : Nat)
  /-- partition.py:145-158 `drain_call_queue` of a partition that holds `n` -/
  | drain (n : Nat)

/-- nodes in `args` -/
def Args.nodes : Args V → List Nat
  | .nil => []
  | .val _ rest => rest.nodes
  | .node i rest => i :: rest.nodes
  | .list inner rest => inner.nodes ++ rest.nodes

def Def.nodes (d : Def V F) : List Nat :=
  (match d.data with
  | .inl _ => []
  | .inr i => [i]) ++ d.args.nodes ++ d.kwargs.nodes

/-- what a caller can do: name nodes that some partition holds, give as many keyword names as values -/
def TaskOp.possible (t : Tasks V F) : TaskOp V F → Prop
  | .defer d => (∀ n ∈ d.nodes, 0 < t.held n) ∧ d.names.length = d.kwargs.length
  | .apply d => (∀ n ∈ d.nodes, 0 < t.held n) ∧ d.names.length = d.kwargs.length
  | .copy n => 0 < t.held n
  | .delete n => 0 < t.held n
  | .drain n => 0 < t.held n

/-- one call; `none` when it raises -/
def Tasks.step (app : F → V → VArgs V → List String → VArgs V → V) (size : V → Nat × Nat) (t : Tasks V F) : TaskOp V F → Option (Tasks V F)
  | .defer d => some (t.construct d true)
  | .apply d => (t.construct d false).exec app size t.defs.length
  | .copy n => some { t with subs := fun m => if m = n then t.subs n + 1 else t.subs m, held := fun m => if m = n then t.held n + 1 else t.held m }
  | .delete n =>
    if t.subs n = 0 then none
    else some { t with subs := fun m => if m = n then t.subs n - 1 else t.subs m, held := fun m => if m = n then t.held n - 1 else t.held m }
  | .drain n => (t.exec app size n).map fun t => { t with held := fun m => if m = n then t.held n - 1 else t.held m }
