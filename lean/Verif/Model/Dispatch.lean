/-
Operations on objects of several backends.
Models modin/core/storage_formats/base/query_compiler_calculator.py, the cost functions of
modin/core/storage_formats/base/query_compiler.py, and `visit_nested_args`, `_maybe_switch_backend_pre_op`,
`_maybe_switch_backend_post_op`, `_get_backend_for_auto_switch`, `_get_extension_for_method` and
`wrap_function_in_argument_caster` of modin/core/storage_formats/pandas/query_compiler_caster.py.
-/

variable {β δ : Type}

/-! ### costs -/

/-- modin/core/storage_formats/base/query_compiler.py:136-140: `COST_IMPOSSIBLE` -/
def costImpossible : Int := 1000

/-- modin/core/storage_formats/base/query_compiler.py:143-154 `validate_coersion_cost` -/
def costValid (c : Int) : Bool := !(c < 0 || costImpossible < c)

/-- modin/core/storage_formats/base/query_compiler.py:360-373: the default `move_to_cost` of a frame of `rows` rows to
    another class.  True division is modelled exactly (floats round). -/
def defaultMoveCost (rows : Nat) (threshold : Int) : Int :=
  if threshold ≤ 0 then 0
  else
    let cost := costImpossible * rows / threshold
    if costImpossible < cost then costImpossible else cost

/-- modin/core/storage_formats/base/query_compiler.py:376-407 `_stay_cost_rows`, also behind `move_to_me_cost`; `none`:
    `ZeroDivisionError`.  Divisions are modelled exactly. -/
def stayCostRows (rows : Nat) (perRow maxSize init : Int) : Option Int :=
  if maxSize < rows then some costImpossible
  else if maxSize = 0 then none
  else
    -- `rows * per_row / max_size * 1000 + init`, over the denominator `max_size > 0`
    let num := rows * perRow * costImpossible + init * maxSize
    if costImpossible * maxSize < num then some costImpossible else some (num / maxSize)

/-- What the query compilers answer about an operation: `stay b d` is `stay_cost` of the data `d` on backend `b`,
    `move b d c` is `move_to_cost` from `b` to `c`, `me c b d` is `move_to_me_cost` of the class of `c`, `max` is
    `max_cost`.  `none`: no answer. -/
structure Costs (β δ : Type) where
  stay : β → δ → Option Int
  move : β → δ → β → Option Int
  me : β → β → δ → Option Int
  max : β → Int

/-- An object holding data on a backend.  `version` stands for the identity of its query compiler. -/
structure Obj (β δ : Type) where
  backend : β
  data : δ
  pinned : Bool
  version : Nat
deriving DecidableEq, Repr

/-- modin/core/storage_formats/base/query_compiler_calculator.py:117-139: the keys of `_backend_data`. -/
def candidates [DecidableEq β] (operands : List (Obj β δ)) (others : List β) : List β :=
  (operands.map (·.backend) ++ others).foldl (fun seen b => if b ∈ seen then seen else seen ++ [b]) []

/-- modin/core/storage_formats/base/query_compiler_calculator.py:290-304 `_add_cost_data`, called if there is a cost;
    `none`: the cost is out of range (`ValueError`). -/
def addCost [DecidableEq β] (totals : List (β × Int)) (b : β) : Option Int → Option (List (β × Int))
  | none => some totals
  | some c =>
    if costValid c then some (totals.map fun e => if e.1 = b then (e.1, e.2 + c) else e) else none

/-- modin/core/storage_formats/base/query_compiler_calculator.py:211-234: the costs of moving one operand to each of
    the backends. -/
def chargeMoves [DecidableEq β] (costs : Costs β δ) (o : Obj β δ) : List β → List (β × Int) → Option (List (β × Int))
  | [], totals => some totals
  | to :: tos, totals =>
    if to = o.backend then chargeMoves costs o tos totals
    else
      (addCost totals to ((costs.move o.backend o.data to).or (costs.me to o.backend o.data))).bind fun t =>
      chargeMoves costs o tos t

/-- modin/core/storage_formats/base/query_compiler_calculator.py:202-234: the loop over the operands. -/
def chargeAll [DecidableEq β] (costs : Costs β δ) : List (Obj β δ) → List (β × Int) → Option (List (β × Int))
  | [], totals => some totals
  | o :: os, totals =>
    (addCost totals o.backend (costs.stay o.backend o.data)).bind fun t =>
    (chargeMoves costs o (t.map (·.1)) t).bind fun t => chargeAll costs os t

/-- modin/core/storage_formats/base/query_compiler_calculator.py:238-247 `get_min_cost_backend` -/
def minCostBackend (limit : Option (β → Int)) : List (β × Int) → Option (β × Int) → Option (β × Int)
  | [], best => best
  | (b, c) :: rest, best =>
    if (limit.map fun l => decide (l b < c)).getD false then minCostBackend limit rest best
    else
      match best with
      | none => minCostBackend limit rest (some (b, c))
      | some (b0, c0) => if c < c0 then minCostBackend limit rest (some (b, c)) else minCostBackend limit rest (some (b0, c0))

/-- modin/core/storage_formats/base/query_compiler_calculator.py:141-288 `calculate`; `others`: the backends considered
    besides those of the operands.  `none`: raises.  Logs and metrics are left out. -/
def calculate [DecidableEq β] (costs : Costs β δ) (operands : List (Obj β δ)) (others : List β) : Option β :=
  match operands with
  | [] => none
  | [o] => some o.backend
  | os =>
    (chargeAll costs os ((candidates os others).map fun b => (b, 0))).bind fun totals =>
    match minCostBackend (some costs.max) totals none with
    | some (b, _) => some b
    | none => (minCostBackend none totals none).map (·.1)

/-! ### one operand -/

/-- modin/core/storage_formats/pandas/query_compiler_caster.py:804-832: the difference made by moving to backend `b`;
    `none`: unknown. -/
def moveStayDelta (costs : Costs β δ) (o : Obj β δ) (b : β) : Option Int :=
  match costs.move o.backend o.data b, costs.stay o.backend o.data, costs.me b o.backend o.data with
  | some mv, some stay, some exec => some (if costImpossible ≤ stay then exec - stay else mv + exec - stay)
  | _, _, _ => none

/-- modin/core/storage_formats/pandas/query_compiler_caster.py:801-837: the loop over the backends. -/
def autoSwitchLoop [DecidableEq β] (costs : Costs β δ) (o : Obj β δ) : List β → Option Int → β → β
  | [], _, best => best
  | b :: bs, least, best =>
    if b = o.backend then autoSwitchLoop costs o bs least best
    else
      match moveStayDelta costs o b with
      | none => autoSwitchLoop costs o bs least best
      | some d =>
        if decide (d < 0) && (least.map fun l => decide (d < l)).getD true then autoSwitchLoop costs o bs (some d) b
        else autoSwitchLoop costs o bs least best

/-- modin/core/storage_formats/pandas/query_compiler_caster.py:735-867 `_get_backend_for_auto_switch` -/
def autoSwitch [DecidableEq β] (costs : Costs β δ) (switchable : List β) (o : Obj β δ) : β :=
  autoSwitchLoop costs o switchable none o.backend

/-! ### arguments -/

/-- The arguments of a call.  Objects are given by their identity; a dictionary counts as a list (both are changed in
    place). -/
inductive CallArgs where
  | nil
  | atom (rest : CallArgs)
  | obj (id : Nat) (rest : CallArgs)
  | list (inner rest : CallArgs)
  | tuple (inner rest : CallArgs)
deriving DecidableEq, Repr

/-- the objects in the arguments, in the order in which they are visited -/
def CallArgs.ids : CallArgs → List Nat
  | .nil => []
  | .atom rest => rest.ids
  | .obj i rest => i :: rest.ids
  | .list inner rest => inner.ids ++ rest.ids
  | .tuple inner rest => inner.ids ++ rest.ids

/-- modin/core/storage_formats/pandas/query_compiler_caster.py:441-487 `visit_nested_args`: `fn` is called on every
    object; what it returns is put in its place in the outermost sequence (`replace`) and in lists.  A nested tuple is
    copied before the visit (line 471) and the copy is dropped (lines 479, 485). -/
def visitNested {σ : Type} (fn : Nat → σ → Nat × σ) : Bool → CallArgs → σ → CallArgs × σ
  | _, .nil, s => (.nil, s)
  | replace, .atom rest, s =>
    let r := visitNested fn replace rest s
    (.atom r.1, r.2)
  | replace, .obj i rest, s =>
    let c := fn i s
    let r := visitNested fn replace rest c.2
    (.obj (if replace then c.1 else i) r.1, r.2)
  | replace, .list inner rest, s =>
    let n := visitNested fn true inner s
    let r := visitNested fn replace rest n.2
    (.list n.1 r.1, r.2)
  | replace, .tuple inner rest, s =>
    let n := visitNested fn false inner s
    let r := visitNested fn replace rest n.2
    (.tuple n.1 r.1, r.2)

/-! ### the call -/

/-- All objects; those not yet made have identities from `next` on. -/
structure Objects (β δ : Type) where
  objs : Nat → Obj β δ
  next : Nat

/-- One object changes. -/
def Objects.set (s : Objects β δ) (i : Nat) (o : Obj β δ) : Objects β δ :=
  { s with objs := fun j => if j = i then o else s.objs j }

/-- modin/pandas/base.py:4492-4593 `set_backend` in place: new query compiler, same data (moving data between backends
    is `to_pandas` then `from_pandas`, see C01), no longer pinned.  Nothing happens on the right backend (line 4556). -/
def Objects.setBackend [DecidableEq β] (s : Objects β δ) (b : β) (i : Nat) : Objects β δ :=
  if (s.objs i).backend = b then s
  else s.set i { backend := b, data := (s.objs i).data, pinned := false, version := (s.objs i).version + 1 }

/-- Casting state: the objects and the `InplaceUpdateTracker`s (original, copy). -/
structure CastState (β δ : Type) where
  store : Objects β δ
  tracked : List (Nat × Nat)

/-- modin/core/storage_formats/pandas/query_compiler_caster.py:1119-1147 `cast_to_qc`.  With `BackendMergeCastInPlace`
    the object itself is moved (its tracker copies it into itself and is left out); without, a copy is made
    (modin/pandas/base.py:4593). -/
def castArg [DecidableEq β] (inPlace : Bool) (b : β) (i : Nat) (s : CastState β δ) : Nat × CastState β δ :=
  if (s.store.objs i).backend = b then (i, s)
  else if inPlace then (i, { s with store := s.store.setBackend b i })
  else
    (s.store.next,
     { store := { objs := fun j => if j = s.store.next then
                    { backend := b, data := (s.store.objs i).data, pinned := false, version := 0 } else s.store.objs j
                  next := s.store.next + 1 }
       tracked := s.tracked ++ [(i, s.store.next)] })

/-- An implementation: from the data of the operands, the updates it makes to them in place and its result. -/
structure Impl (δ : Type) where
  updates : List δ → List (Option δ)
  result : List δ → δ

/-- modin/core/storage_formats/pandas/query_compiler_caster.py:870-922 `_get_extension_for_method`; `none`:
    `AttributeError` -/
def findImpl (ext : Option β → Option (Impl δ)) (b : β) : Option (Impl δ) := (ext (some b)).or (ext none)

/-- One update in place: a new query compiler of the same backend. -/
def Objects.update (s : Objects β δ) (p : Nat × Option δ) : Objects β δ :=
  match p.2 with
  | none => s
  | some d => s.set p.1 { s.objs p.1 with data := d, version := (s.objs p.1).version + 1 }

/-- The implementation is run on backend `b`.  `none`: an operand is on another backend (query compilers of different
    backends do not work together). -/
def Impl.run [DecidableEq β] (f : Impl δ) (b : β) (args : CallArgs) (s : Objects β δ) :
    Option (Objects β δ × Obj β δ) :=
  if args.ids.all fun i => (s.objs i).backend = b then
    let values := args.ids.map fun i => (s.objs i).data
    some ((args.ids.zip (f.updates values)).foldl Objects.update s,
          { backend := b, data := f.result values, pinned := false, version := 0 })
  else none

/-- modin/core/storage_formats/pandas/query_compiler_caster.py:1166-1173: an updated copy is copied into its original
    (`_copy_into`, modin/pandas/dataframe.py:3427-3430). -/
def Objects.copyBack (s : Objects β δ) (t : Nat × Nat) : Objects β δ :=
  if (s.objs t.2).version = 0 then s
  else s.set t.1 { s.objs t.1 with backend := (s.objs t.2).backend, data := (s.objs t.2).data,
                                   version := (s.objs t.1).version + 1 }

/-- modin/core/storage_formats/pandas/query_compiler_caster.py:1006-1028: the backend to which operands are pinned;
    `none`: operands are pinned to different backends (`ValueError`). -/
def pinTarget [DecidableEq β] : List (Obj β δ) → Option β → Option (Option β)
  | [], pin => some pin
  | o :: os, none => pinTarget os (if o.pinned then some o.backend else none)
  | o :: os, some b => if o.pinned ∧ o.backend ≠ b then none else pinTarget os (some b)

/-- The configuration a call sees: `AutoSwitchBackend`, `BackendMergeCastInPlace`, `BackendJoinConsiderAllBackends`,
    the current backend, `all_switchable_backends()`, whether the function is registered for a switch before and after
    it on a backend, the costs, and the data of the object that stands for no operand. -/
structure DispatchEnv (β δ : Type) where
  auto : Bool
  inPlace : Bool
  considerAll : Bool
  current : β
  switchable : List β
  preOp : β → Bool
  postOp : β → Bool
  costs : Costs β δ
  empty : δ

/-- What a call leaves: the objects, the result, and the arguments as the caller holds them. -/
structure CallResult (β δ : Type) where
  store : Objects β δ
  result : Obj β δ
  callerArgs : CallArgs

/-- modin/core/storage_formats/pandas/query_compiler_caster.py:660-732 `_maybe_switch_backend_post_op` with
    `move_to` not in place. -/
def postOpSwitch [DecidableEq β] (env : DispatchEnv β δ) (pin : Option β) (operands : List (Obj β δ)) (b : β)
    (r : Obj β δ) : Obj β δ :=
  if pin.isSome then { r with pinned := true }
  else if operands.length < 2 ∧ env.postOp ((operands.head?.map (·.backend)).getD b) = true then
    let to := autoSwitch env.costs env.switchable r
    if to = r.backend then r else { backend := to, data := r.data, pinned := false, version := 0 }
  else r

/-- modin/core/storage_formats/pandas/query_compiler_caster.py:1038-1046: `input_backend` -/
def inputBackend (env : DispatchEnv β δ) (operands : List (Obj β δ)) : β :=
  (operands.head?.map (·.backend)).getD env.current

/-- modin/core/storage_formats/pandas/query_compiler_caster.py:1048-1071: no casting. -/
def callDirect [DecidableEq β] (ext : Option β → Option (Impl δ)) (b : β) (pin : Option β) (args : CallArgs)
    (s : Objects β δ) : Option (CallResult β δ) :=
  (findImpl ext b).bind fun f => (f.run b args s).map fun r =>
  { store := r.1, result := if pin.isSome then { r.2 with pinned := true } else r.2, callerArgs := args }

/-- modin/core/storage_formats/pandas/query_compiler_caster.py:1149-1183: the arguments are cast, the implementation for
    the backend is run, updates of copies are copied back. -/
def callOn [DecidableEq β] (env : DispatchEnv β δ) (ext : Option β → Option (Impl δ)) (inPlace : Bool) (b : β)
    (pin : Option β) (args : CallArgs) (s : Objects β δ) : Option (CallResult β δ) :=
  let seen := visitNested (castArg inPlace b) true args { store := s, tracked := [] }
  (findImpl ext b).bind fun f => (f.run b seen.1 seen.2.store).map fun r =>
  { store := seen.2.tracked.foldl Objects.copyBack r.1
    result := postOpSwitch env pin (args.ids.map s.objs) b r.2
    callerArgs := (visitNested (castArg inPlace b) false args { store := s, tracked := [] }).1 }

/-- modin/core/storage_formats/pandas/query_compiler_caster.py:1073-1117: the backend on which the operation is run. -/
def chooseBackend [DecidableEq β] (env : DispatchEnv β δ) (operands : List (Obj β δ)) (pin : Option β) : Option β :=
  let ib := inputBackend env operands
  if operands.length < 2 then
    some (if env.preOp ib then
        autoSwitch env.costs env.switchable
          (operands.head?.getD { backend := env.current, data := env.empty, pinned := false, version := 0 })
      else ib)
  else
    match pin with
    | some b => some b
    | none => calculate env.costs operands (if env.preOp ib && env.considerAll then env.switchable else [])

/-- modin/core/storage_formats/pandas/query_compiler_caster.py:964-1183 `f_with_argument_casting` for a method or a
    free function whose castable arguments are objects (not bare query compilers).  `none`: raises. -/
def callWrapped [DecidableEq β] (env : DispatchEnv β δ) (ext : Option β → Option (Impl δ)) (args : CallArgs)
    (s : Objects β δ) : Option (CallResult β δ) :=
  let operands := args.ids.map s.objs
  (pinTarget operands none).bind fun pin =>
  let ib := inputBackend env operands
  if (candidates operands []).length < 2 ∧ (env.auto = false ∨ pin.isSome = true) then
    callDirect ext (pin.getD ib) pin args s
  else
    -- the signature is taken from the implementation for the first operand's backend
    (findImpl ext ib).bind fun _ =>
    (chooseBackend env operands pin).bind fun b =>
    callOn env ext (env.inPlace || decide (operands.length < 2)) b pin args s
