/-
Dtypes of a frame that are known in part.  modin/core/dataframe/pandas/metadata/dtypes.py and its uses in
modin/core/dataframe/pandas/dataframe/dataframe.py and modin/core/storage_formats/pandas/query_compiler.py.

Column labels are of one level (`_normalize_levels` does nothing then), the lazy categorical proxies are taken for the
dtypes they stand for, and `ModinDtypes` made from a callable are left out.
-/

/-- The exceptions raised. -/
inductive DErr where
  | notImplemented | value | runtime | assertion | key | type
deriving DecidableEq, Repr

variable {κ τ : Type}

/-! ### dictionaries -/

/-- Python `d.get(k)` -/
def dictGet [DecidableEq κ] : List (κ × τ) → κ → Option τ
  | [], _ => none
  | e :: d, k => if e.1 = k then some e.2 else dictGet d k

/-- Python `d[k] = v`: the place of a key that is there does not change. -/
def dictSet [DecidableEq κ] : List (κ × τ) → κ → τ → List (κ × τ)
  | [], k, v => [(k, v)]
  | e :: d, k, v => if e.1 = k then (k, v) :: d else e :: dictSet d k v

/-- Python `d.update(new)` -/
def dictUpdate [DecidableEq κ] (d new : List (κ × τ)) : List (κ × τ) := new.foldl (fun d e => dictSet d e.1 e.2) d

/-- Python `{**dict}.keys()` -/
def dictKeys (d : List (κ × τ)) : List κ := d.map (·.1)

/-! ### the descriptor -/

/-- The frame described: its columns with their dtypes, and whether the columns are materialized
    (`has_materialized_columns`). -/
structure DParent (κ τ : Type) where
  schema : List (κ × τ)
  colsKnown : Bool
deriving DecidableEq, Repr

/-- modin/core/dataframe/pandas/metadata/dtypes.py:32-133 `DtypesDescriptor`.  `unknownIsIndex`: the list of columns with
    unknown dtypes is a pandas `Index` instead of a list (line 312). -/
structure DDesc (κ τ : Type) where
  known : List (κ × τ)
  unknown : List κ
  unknownIsIndex : Bool
  remaining : Option τ
  parent : Option (DParent κ τ)
  order : Option (List κ)
  allNames : Bool
  schemaKnown : Bool
deriving DecidableEq, Repr

/-- modin/core/dataframe/pandas/metadata/dtypes.py:163-187: the descriptor learns the columns of its frame. -/
def DDesc.learn [DecidableEq κ] (d : DDesc κ τ) (cols : List κ) : DDesc κ τ :=
  let new := cols.filter fun c => decide (c ∉ dictKeys d.known) && decide (c ∉ d.unknown)
  if d.known.length + d.unknown.length < cols.length then
    match d.remaining with
    | some t =>
      { d with order := some cols, allNames := true, known := dictUpdate d.known (new.map fun c => (c, t)),
               remaining := none, schemaKnown := d.schemaKnown || d.unknown.isEmpty }
    | none => { d with order := some cols, allNames := true, unknown := d.unknown ++ new }
  else { d with order := some cols, allNames := true }

/-- modin/core/dataframe/pandas/metadata/dtypes.py:148-187 `columns_order`: what it does to the descriptor; its value is
    then `order`. -/
def DDesc.sync [DecidableEq κ] (d : DDesc κ τ) : DDesc κ τ :=
  match d.order, d.parent with
  | none, some p => if p.colsKnown then d.learn (dictKeys p.schema) else d
  | _, _ => d

/-- modin/core/dataframe/pandas/metadata/dtypes.py:63-133 `__init__`; `unknown = none` is the default. -/
def DDesc.make [DecidableEq κ] (known : List (κ × τ)) (unknown : Option (List κ)) (remaining : Option τ)
    (parent : Option (DParent κ τ)) (order : Option (List κ)) (allNames : Bool) (schemaKnown : Option Bool) :
    Except DErr (DDesc κ τ) :=
  if allNames = false ∧ remaining.isSome then .error .value
  else if ¬(dictKeys known).Nodup then .error .notImplemented
  else if ¬(unknown.getD []).Nodup then .error .notImplemented
  else
    let schema := schemaKnown.getD
      (unknown.isSome && allNames && remaining.isNone && decide (0 < known.length) && (unknown.getD []).isEmpty)
    let d : DDesc κ τ :=
      { known := known, unknown := unknown.getD [], unknownIsIndex := false, remaining := remaining, parent := parent
        order := none, allNames := allNames, schemaKnown := schema }
    match order with
    | none => .ok d.sync
    | some o =>
      if remaining.isSome then .error .value
      else if allNames = false then .error .value
      else if o.length ≠ (unknown.getD []).length + known.length then .error .value
      else .ok { d with order := some o }

/-- modin/core/dataframe/pandas/metadata/dtypes.py:135-146 `update_parent` -/
def DDesc.updateParent [DecidableEq κ] (d : DDesc κ τ) (p : DParent κ τ) : DDesc κ τ :=
  DDesc.sync { d with parent := some p }

/-- modin/core/dataframe/pandas/metadata/dtypes.py:232-244: the dtype found for one column. -/
def DDesc.find [DecidableEq κ] (d : DDesc κ τ) (c : κ) : Option τ :=
  if c ∈ d.unknown then none else (dictGet d.known c).or d.remaining

/-- modin/core/dataframe/pandas/metadata/dtypes.py:203-252 `lazy_get` by label -/
def DDesc.lazyGet [DecidableEq κ] (d : DDesc κ τ) (ids : List κ) : Except DErr (DDesc κ τ) :=
  if ¬ids.Nodup then .error .notImplemented
  else
    let known := ids.filterMap fun c => (d.find c).map fun t => (c, t)
    let unknown := ids.filter fun c => (d.find c).isNone
    DDesc.make known (some unknown) (if unknown.isEmpty then none else d.remaining) d.parent (some ids) true none

/-- modin/core/dataframe/pandas/metadata/dtypes.py:219-230 `lazy_get` by position -/
def DDesc.lazyGetAt [DecidableEq κ] (d : DDesc κ τ) (pos : List Nat) : Except DErr (DDesc κ τ) :=
  if ¬pos.Nodup then .error .notImplemented
  else
    match d.sync.order with
    | none => .error .value
    | some o =>
      match pos.mapM fun i => o[i]? with
      | none => .error .key
      | some ids => d.sync.lazyGet ids

/-- modin/core/dataframe/pandas/metadata/dtypes.py:254-274 `copy` -/
def DDesc.copy [DecidableEq κ] (d : DDesc κ τ) : Except DErr (DDesc κ τ) :=
  let s := d.sync
  (DDesc.make s.known (some s.unknown) s.remaining s.parent s.order s.allNames (some s.schemaKnown)).map
    fun r => { r with unknownIsIndex := s.unknownIsIndex }

/-- modin/core/dataframe/pandas/metadata/dtypes.py:276-326 `set_index`; `isIndex`: the new labels are a pandas
    `Index`. -/
def DDesc.setIndex [DecidableEq κ] (d : DDesc κ τ) (new : List κ) (isIndex : Bool) : Except DErr (DDesc κ τ) :=
  if ¬new.Nodup then .error .notImplemented
  else
    match d.sync.order with
    | none =>
      (DDesc.make [] (some new) none d.parent (some new) true none).map fun r => { r with unknownIsIndex := isIndex }
    | some o =>
      d.sync.copy.bind fun r =>
      if new.length < o.length then .error .key
      else
        let renamer := o.zip new
        match r.known.mapM (fun e => (dictGet renamer e.1).map fun c => (c, e.2)),
              r.unknown.mapM (fun c => dictGet renamer c), o.mapM (fun c => dictGet renamer c) with
        | some known, some unknown, some order =>
          .ok { r with known := known, unknown := unknown, unknownIsIndex := false, order := some order }
        | _, _, _ => .error .key

/-- the parent's columns get materialized -/
def DDesc.touch (d : DDesc κ τ) : DDesc κ τ :=
  { d with parent := d.parent.map fun p => { p with colsKnown := true } }

/-- modin/core/dataframe/pandas/dataframe/dataframe.py:472-515 `_compute_dtypes` of some columns (the true dtypes: see
    C31 for the reduction over partitions), in the order they are stored. -/
def DParent.compute [DecidableEq κ] (p : DParent κ τ) (subset : List κ) : Except DErr (List (κ × τ)) :=
  if subset.all fun c => decide (c ∈ dictKeys p.schema) then .ok (p.schema.filter fun e => decide (e.1 ∈ subset))
  else .error .key

/-- modin/core/dataframe/pandas/metadata/dtypes.py:360-375 `_materialize_all_names`: the columns added. -/
def missingNames [DecidableEq κ] (known : List (κ × τ)) : List κ → List κ → List κ
  | [], unknown => unknown
  | c :: cs, unknown =>
    if c ∉ dictKeys known ∧ c ∉ unknown then missingNames known cs (unknown ++ [c]) else missingNames known cs unknown

/-- modin/core/dataframe/pandas/metadata/dtypes.py:377-397 `_materialize_cols_with_unknown_dtypes` -/
def DDesc.materializeUnknown [DecidableEq κ] (d : DDesc κ τ) (p : DParent κ τ) : Except DErr (DDesc κ τ) :=
  if d.known.isEmpty && d.unknown.isEmpty && !d.allNames then
    .ok { d.touch with known := dictUpdate d.known p.schema, allNames := true, unknown := [], unknownIsIndex := false }
  else
    let unknown := if d.allNames then d.unknown else missingNames d.known (dictKeys p.schema) d.unknown
    let d := if d.allNames then d else d.touch
    if unknown.isEmpty then .ok { d with allNames := true, unknown := [], unknownIsIndex := false }
    else
      (p.compute unknown).map fun new =>
      { d.touch with known := dictUpdate d.known new, allNames := true, unknown := [], unknownIsIndex := false }

/-- modin/core/dataframe/pandas/metadata/dtypes.py:409-419: the remaining dtype is given its columns. -/
def DDesc.spreadRemaining [DecidableEq κ] (d : DDesc κ τ) (p : DParent κ τ) : DDesc κ τ :=
  match d.remaining with
  | none => d
  | some t =>
    let new := (dictKeys p.schema).filter fun c => decide (c ∉ dictKeys d.known)
    { d.touch with known := dictUpdate d.known (new.map fun c => (c, t)) }

/-- modin/core/dataframe/pandas/metadata/dtypes.py:424-429: the dtypes in the order of the columns. -/
def reorderKnown [DecidableEq κ] (known : List (κ × τ)) (order : List κ) : Except DErr (List (κ × τ)) :=
  if order.length ≠ known.length then .error .assertion
  else
    match order.mapM fun c => (dictGet known c).map fun t => (c, t) with
    | none => .error .key
    | some l => .ok l

/-- modin/core/dataframe/pandas/metadata/dtypes.py:399-433 `materialize` -/
def DDesc.materialize [DecidableEq κ] (d : DDesc κ τ) : Except DErr (DDesc κ τ) :=
  if d.schemaKnown then .ok d
  else
    match d.parent with
    | none => .error .runtime
    | some p =>
      (d.materializeUnknown p).bind fun d1 =>
      let d2 := (d1.spreadRemaining p).sync
      match d2.order with
      | none => .ok { d2 with schemaKnown := true, remaining := none, parent := none }
      | some o =>
        (reorderKnown d2.known o).map fun known =>
        { d2 with known := known, schemaKnown := true, remaining := none, parent := none }

/-- modin/core/dataframe/pandas/metadata/dtypes.py:445-459 `get_dtypes_set` (as a list) -/
def DDesc.dtypesSet [DecidableEq κ] (d : DDesc κ τ) : Except DErr (List τ) :=
  let r : Except DErr (DDesc κ τ) :=
    if d.unknown.isEmpty && d.allNames then .ok d
    else match d.parent with
      | none => .error .type
      | some p => d.materializeUnknown p
  r.map fun d => d.known.map (·.2) ++ d.remaining.toList

/-! ### concatenation -/

/-- What is concatenated: a descriptor, a `Series`, or `None`. -/
inductive DValue (κ τ : Type) where
  | desc (d : DDesc κ τ)
  | series (l : List (κ × τ))
  | none
deriving Repr

/-- The variables of the loop of `concat`; `remaining = none` is the initial "default". -/
structure DConcat (κ τ : Type) where
  known : List (κ × τ)
  unknown : List κ
  remaining : Option (Option τ)
  allNames : Bool
  schemaKnown : Bool

/-- modin/core/dataframe/pandas/metadata/dtypes.py:588-602: the remaining dtype after a descriptor, and whether all names
    are known. -/
def concatRemaining [DecidableEq τ] (allNames : Bool) (cur : Option (Option τ)) (new : Option τ) :
    Option (Option τ) × Bool :=
  if allNames then
    match cur, new with
    | none, some t => (some (some t), true)
    | some r, some t => if r = some t then (some r, true) else (some none, false)
    | cur, none => (cur, true)
  else (some none, false)

/-- modin/core/dataframe/pandas/metadata/dtypes.py:569-623: one round of the loop.  A descriptor with a pandas `Index` of
    unknown columns: `list + Index` adds element by element (here the list of known columns is empty), which raises
    unless the `Index` has at most one element.  A repeated label in a `Series` overwrites (the value stored by Python is
    then a `Series`, here the last dtype). -/
def DConcat.step [DecidableEq κ] [DecidableEq τ] (st : DConcat κ τ) : DValue κ τ → Except DErr (DConcat κ τ)
  | .desc d =>
    if d.unknownIsIndex && decide (2 ≤ d.unknown.length) then .error .value
    else
      let newCols := if d.unknownIsIndex then [] else dictKeys d.known ++ d.unknown
      if newCols.any fun c => decide (c ∈ dictKeys st.known) || decide (c ∈ st.unknown) then .error .notImplemented
      else
        let r := concatRemaining (st.allNames && d.allNames) st.remaining d.remaining
        .ok { known := dictUpdate st.known d.known, unknown := st.unknown ++ d.unknown, remaining := r.1
              allNames := r.2, schemaKnown := st.schemaKnown && d.schemaKnown }
  | .series l =>
    if (dictKeys l).any fun c => decide (c ∈ dictKeys st.known) || decide (c ∈ st.unknown) then .error .notImplemented
    else .ok { st with known := dictUpdate st.known l }
  | .none => .ok { st with remaining := some none, schemaKnown := false, allNames := false }

/-- modin/core/dataframe/pandas/metadata/dtypes.py:536-632 `concat` with `axis=0` -/
def DDesc.concat [DecidableEq κ] [DecidableEq τ] (vs : List (DValue κ τ)) : Except DErr (DDesc κ τ) :=
  (vs.foldlM DConcat.step
    { known := [], unknown := [], remaining := none, allNames := true, schemaKnown := true }).bind fun st =>
  DDesc.make st.known (some st.unknown) (st.remaining.getD none) none none st.allNames (some st.schemaKnown)

/-- The labels of `b` that are not in `a`, after `a`. -/
def unionLabels [DecidableEq κ] (a b : List κ) : List κ := a ++ b.filter fun c => decide (c ∉ a)

/-- The variables of the loop of `_merge_dtypes`: the rows and the columns of the matrix (a cell is a dtype, or `none`
    for "unknown"; a missing cell is NaN), and `know_all_names`, `dtypes_are_unknown`. -/
structure DMerge (κ τ : Type) where
  rows : List κ
  cols : List (List (κ × Option τ))
  allNames : Bool
  lost : Bool

/-- modin/core/dataframe/pandas/metadata/dtypes.py:490-528: one round of the loop.  `fillna` sees the rows there are at
    this point. -/
def DMerge.step [DecidableEq κ] (st : DMerge κ τ) : DValue κ τ → DMerge κ τ
  | .desc d =>
    let col := d.known.map (fun e => (e.1, some e.2)) ++ d.unknown.map fun c => (c, none)
    let rows := unionLabels st.rows (dictKeys col)
    let fill := if d.allNames && d.remaining.isNone then []
      else (rows.filter fun c => decide (c ∉ dictKeys col)).map fun c => (c, (none : Option τ))
    { rows := rows, cols := st.cols ++ [col ++ fill], allNames := st.allNames && d.allNames && d.remaining.isNone
      lost := st.lost }
  | .series l =>
    { st with rows := unionLabels st.rows (dictKeys l), cols := st.cols ++ [l.map fun e => (e.1, some e.2)] }
  | .none => { st with allNames := false, lost := true }

/-- modin/core/dataframe/pandas/metadata/dtypes.py:536-540 `combine_dtypes`: `none` is "unknown". -/
def combineCells (common : List τ → τ) (float : τ) (cells : List (Option (Option τ))) : Option τ :=
  if cells.any fun c => decide (c.isSome = true ∧ c.getD none = none) then none
  else some (common (cells.map fun c => (c.getD none).getD float))

/-- modin/core/dataframe/pandas/metadata/dtypes.py:461-556 `_merge_dtypes`; `common` is `find_common_type` -/
def DDesc.merge [DecidableEq κ] (common : List τ → τ) (float : τ) (vs : List (DValue κ τ)) : Except DErr (DDesc κ τ) :=
  let st := vs.foldl DMerge.step { rows := [], cols := [], allNames := true, lost := false }
  if st.lost then DDesc.make [] (some st.rows) none none none st.allNames none
  else
    let dt := fun c => combineCells common float (st.cols.map fun col => dictGet col c)
    DDesc.make (st.rows.filterMap fun c => (dt c).map fun t => (c, t)) (some (st.rows.filter fun c => (dt c).isNone))
      none none none st.allNames none

/-! ### `ModinDtypes` -/

/-- modin/core/dataframe/pandas/metadata/dtypes.py:713-745 `ModinDtypes` -/
inductive MDtypes (κ τ : Type) where
  | series (l : List (κ × τ))
  | desc (d : DDesc κ τ)
deriving DecidableEq, Repr

/-- modin/core/dataframe/pandas/metadata/dtypes.py:730-731: a descriptor that is complete becomes a `Series`. -/
def MDtypes.ofDesc (d : DDesc κ τ) : MDtypes κ τ := if d.schemaKnown then .series d.known else .desc d

/-- modin/core/dataframe/pandas/metadata/dtypes.py:990-1002 `copy` -/
def MDtypes.copy [DecidableEq κ] : MDtypes κ τ → Except DErr (MDtypes κ τ)
  | .series l => .ok (.series l)
  | .desc d => d.copy.map MDtypes.ofDesc

/-- modin/core/dataframe/pandas/metadata/dtypes.py:773-795 `maybe_specify_new_frame_ref`.  The descriptor stays one even
    if it becomes complete. -/
def MDtypes.specify [DecidableEq κ] (p : DParent κ τ) : MDtypes κ τ → Except DErr (MDtypes κ τ)
  | .series l => .ok (.series l)
  | .desc d => d.copy.map fun r => if r.schemaKnown then .series r.known else .desc (r.updateParent p)

/-- modin/core/dataframe/pandas/metadata/dtypes.py:797-828 `lazy_get` by label -/
def MDtypes.lazyGet [DecidableEq κ] (ids : List κ) : MDtypes κ τ → Except DErr (MDtypes κ τ)
  | .series l =>
    match ids.mapM fun c => (dictGet l c).map fun t => (c, t) with
    | none => .error .key
    | some r => .ok (.series r)
  | .desc d => (d.lazyGet ids).map MDtypes.ofDesc

/-- modin/core/dataframe/pandas/metadata/dtypes.py:881-906 `set_index`; the labels of a `Series` are set by position.
    If the copy becomes a `Series` no branch is taken (line 906). -/
def MDtypes.setIndex [DecidableEq κ] (new : List κ) (isIndex : Bool) : MDtypes κ τ → Except DErr (MDtypes κ τ)
  | .series l => if new.length = l.length then .ok (.series (new.zip (l.map (·.2)))) else .error .value
  | .desc d => d.copy.bind fun r =>
      if r.schemaKnown then .error .notImplemented else (r.setIndex new isIndex).map MDtypes.desc

/-- modin/core/dataframe/pandas/metadata/dtypes.py:908-927 `get` -/
def MDtypes.get [DecidableEq κ] : MDtypes κ τ → Except DErr (List (κ × τ))
  | .series l => .ok l
  | .desc d => d.materialize.map (·.known)

/-- modin/core/dataframe/pandas/metadata/dtypes.py:851-858: what is passed to the descriptors. -/
def DValue.of : Option (MDtypes κ τ) → DValue κ τ
  | Option.none => .none
  | some (.series l) => .series l
  | some (.desc d) => .desc d

/-- modin/core/dataframe/pandas/metadata/dtypes.py:830-879 `concat` with `axis=0`.  Values are not plain `Series`, so
    exceptions are raised again (lines 866-876). -/
def MDtypes.concat [DecidableEq κ] [DecidableEq τ] (vs : List (Option (MDtypes κ τ))) : Except DErr (MDtypes κ τ) :=
  (DDesc.concat (vs.map DValue.of)).map MDtypes.ofDesc

/-- modin/core/dataframe/pandas/metadata/dtypes.py:830-879 `concat` with `axis=1` -/
def MDtypes.merge [DecidableEq κ] (common : List τ → τ) (float : τ) (vs : List (Option (MDtypes κ τ))) :
    Except DErr (MDtypes κ τ) :=
  (DDesc.merge common float (vs.map DValue.of)).map MDtypes.ofDesc

/-! ### frames -/

/-- What matters of a frame: its columns with their true dtypes, whether the columns are materialized, and the cached
    dtypes. -/
structure DFrame (κ τ : Type) where
  schema : List (κ × τ)
  colsKnown : Bool
  cache : Option (MDtypes κ τ)
deriving DecidableEq, Repr

/-- the frame as the parent of a descriptor -/
def DFrame.parent (f : DFrame κ τ) : DParent κ τ := { schema := f.schema, colsKnown := f.colsKnown }

/-- a caught `NotImplementedError` -/
def catchNotImplemented {α : Type} : Except DErr α → Except DErr (Option α)
  | .ok a => .ok (some a)
  | .error .notImplemented => .ok none
  | .error e => .error e

/-- modin/core/dataframe/pandas/dataframe/dataframe.py:415-438 `set_dtypes_cache` of a frame being made
    (line 180). -/
def DFrame.build [DecidableEq κ] (schema : List (κ × τ)) (colsKnown : Bool) (dtypes : Option (MDtypes κ τ)) :
    Except DErr (DFrame κ τ) :=
  let p : DParent κ τ := { schema := schema, colsKnown := colsKnown }
  match dtypes with
  | some m => (m.specify p).map fun m => { schema := schema, colsKnown := colsKnown, cache := some m }
  | none =>
    if colsKnown then
      (catchNotImplemented (DDesc.make [] (some (dictKeys schema)) none (some p) none true none)).map fun d =>
      { schema := schema, colsKnown := colsKnown, cache := d.map MDtypes.ofDesc }
    else .ok { schema := schema, colsKnown := colsKnown, cache := none }

/-- modin/core/dataframe/pandas/dataframe/dataframe.py:744-760 `_get_columns`: the columns get materialized; the
    descriptor refers to the frame. -/
def DFrame.readColumns (f : DFrame κ τ) : DFrame κ τ :=
  { f with colsKnown := true
           cache := f.cache.map fun m => match m with | .series l => .series l | .desc d => .desc d.touch }

/-- modin/core/dataframe/pandas/dataframe/dataframe.py:440-458 `dtypes`: what is reported and the frame then. -/
def DFrame.readDtypes [DecidableEq κ] (f : DFrame κ τ) : Except DErr (List (κ × τ) × DFrame κ τ) :=
  match f.cache with
  | some m => m.get.map fun l => (l, { f with cache := some (.series l) })
  | none => .ok (f.schema, { f with colsKnown := true, cache := some (.series f.schema) })

/-- modin/core/dataframe/pandas/dataframe/dataframe.py:379-391 `copy_dtypes_cache` -/
def DFrame.copyCache [DecidableEq κ] (f : DFrame κ τ) : Except DErr (Option (MDtypes κ τ)) :=
  match f.cache with
  | none => .ok none
  | some m => m.copy.map some

/-- modin/core/dataframe/pandas/dataframe/dataframe.py:2301-2302, 3585-3586: an operation that keeps columns and dtypes
    (`dtypes="copy"`). -/
def DFrame.same [DecidableEq κ] (f : DFrame κ τ) : Except DErr (DFrame κ τ) :=
  f.copyCache.bind fun c => DFrame.build f.schema f.colsKnown c

/-- modin/core/dataframe/pandas/dataframe/dataframe.py:3593-3596: an operation over the whole axis with one dtype for
    all columns, which are not known. -/
def DFrame.uniform [DecidableEq κ] (cols : List κ) (t : τ) : Except DErr (DFrame κ τ) :=
  (DDesc.make [] none (some t) none none true none).bind fun d =>
  DFrame.build (cols.map fun c => (c, t)) false (some (.ofDesc d))

/-- modin/core/dataframe/pandas/dataframe/dataframe.py:1329-1348: columns by increasing position. -/
def DFrame.take [DecidableEq κ] (f : DFrame κ τ) (pos : List Nat) : Except DErr (DFrame κ τ) :=
  let f := f.readColumns
  let new : Except DErr (Option (MDtypes κ τ)) :=
    match f.cache with
    | none => .ok none
    | some (.series l) => .ok (some (.series (pos.filterMap fun i => l[i]?)))
    | some (.desc d) =>
      match d.lazyGetAt pos with
      | .ok r => .ok (some (.ofDesc r))
      | .error .value => .ok none
      | .error .notImplemented => .ok none
      | .error e => .error e
  new.bind fun m => DFrame.build (pos.filterMap fun i => f.schema[i]?) true m

/-- modin/core/dataframe/pandas/metadata/dtypes.py:148-187, 265-270: what a copy of the cached dtypes does to the cached
    dtypes themselves (`columns_order` may learn the columns). -/
def DFrame.syncCache [DecidableEq κ] (f : DFrame κ τ) : DFrame κ τ :=
  { f with cache := f.cache.map fun m => match m with | .series l => .series l | .desc d => .desc d.sync }

/-- modin/core/dataframe/pandas/dataframe/dataframe.py:1607, 1647-1657 `_reorder_labels` of the columns -/
def DFrame.reorder [DecidableEq κ] (f : DFrame κ τ) (pos : List Nat) : Except DErr (DFrame κ τ) :=
  f.copyCache.bind fun c =>
  let f := f.syncCache.readColumns
  let new : Except DErr (Option (MDtypes κ τ)) :=
    match f.cache with
    | none => .ok c
    | some (.series l) => .ok (some (.series (pos.filterMap fun i => l[i]?)))
    | some (.desc d) =>
      catchNotImplemented ((MDtypes.desc d).lazyGet (pos.filterMap fun i => (dictKeys f.schema)[i]?))
  new.bind fun m => DFrame.build (pos.filterMap fun i => f.schema[i]?) true m

/-- modin/core/dataframe/pandas/dataframe/dataframe.py:776-810 `_set_columns` -/
def DFrame.rename [DecidableEq κ] (f : DFrame κ τ) (new : List κ) (isIndex : Bool) : Except DErr (DFrame κ τ) :=
  if f.colsKnown = true ∧ new.length ≠ f.schema.length then .error .value
  else
    let renamed : Except DErr (Option (MDtypes κ τ)) :=
      match f.cache with
      | none => .ok none
      | some m => catchNotImplemented (m.setIndex new isIndex)
    renamed.bind fun m =>
    DFrame.build (new.zip (f.schema.map (·.2))) true m

/-- modin/core/dataframe/pandas/dataframe/dataframe.py:4053-4064: frames side by side (`concat` with `axis=1`). -/
def DFrame.beside [DecidableEq κ] [DecidableEq τ] (fs : List (DFrame κ τ)) : Except DErr (DFrame κ τ) :=
  (fs.mapM DFrame.copyCache).bind fun cs =>
  (catchNotImplemented (MDtypes.concat cs)).bind fun m =>
  DFrame.build (fs.flatMap (·.schema)) (fs.all (·.colsKnown)) m

/-- The dtype of a column of stacked frames: the common type, NaN where the column is missing. -/
def stackedDtype [DecidableEq κ] (common : List τ → τ) (float : τ) (schemas : List (List (κ × τ))) (c : κ) : τ :=
  common (schemas.map fun s => (dictGet s c).getD float)

/-- modin/core/dataframe/pandas/dataframe/dataframe.py:4033-4039: frames on top of each other (`concat` with `axis=0`);
    `cols`: the joined columns. -/
def DFrame.stack [DecidableEq κ] (common : List τ → τ) (float : τ) (fs : List (DFrame κ τ)) (cols : List κ) :
    Except DErr (DFrame κ τ) :=
  (MDtypes.merge common float (fs.map (·.cache))).bind fun m =>
  DFrame.build (cols.map fun c => (c, stackedDtype common float (fs.map (·.schema)) c)) true (some m)

/-- modin/core/dataframe/pandas/metadata/dtypes.py:1214-1231 `extract_dtype`: `asDtype` is `pandas_dtype` (`none`: it
    raises), `ofValue` the dtype of a `Series` made of the value. -/
def extractDtype {ν : Type} (asDtype : ν → Option τ) (ofValue : ν → τ) (v : ν) : τ := (asDtype v).getD (ofValue v)

/-- modin/core/storage_formats/pandas/query_compiler.py:3416-3425 `insert` of a new column; `t` is its true dtype, `t'`
    the one extracted. -/
def DFrame.insert [DecidableEq κ] [DecidableEq τ] (f : DFrame κ τ) (loc : Nat) (c : κ) (t t' : τ) :
    Except DErr (DFrame κ τ) :=
  let f := f.readColumns
  let schema := f.schema.take loc ++ (c, t) :: f.schema.drop loc
  (DDesc.make [(c, t')] (some []) none none none true none).bind fun d =>
  (DDesc.concat [DValue.of f.cache, .desc d]).bind fun r =>
  ((MDtypes.ofDesc r).lazyGet (dictKeys schema)).bind fun m => DFrame.build schema true (some m)

/-- modin/core/storage_formats/pandas/query_compiler.py:3204-3216 `setitem` of a column that is there.  `ModinDtypes(None)`
    raises (dtypes.py:735). -/
def DFrame.setItem [DecidableEq κ] [DecidableEq τ] (f : DFrame κ τ) (c : κ) (t t' : τ) : Except DErr (DFrame κ τ) :=
  let f := f.readColumns
  let schema := f.schema.map fun e => if e.1 = c then (c, t) else e
  match f.cache with
  | none => .error .type
  | some m =>
    (m.copy).bind fun m0 =>
    (m0.lazyGet ((dictKeys f.schema).filter fun k => decide (k ≠ c))).bind fun old =>
    (DDesc.make [(c, t')] (some []) none none none true none).bind fun d =>
    (DDesc.concat [DValue.of (some old), .desc d]).bind fun r =>
    ((MDtypes.ofDesc r).lazyGet (dictKeys f.schema)).bind fun m => DFrame.build schema true (some m)
