import Verif.Lemmas.Dtypes

/-!
C30: dtypes known in part.  `History common float T f`: the frame `f` has been made by a sequence of operations after
which its columns truly have the dtypes `T` (the list says what pandas would have, column by column).
-/

variable {κ τ : Type}

/-- The dtypes after a history of operations.  `T` is written down from the operations alone: a selection selects, a
    reordering permutes, a renaming renames, frames side by side append, frames on top of each other take the common
    type. -/
inductive DHistory [DecidableEq κ] [DecidableEq τ] (common : List τ → τ) (float : τ) :
    List (κ × τ) → DFrame κ τ → Prop
  /-- a frame whose dtypes nobody knows -/
  | fresh {T : List (κ × τ)} {colsKnown : Bool} {f : DFrame κ τ} : (T.map (·.1)).Nodup →
      DFrame.build T colsKnown none = .ok f → DHistory common float T f
  /-- a frame whose dtypes were given -/
  | given {T : List (κ × τ)} {colsKnown : Bool} {f : DFrame κ τ} : (T.map (·.1)).Nodup →
      DFrame.build T colsKnown (some (.series T)) = .ok f → DHistory common float T f
  /-- a frame with one dtype for all columns -/
  | uniform {cols : List κ} {t : τ} {f : DFrame κ τ} : cols.Nodup → DFrame.uniform cols t = .ok f →
      DHistory common float (cols.map fun c => (c, t)) f
  /-- `df.columns` -/
  | readColumns {T : List (κ × τ)} {f : DFrame κ τ} : DHistory common float T f → DHistory common float T f.readColumns
  /-- the cached dtypes look at the columns -/
  | syncCache {T : List (κ × τ)} {f : DFrame κ τ} : DHistory common float T f → DHistory common float T f.syncCache
  /-- `df.dtypes` -/
  | readDtypes {T l : List (κ × τ)} {f r : DFrame κ τ} : DHistory common float T f → f.readDtypes = .ok (l, r) →
      DHistory common float T r
  /-- an operation that keeps the columns and the dtypes -/
  | same {T : List (κ × τ)} {f r : DFrame κ τ} : DHistory common float T f → f.same = .ok r → DHistory common float T r
  /-- a selection of columns -/
  | take {T : List (κ × τ)} {f r : DFrame κ τ} {pos : List Nat} : DHistory common float T f →
      (∀ l, f.cache = some (.series l) → l = T) → pos.Nodup → f.take pos = .ok r →
      DHistory common float (pos.filterMap fun i => T[i]?) r
  /-- a reordering of columns -/
  | reorder {T : List (κ × τ)} {f r : DFrame κ τ} {pos : List Nat} : DHistory common float T f →
      (∀ l, f.cache = some (.series l) → l = T) → pos.Nodup → f.reorder pos = .ok r →
      DHistory common float (pos.filterMap fun i => T[i]?) r
  /-- `df.columns = new` -/
  | rename {T : List (κ × τ)} {f r : DFrame κ τ} {new : List κ} {isIndex : Bool} : DHistory common float T f →
      (∀ l, f.cache = some (.series l) → l = T) → new.Nodup → new.length = T.length → f.rename new isIndex = .ok r →
      DHistory common float (new.zip (T.map (·.2))) r
  /-- `pd.concat([...], axis=1)` -/
  | beside {Ts : List (List (κ × τ))} {fs : List (DFrame κ τ)} {r : DFrame κ τ} : fs.length = Ts.length →
      (∀ (i : Nat) (h : i < fs.length) (h' : i < Ts.length), DHistory common float Ts[i] fs[i]) →
      (Ts.flatten.map (·.1)).Nodup → DFrame.beside fs = .ok r → DHistory common float Ts.flatten r
  /-- `pd.concat([...])` with the outer join, of frames whose cached dtypes name the columns later frames have too -/
  | stack {Ts : List (List (κ × τ))} {fs : List (DFrame κ τ)} {cols : List κ} {r : DFrame κ τ} : fs.length = Ts.length →
      (∀ (i : Nat) (h : i < fs.length) (h' : i < Ts.length), DHistory common float Ts[i] fs[i]) →
      (∀ (i j : Nat) (f g : DFrame κ τ), i < j → fs[i]? = some f → fs[j]? = some g → ∀ c ∈ f.schema.map (·.1),
        c ∈ g.schema.map (·.1) → ∀ d, f.cache = some (.desc d) → c ∈ d.known.map (·.1) ∨ c ∈ d.unknown) → cols.Nodup →
      (∀ c, c ∈ cols ↔ ∃ T ∈ Ts, c ∈ T.map (·.1)) → DFrame.stack common float fs cols = .ok r →
      DHistory common float (cols.map fun c => (c, common (Ts.map fun T => ((T.find? (·.1 = c)).map (·.2)).getD float))) r
  /-- `df.insert(loc, c, value)` -/
  | insert {T : List (κ × τ)} {f r : DFrame κ τ} {loc : Nat} {c : κ} {t : τ} : DHistory common float T f →
      c ∉ T.map (·.1) → f.insert loc c t t = .ok r → DHistory common float (T.take loc ++ (c, t) :: T.drop loc) r
  /-- `df[c] = value` of a column that is there -/
  | setItem {T : List (κ × τ)} {f r : DFrame κ τ} {c : κ} {t : τ} : DHistory common float T f → c ∈ T.map (·.1) →
      f.setItem c t t = .ok r → DHistory common float (T.map fun e => if e.1 = c then (c, t) else e) r

theorem dictGet_find [DecidableEq κ] : ∀ (T : List (κ × τ)) (c : κ), dictGet T c = (T.find? (·.1 = c)).map (·.2)
  | [], _ => rfl
  | e :: T, c => by
    simp only [dictGet, List.find?_cons]
    by_cases h : e.1 = c
    · simp [h]
    · simp [h, dictGet_find T c]

theorem DHistory.described [DecidableEq κ] [DecidableEq τ] {common : List τ → τ} {float : τ} {T : List (κ × τ)}
    {f : DFrame κ τ} (h : DHistory common float T f) : f.Described ∧ f.schema = T := by
  induction h with
  | fresh hn hb => obtain ⟨h1, h2, -⟩ := DFrame.build_described hn (by simp) hb; exact ⟨h1, h2⟩
  | given hn hb =>
    obtain ⟨h1, h2, -⟩ := DFrame.build_described hn (by
      intro x hx
      rw [Option.some.injEq] at hx
      subst hx
      exact List.Perm.refl _) hb
    exact ⟨h1, h2⟩
  | uniform hn hb => exact DFrame.uniform_described hn hb
  | readColumns _ ih => exact ⟨(DFrame.readColumns_described ih.1).1, ih.2⟩
  | syncCache _ ih => exact ⟨(DFrame.syncCache_described ih.1).1, ih.2⟩
  | readDtypes _ hr ih =>
    obtain ⟨l, f', e, -, h2, h3⟩ := DFrame.readDtypes_described ih.1
    rw [e, Except.ok.injEq, Prod.mk.injEq] at hr
    rw [← hr.2]
    exact ⟨h2, h3.trans ih.2⟩
  | same _ hr ih =>
    obtain ⟨h1, h2⟩ := DFrame.same_described ih.1 hr
    exact ⟨h1, h2.trans ih.2⟩
  | take _ ho hp hr ih =>
    obtain ⟨i1, i2⟩ := ih
    subst i2
    exact DFrame.take_described i1 ho hp hr
  | reorder _ ho hp hr ih =>
    obtain ⟨i1, i2⟩ := ih
    subst i2
    exact DFrame.reorder_described i1 ho hp hr
  | rename _ ho hn hl hr ih =>
    obtain ⟨i1, i2⟩ := ih
    subst i2
    exact DFrame.rename_described i1 ho hn hl hr
  | @beside Ts fs r hlen _ hn hr ih =>
    have hsch : fs.map (·.schema) = Ts := by
      apply List.ext_getElem (by simpa using hlen)
      intro i h1 h2
      rw [List.getElem_map]
      exact (ih i (by simpa using h1) h2).2
    have hfl : fs.flatMap (·.schema) = Ts.flatten := by rw [List.flatMap_def, hsch]
    obtain ⟨g1, g2⟩ := DFrame.beside_described (fs := fs) (by
      intro f hf
      obtain ⟨i, hi, rfl⟩ := List.getElem_of_mem hf
      exact (ih i hi (hlen ▸ hi)).1) (by rw [hfl]; exact hn) hr
    exact ⟨g1, g2.trans hfl⟩
  | @stack Ts fs cols r hlen _ hnm hn hc hr ih =>
    have hsch : fs.map (·.schema) = Ts := by
      apply List.ext_getElem (by simpa using hlen)
      intro i h1 h2
      rw [List.getElem_map]
      exact (ih i (by simpa using h1) h2).2
    obtain ⟨g1, g2⟩ := DFrame.stack_described common float (fs := fs) (by
      intro f hf
      obtain ⟨i, hi, rfl⟩ := List.getElem_of_mem hf
      exact (ih i hi (hlen ▸ hi)).1) hnm hn (by
      intro c
      rw [hc, ← hsch]
      constructor
      · rintro ⟨T, hT, h⟩
        obtain ⟨f, hf, rfl⟩ := List.mem_map.mp hT
        exact ⟨f, hf, h⟩
      · rintro ⟨f, hf, h⟩
        exact ⟨f.schema, List.mem_map_of_mem hf, h⟩) hr
    refine ⟨g1, g2.trans ?_⟩
    rw [hsch]
    apply List.map_congr_left
    intro c _
    simp only [stackedDtype, dictGet_find]
  | insert _ hc hr ih =>
    obtain ⟨i1, i2⟩ := ih
    subst i2
    exact DFrame.insert_described i1 hc hr
  | setItem _ hc hr ih =>
    obtain ⟨i1, i2⟩ := ih
    subst i2
    exact DFrame.setItem_described i1 hc hr

/-- **C30** (partial): after any such history `df.dtypes` is answered, and every column is reported once, with the dtype
    it truly has.  Partial: columns are distinct labels; positions are used only on dtypes cached in the order of the
    columns (`C30_misordered_rename`, `C30_misordered_take` are what happens otherwise); frames on top of each other
    name the columns they share with later frames (`C30_stack_forgets_remaining`) and keep all of them (`C30_stack_inner`); the order of the report
    is the subject of `C30_order_partial`; operations may raise instead (`C30_reorder_raises`, `C30_insert_raises`,
    `C30_same_raises`, `C30_setitem_raises`). -/
theorem C30_dtypes_right_partial [DecidableEq κ] [DecidableEq τ] {common : List τ → τ} {float : τ} {T : List (κ × τ)}
    {f : DFrame κ τ} (h : DHistory common float T f) :
    ∃ l f', f.readDtypes = .ok (l, f') ∧ l.Perm T := by
  obtain ⟨h1, h2⟩ := h.described
  obtain ⟨l, f', e, hl, -⟩ := DFrame.readDtypes_described h1
  exact ⟨l, f', e, h2 ▸ hl⟩

/-- **C30** (partial): the report is in the order of the columns if the cached dtypes are still incomplete and the columns
    are known. -/
theorem C30_order_partial [DecidableEq κ] [DecidableEq τ] {common : List τ → τ} {float : τ} {T : List (κ × τ)}
    {f : DFrame κ τ} (h : DHistory common float T f) {d : DDesc κ τ} {p : DParent κ τ} (hd : f.cache = some (.desc d))
    (hs : d.schemaKnown = false) (hp : d.parent = some p) (hc : d.order.isSome = true ∨ p.colsKnown = true) :
    ∃ f', f.readDtypes = .ok (T, f') := by
  obtain ⟨h1, h2⟩ := h.described
  subst h2
  obtain ⟨g1, q, g2, g3⟩ := h1.desc d hd
  rw [hp, Option.some.injEq] at g2
  subst g2
  obtain ⟨r, e, -, hr⟩ := DDesc.materialize_ok h1.nodup g1 hp g3
  unfold DFrame.readDtypes
  rw [hd]
  simp only [MDtypes.get, e, Except.map, hr hs hc]
  exact ⟨_, rfl⟩

/-- **C30** (partial): the set of dtypes, without looking at columns whose dtype is known: every dtype is in it, and
    nothing else except possibly the remaining dtype (`C30_dtypes_set_extra`). -/
theorem C30_dtypes_set_partial [DecidableEq κ] [DecidableEq τ] {common : List τ → τ} {float : τ} {T : List (κ × τ)}
    {f : DFrame κ τ} (h : DHistory common float T f) {d : DDesc κ τ} (hd : f.cache = some (.desc d)) :
    ∃ l, d.dtypesSet = .ok l ∧ (∀ e ∈ T, e.2 ∈ l) ∧ ∀ t ∈ l, d.remaining = some t ∨ ∃ e ∈ T, e.2 = t := by
  obtain ⟨h1, h2⟩ := h.described
  subst h2
  obtain ⟨g1, q, g2, g3⟩ := h1.desc d hd
  exact DDesc.dtypesSet_right h1.nodup g1 g2 g3

/-! ### histories -/

namespace DtypesWitness

inductive Dt where
  | int | float | obj
deriving DecidableEq, Repr

def common (l : List Dt) : Dt :=
  if l.all (· = .int) then .int else if l.all (· ≠ .obj) then .float else .obj

deriving instance DecidableEq for Except

abbrev F := Except DErr (DFrame Nat Dt)

def fresh (l : List (Nat × Dt)) (known : Bool) : F := DFrame.build l known none
def given (l : List (Nat × Dt)) (known : Bool) : F := DFrame.build l known (some (.series l))
def report (f : F) : Except DErr (List (Nat × Dt)) := f.bind fun f => f.readDtypes.map (·.1)
/-- what the columns truly have -/
def truth (f : F) : Except DErr (List (Nat × Dt)) := f.map (·.schema)

/-- The result of a computation that does not raise. -/
def ok! (f : F) (h : (match f with | .ok _ => true | .error _ => false) = true) : DFrame Nat Dt :=
  match f, h with
  | .ok x, _ => x

theorem ok!_eq (f : F) (h) : f = .ok (ok! f h) := by
  cases f with
  | ok x => rfl
  | error e => exact absurd h (by simp)

def a : DFrame Nat Dt := ok! (fresh [(0, .int), (1, .obj)] true) (by decide +kernel)
theorem a_eq : fresh [(0, .int), (1, .obj)] true = .ok a := ok!_eq _ _
def b : DFrame Nat Dt := ok! (DFrame.uniform [2, 3] .float) (by decide +kernel)
theorem b_eq : DFrame.uniform [2, 3] Dt.float = .ok b := ok!_eq _ _
def c : DFrame Nat Dt := ok! (DFrame.beside [a, b]) (by decide +kernel)
theorem c_eq : DFrame.beside [a, b] = .ok c := ok!_eq _ _
def d : DFrame Nat Dt := ok! (c.take [3, 0, 1]) (by decide +kernel)
theorem d_eq : c.take [3, 0, 1] = .ok d := ok!_eq _ _
def e : DFrame Nat Dt := ok! (d.rename [7, 8, 9] true) (by decide +kernel)
theorem e_eq : d.rename [7, 8, 9] true = .ok e := ok!_eq _ _
def g : DFrame Nat Dt := ok! (e.insert 1 5 .int .int) (by decide +kernel)
theorem g_eq : e.insert 1 5 .int .int = .ok g := ok!_eq _ _
def h : DFrame Nat Dt := ok! (g.setItem 8 .float .float) (by decide +kernel)
theorem h_eq : g.setItem 8 .float .float = .ok h := ok!_eq _ _

attribute [irreducible] a b c d e g h

theorem not_series {f : DFrame Nat Dt} (h : (match f.cache with | some (.series _) => true | _ => false) = false)
    (T : List (Nat × Dt)) : ∀ l, f.cache = some (.series l) → l = T := by
  intro l hl
  rw [hl] at h
  exact absurd h (by simp)

theorem a_history : DHistory common .float [(0, .int), (1, .obj)] a := DHistory.fresh (by decide) a_eq

theorem b_history : DHistory common .float [(2, .float), (3, .float)] b := DHistory.uniform (cols := [2, 3]) (by decide) b_eq

/-- two frames side by side, one with one dtype for all columns -/
theorem c_history : DHistory common .float [(0, .int), (1, .obj), (2, .float), (3, .float)] c :=
  DHistory.beside (Ts := [[(0, .int), (1, .obj)], [(2, .float), (3, .float)]]) (fs := [a, b]) rfl
    (by
      intro i hi _
      match i with
      | 0 => exact a_history
      | 1 => exact b_history
      | n + 2 => exact absurd hi (by simp))
    (by decide) c_eq

theorem d_history : DHistory common .float [(3, .float), (0, .int), (1, .obj)] d :=
  DHistory.take (pos := [3, 0, 1]) c_history (not_series (by decide +kernel) _) (by decide) d_eq

theorem e_history : DHistory common .float [(7, .float), (8, .int), (9, .obj)] e :=
  DHistory.rename (new := [7, 8, 9]) (isIndex := true) d_history (not_series (by decide +kernel) _) (by decide) (by decide)
    e_eq

theorem g_history : DHistory common .float [(7, .float), (5, .int), (8, .int), (9, .obj)] g :=
  DHistory.insert (loc := 1) (c := 5) (t := Dt.int) e_history (by decide) g_eq

theorem h_history : DHistory common .float [(7, .float), (5, .int), (8, .float), (9, .obj)] h :=
  DHistory.setItem (c := 8) (t := Dt.float) g_history (by decide) h_eq

end DtypesWitness

open DtypesWitness in
/-- the hypotheses of `C30_dtypes_right_partial`: a history of five operations, with dtypes known in part -/
example : DHistory DtypesWitness.common .float [(7, .float), (5, .int), (8, .float), (9, .obj)] h ∧
    ∃ d, h.cache = some (.desc d) ∧ d.unknown = [9] ∧ d.known = [(7, .float), (5, .int), (8, .float)] :=
  ⟨h_history, { known := [(7, .float), (5, .int), (8, .float)], unknown := [9], unknownIsIndex := false, remaining := none
                parent := some h.parent, order := some [7, 5, 8, 9], allNames := true, schemaKnown := false },
    by decide +kernel, rfl, rfl⟩

open DtypesWitness in
/-- the hypotheses of `C30_order_partial` -/
example : ∃ d p, h.cache = some (.desc d) ∧ d.schemaKnown = false ∧ d.parent = some p ∧ p.colsKnown = true :=
  ⟨{ known := [(7, .float), (5, .int), (8, .float)], unknown := [9], unknownIsIndex := false, remaining := none
     parent := some h.parent, order := some [7, 5, 8, 9], allNames := true, schemaKnown := false }, h.parent,
    by decide +kernel, rfl, rfl, by decide +kernel⟩

open DtypesWitness in
/-- frames on top of each other: the common types -/
example : report ((given [(0, .int), (1, .int)] true).bind fun a => (fresh [(1, .int), (2, .obj)] true).bind fun b =>
    DFrame.stack DtypesWitness.common .float [a, b] [0, 1, 2]) = .ok [(0, .float), (1, .int), (2, .obj)] := by
  decide +kernel

open DtypesWitness in
/-- the last frame may be described by one dtype -/
example : report ((given [(0, .int)] true).bind fun a => (DFrame.uniform [0, 1] .int).bind fun b =>
    DFrame.stack DtypesWitness.common .float [a, b] [0, 1]) = .ok [(0, .int), (1, .float)] := by
  decide +kernel

/-! ### what goes wrong -/

open DtypesWitness in
/-- Reordering raises: a column with an unknown dtype next to columns described by one dtype (dtypes.py:245 passes the
    remaining dtype together with an order, line 110 forbids it, dataframe.py:1655 catches something else). -/
theorem C30_reorder_raises :
    ((fresh [(0, .int)] true).bind fun a => (DFrame.uniform [1] .float).bind fun b =>
      (DFrame.beside [a, b]).bind fun c => c.reorder [1, 0]) = (.error .value : F) := by decide +kernel

open DtypesWitness in
/-- `pd.concat([a, b])` of frames of integers that share all columns: the columns are reported as floats, since the
    columns of `a` are not named in its dtypes (dtypes.py:513 fills only the rows there are). -/
theorem C30_stack_forgets_remaining :
    let r := (DFrame.uniform [0, 1] .int).bind fun a => (given [(0, .int), (1, .int)] true).bind fun b =>
      DFrame.stack DtypesWitness.common .float [a, b] [0, 1]
    truth r = .ok [(0, .int), (1, .int)] ∧ report r = .ok [(0, .float), (1, .float)] := by decide +kernel

open DtypesWitness in
/-- `pd.concat([a, b], join="inner")`: a column that is not in the result is reported. -/
theorem C30_stack_inner :
    let r := (given [(0, .int), (1, .int)] true).bind fun a => (given [(0, .int)] true).bind fun b =>
      DFrame.stack DtypesWitness.common .float [a, b] [0]
    truth r = .ok [(0, .int)] ∧ report r = .ok [(0, .int), (1, .float)] := by decide +kernel

open DtypesWitness in
/-- Inserting a column raises after `df.columns = pandas.Index(...)` on a frame whose columns were not known
    (dtypes.py:312 keeps the `Index`, line 580 adds it to a list). -/
theorem C30_insert_raises :
    ((DFrame.uniform [0, 1] .int).bind fun b => (b.rename [5, 6] true).bind fun c => c.insert 0 9 .int .int) =
      (.error .value : F) := by decide +kernel

open DtypesWitness in
/-- with a list of labels instead it works -/
example : report ((DFrame.uniform [0, 1] .int).bind fun b => (b.rename [5, 6] false).bind fun c => c.insert 0 9 .int .int) =
    .ok [(9, .int), (5, .int), (6, .int)] := by decide +kernel

open DtypesWitness in
/-- A copy raises: a frame described by one dtype that turns out to have no columns (dtypes.py:169 keeps the remaining
    dtype, line 110 forbids it next to an order). -/
theorem C30_same_raises :
    ((DFrame.uniform [] .int).bind fun b => b.readColumns.same) = (.error .value : F) := by decide +kernel

open DtypesWitness in
/-- `df[c] = value` raises on a frame without cached dtypes (query_compiler.py:3205 makes a `ModinDtypes` of `None`). -/
theorem C30_setitem_raises : ((fresh [(0, .int)] false).bind fun a => a.setItem 0 .obj .obj) = (.error .type : F) := by
  decide +kernel

open DtypesWitness in
/-- Renaming dtypes that are in another order than the columns: `pd.concat([a, a], sort=True)` and then new labels. -/
theorem C30_misordered_rename :
    let r := (given [(1, .int), (0, .obj)] true).bind fun a =>
      (DFrame.stack DtypesWitness.common .float [a, a] [0, 1]).bind fun c => c.rename [7, 8] true
    truth r = .ok [(7, .obj), (8, .int)] ∧ report r = .ok [(7, .int), (8, .obj)] := by decide +kernel

open DtypesWitness in
/-- Selecting from dtypes that are in another order than the columns: the first of two frames put side by side is
    described by one dtype, the columns are looked at, the frame is copied, its first column is taken. -/
theorem C30_misordered_take :
    let r := (DFrame.uniform [0] .int).bind fun a => (given [(1, .obj)] true).bind fun b =>
      (DFrame.beside [a, b]).bind fun c => c.readColumns.same.bind fun d => d.take [0]
    truth r = .ok [(0, .int)] ∧ report r = .ok [(1, .obj)] := by decide +kernel

open DtypesWitness in
/-- `get_dtypes_set` of a frame beside a frame without columns: a dtype that no column has. -/
theorem C30_dtypes_set_extra :
    (((given [(0, .int)] true).bind fun a => (DFrame.uniform [] .float).bind fun b => DFrame.beside [a, b]).bind fun f =>
      match f.cache with
      | some (.desc d) => (d.dtypesSet.map fun l => (l, f.schema))
      | _ => .error .type) = .ok ([.int, .float], [(0, .int)]) := by decide +kernel
