import Verif.Model.Labels
import Verif.Model.Share
import Verif.Pandas.Rename

/-!
# Model of `rename`, `add_prefix`, `add_suffix` and `set_axis`

Models `modin/pandas/dataframe.py` (`rename`), `modin/pandas/series.py` (`rename`), `modin/pandas/base.py` (`set_axis`),
`modin/core/storage_formats/pandas/query_compiler.py` (`add_prefix`, `add_suffix`) and
`modin/core/dataframe/pandas/dataframe/dataframe.py` (`rename`).  `level` and `copy` of `rename` are left out.  An exception is `none`.
-/

variable {L α : Type} [DecidableEq L]

/-- modin/pandas/dataframe.py:1808-1854 `rename` with `inplace=False`.  1834 and 1839: all arguments are handed to pandas, with a frame that
    has only the row labels, or only the column labels. -/
def LFrame.rename (mapper index columns : Option (Renamer L)) (axis : Option Bool) (raises : Bool) (m : LFrame L L α) :
    Option (LFrame L L α) :=
  if mapper.isNone && index.isNone && columns.isNone then none
  else
    let bare : List L → List L → Frame L L α := fun i c => ⟨i, c, i.map fun _ => []⟩
    (if index.isSome || (mapper.isSome && axis != some true) then
      ((bare m.getIndex []).rename mapper index columns axis raises).map fun f => some f.index
     else some none).bind fun newIndex =>
    (if columns.isSome || (mapper.isSome && axis == some true) then
      ((bare [] m.getColumns).rename mapper index columns axis raises).map fun f => some f.columns
     else some none).bind fun newColumns =>
    m.copy.bind fun obj =>
    (match newIndex with | some l => obj.setIndex l | none => some obj).bind fun obj =>
    (match newColumns with | some l => obj.setColumns l | none => some obj)

/-- modin/pandas/series.py:1842-1847 `rename` with a dictionary or a function: the Series afterwards and what is returned.  `inplace` and
    `errors` are not handed on. -/
def LFrame.seriesRename (r : Renamer L) (_inplace _raises : Bool) (m : LFrame L L α) : Option (LFrame L L α × Option (LFrame L L α)) :=
  (m.copy.bind fun c => c.rename none (some r) none none false).map fun t => (m, some t)

/-- modin/core/storage_formats/pandas/query_compiler.py:439-457 `add_prefix`, `add_suffix` (`tag` makes the new label) and
    modin/core/dataframe/pandas/dataframe/dataframe.py:2507-2516 -/
def LFrame.addTag (tag : L → L) (axis1 : Bool) (m : LFrame L L α) : Option (LFrame L L α) :=
  m.copy.bind fun r => if axis1 then r.setColumns (r.getColumns.map tag) else r.setIndex (r.getIndex.map tag)

/-- modin/pandas/dataframe.py:391-407: `axis=None` means the columns -/
def LFrame.addPrefix (tag : L → L) (axis : Option Bool) (m : LFrame L L α) : Option (LFrame L L α) := m.addTag tag (axis.getD true)

/-- modin/pandas/base.py:3037-3041 `set_axis` on the heap of objects (Model/Share.lean): the number of the object that is returned and the
    heap; `f` gives the new labels -/
def ShareHeap.setAxis {C : Type} (h : ShareHeap C) (o : Nat) (f : C → C) (copy : Option Bool) : Option (Nat × ShareHeap C) :=
  if copy.getD true then
    (h.step (fun a _ => a) (.derive o id)).bind fun h1 => (h1.step (fun a _ => a) (.relabel h.n f)).map fun h2 => (h.n, h2)
  else (h.step (fun a _ => a) (.relabel o f)).map fun h1 => (o, h1)
