import Verif.Model.LocGet
import Verif.Model.Relabel
import Verif.Model.Share
import Verif.Pandas.CrossSection

/-!
# Model of `xs`, `get` and `pop`

Models `modin/pandas/base.py:4013-4097` (`xs`, labels of one level, `level=None`), `1935-1945` (`get`), `2385-2391` (`pop`) and
`modin/pandas/dataframe.py:2911-2922` (`__delitem__`).  `getLoc` is pandas' `Index.get_loc`.  An exception is `none`.
-/

variable {L α : Type} [DecidableEq L]

/-- modin/pandas/base.py:4078-4095: labels set again on the rows that were selected -/
def Located.withIndex (labels : List L) : Located L α → Option (Located L α)
  | .frame m => (m.setIndex labels).map .frame
  | .series m => (m.setIndex labels).map .series
  | .scalar a => some (.scalar a)

/-- modin/pandas/base.py:4048-4097 `xs`.  4052: `self[key]`.  4068-4073: a mask becomes positions, and `take` is `iloc` with a list
    (modin/pandas/base.py `take`). -/
def LFrame.xs (getLoc : List L → L → Option FoundAt) (cfg : Cfg) (known : Nat → Nat → Bool × Bool) (nan : α) (unnamed key : L)
    (axis1 dropLevel : Bool) (m : LFrame L L α) : Option (Located L α) :=
  if axis1 && dropLevel then m.itemAt cfg known nan unnamed (.column key)
  else
    let labels := if axis1 then m.getColumns else m.getIndex
    let iloc := fun k => if axis1 then m.ilocAt cfg known nan unnamed (.slice none none) k
      else m.ilocAt cfg known nan unnamed k (.slice none none)
    (getLoc labels key).bind fun loc =>
    match loc with
    | .mask bs => iloc (.list (((List.range bs.length).filter fun k => bs[k]? == some true).map Int.ofNat))
    | .one p => if axis1 then iloc (.slice (some p) (some (p + 1))) else iloc (.int p)
    | .span a b =>
      if axis1 then iloc (.slice (some a) (some b))
      else (iloc (.slice (some a) (some b))).bind (Located.withIndex (pySlice labels a b))

/-- modin/pandas/base.py:1941-1945 `get` for a column: the exception becomes the default (`none`) -/
def LFrame.getColumn (cfg : Cfg) (known : Nat → Nat → Bool × Bool) (nan : α) (unnamed key : L) (m : LFrame L L α) : Option (Located L α) :=
  m.itemAt cfg known nan unnamed (.column key)

/-- modin/pandas/base.py:2389-2391 `pop`: what is returned and the frame afterwards.  `delitem` is `drop(columns=[key])`,
    modin/core/storage_formats/base/query_compiler.py:5129-5143. -/
def LFrame.pop (cfg : Cfg) (known : Nat → Nat → Bool × Bool) (nan : α) (unnamed key : L) (m : LFrame L L α) :
    Option (Located L α × LFrame L L α) :=
  (m.itemAt cfg known nan unnamed (.column key)).bind fun s =>
  if key ∈ m.getColumns then (m.dropCompiled cfg known none (some [key])).map fun m' => (s, m') else none

/-- the same on the heap of objects (Model/Share.lean): the Series that is returned has the frame as its parent
    (modin/pandas/dataframe.py:2633-2635); `col` takes the column and `del` leaves it out -/
def ShareHeap.pop {C : Type} (put : C → C → C) (h : ShareHeap C) (o : Nat) (col del : C → C) : Option (ShareHeap C) :=
  (h.step put (.column o col)).bind fun h1 => h1.step put (.assign o del)
