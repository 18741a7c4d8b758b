import Verif.Model.LocAssign
import Verif.Model.Share
import Verif.Pandas.NumpySetitem

/-!
# Model of `modin.numpy.array.__setitem__` and of `array(object, copy=False)`

Models `modin/numpy/indexing.py:479-536` and `modin/numpy/arr.py:155-237, 250-288`.  The frame is held in blocks (`LFrame`), writing to the
blocks is `writeItems` (Model/Assign.lean).  The dtype of the value is left out, and so are callables, `Ellipsis` and slices with a step.
-/

variable {L α : Type} [DecidableEq L]

/-- modin/numpy/indexing.py:505-536 `__setitem__`, 479-503 `_setitem_positional`: the axis that `_determine_setitem_axis` finds is not used.
    `_compute_lookup` (538-601) is the code of `iloc` (modin/pandas/indexing.py:1197-1235), `IKey.lookup`; a key that is not a tuple is the
    key of the rows, the columns get `slice(None)`. -/
def LFrame.npSetitem (m : LFrame L L α) (r : IKey) (c : Option IKey) (value : Item α) : Option (LFrame L L α) :=
  (r.lookup m.getIndex.length).bind fun rows => ((c.getD (.slice none none)).lookup m.getColumns.length).bind fun cols =>
  m.operation fun m1 => writeItems m1 rows cols value

/-- modin/numpy/arr.py:171-181 and 221-237: `array(o, copy=False)` of an array or a frame; the new object is a sibling of `o`, and its
    query compiler a copy with the labels 0, 1, ... and one dtype (`f`) -/
def ShareHeap.npWrap {C : Type} (h : ShareHeap C) (o : Nat) (f : C → C) : ShareHeap C :=
  ((h.alloc (f (h.shows o))).push h.nq none).addSibling o h.n
