import Verif.Model.LocGet
import Verif.Model.Mask
import Verif.Pandas.Portion
/-
`head`, `tail`, `take`, `truncate`, `filter` and `sample`.
Models modin/pandas/base.py (these methods, `__getitem__`), modin/pandas/indexing.py (`_iLocIndexer.__getitem__`) and
modin/core/storage_formats/pandas/query_compiler.py (`getitem_array`, `getitem_column_array`, `getitem_row_array`).
Without multi-level labels.  The labels of `truncate` are integers; for `filter` the test of a label (`isin`, `like in str(x)`,
`matcher.search(str(x))`) is a function; of `sample` the weights are part of the generator.
-/

variable {ι κ α L : Type}

/-- `default_to_pandas`: pandas' function on the whole frame; the result becomes a new frame -/
def LFrame.throughPandas [DecidableEq ι] [DecidableEq κ] (cfg : Cfg) (nan : α) (f : Frame ι κ α → Option (Frame ι κ α)) (m : LFrame ι κ α) :
    Option (LFrame ι κ α) :=
  (m.toPandas nan).bind fun df => (f df).bind fun g => (fromPandas cfg g).map fun r => { r with defIndex := false, defColumns := false }

/-- modin/pandas/indexing.py:1089-1128 `df.iloc[r, c]` with keys that keep both axes; an empty frame (modin/pandas/dataframe.py:375) is
    handed to pandas -/
def LFrame.ilocPart [DecidableEq ι] [DecidableEq κ] (cfg : Cfg) (known : Nat → Nat → Bool × Bool) (nan : α) (r c : IKey)
    (m : LFrame ι κ α) : Option (LFrame ι κ α) :=
  if m.getColumns.length = 0 ∨ m.getIndex.length = 0 then m.throughPandas cfg nan (Frame.ilocPart r c)
  else (r.readLookup m.getIndex.length).bind fun rp => (c.readLookup m.getColumns.length).bind fun cp => m.take2d cfg known rp cp

/-- modin/pandas/base.py:1953-1957 `head` -/
def LFrame.head [DecidableEq ι] [DecidableEq κ] (cfg : Cfg) (known : Nat → Nat → Bool × Bool) (nan : α) (n : Int) (m : LFrame ι κ α) :
    Option (LFrame ι κ α) :=
  m.ilocPart cfg known nan (.slice none (some n)) (.slice none none)

/-- modin/pandas/base.py:3232-3238 `tail` -/
def LFrame.tail [DecidableEq ι] [DecidableEq κ] (cfg : Cfg) (known : Nat → Nat → Bool × Bool) (nan : α) (n : Int) (m : LFrame ι κ α) :
    Option (LFrame ι κ α) :=
  if n ≠ 0 then m.ilocPart cfg known nan (.slice (some (-n)) none) (.slice none none)
  else m.ilocPart cfg known nan (.slice (some (m.getIndex.length : Int)) none) (.slice none none)

/-- modin/pandas/base.py:3240-3246 `take` with a list of integers -/
def LFrame.take [DecidableEq ι] [DecidableEq κ] (cfg : Cfg) (known : Nat → Nat → Bool × Bool) (nan : α) (axis0 : Bool) (indices : List Int)
    (m : LFrame ι κ α) : Option (LFrame ι κ α) :=
  if axis0 then m.ilocPart cfg known nan (.list indices) (.slice none none)
  else m.ilocPart cfg known nan (.slice none none) (.list indices)

/-- modin/pandas/base.py:3694-3713 `truncate`; `slice_locs` is pandas' `intSlicer` -/
def LFrame.truncate (cfg : Cfg) (known : Nat → Nat → Bool × Bool) (nan : α) (axis0 : Bool) (before after : Option Int)
    (m : LFrame Int Int α) : Option (LFrame Int Int α) :=
  let labels := if axis0 then m.getIndex else m.getColumns
  if ¬ labels.Pairwise (· ≤ ·) ∧ ¬ labels.Pairwise (· ≥ ·) then none
  else if before.any (fun b => after.any fun a => decide (b > a)) then none
  else (intSlicer labels before after).bind fun s =>
  let key := IKey.slice (some (s.1 : Int)) (some (s.2 : Int))
  if axis0 then m.ilocPart cfg known nan key (.slice none none) else m.ilocPart cfg known nan (.slice none none) key

/-- `df[labels]` of pandas for an `Index` of labels: every column with the label, for each label -/
def Frame.getLabels [DecidableEq L] (labels : List L) (df : Frame L L α) : Option (Frame L L α) :=
  ((LKey.list labels).addressed df.columns).map df.takeCols

/-- modin/pandas/base.py:1893-1904 the end of `filter`: `self[bool_arr]` and `self[self.columns[bool_arr]]` (base.py:4001-4011:
    a frame without rows is handed to pandas; for the rows of such a frame `like` and `regex` make an empty Python list, `asList`,
    which pandas takes for a list of columns) -/
def LFrame.filterLabels [DecidableEq L] (cfg : Cfg) (known : Nat → Nat → Bool × Bool) (nan : α) (axis0 asList : Bool) (test : L → Bool)
    (m : LFrame L L α) : Option (LFrame L L α) :=
  if axis0 then
    let mask := m.getIndex.map test
    if m.getIndex.length = 0 then
      m.throughPandas cfg nan fun df => if asList then df.getLabels [] else df.getArray mask
    else m.getitemBoolArray cfg known mask
  else
    let labels := keepWhere (m.getColumns.map test) m.getColumns
    if m.getIndex.length = 0 then m.throughPandas cfg nan (Frame.getLabels labels)
    else if labels.any (fun x => !m.getColumns.contains x) then none
    else m.takeColLabels cfg known labels

/-- modin/pandas/base.py:1880-1881 `filter(items=items, axis=axis)` -/
def LFrame.filterItems [DecidableEq L] (cfg : Cfg) (known : Nat → Nat → Bool × Bool) (nan : α) (axis0 : Bool) (items : List L)
    (m : LFrame L L α) : Option (LFrame L L α) :=
  m.filterLabels cfg known nan axis0 false fun x => decide (x ∈ items)

/-- modin/pandas/base.py:1882-1900 `filter(like=...)` and `filter(regex=...)` -/
def LFrame.filterLike [DecidableEq L] (cfg : Cfg) (known : Nat → Nat → Bool × Bool) (nan : α) (axis0 : Bool) (test : L → Bool)
    (m : LFrame L L α) : Option (LFrame L L α) :=
  m.filterLabels cfg known nan axis0 true test

/-- modin/pandas/base.py:2922-2941 how many rows are drawn; `frac` is given as `int(round(frac * axis_length))` -/
def sampleCount (n frac : Option Int) : Option Nat :=
  let k : Option Int :=
    if n = none ∧ frac = none then some 1
    else if n = none then frac
    else if frac = none then n
    else none
  k.bind fun k => if k < 0 then none else some k.toNat

/-- modin/pandas/base.py:2862-2986 `sample`.  `choose len size` is the generator's `choice`.  `ignore_index` is used only when
    nothing is drawn. -/
def LFrame.sample [DecidableEq L] (cfg : Cfg) (known : Nat → Nat → Bool × Bool) (nan : α) (num : Nat → L)
    (choose : Nat → Nat → Option (List Nat)) (axis0 : Bool) (n frac : Option Int) (ignore : Bool) (m : LFrame L L α) :
    Option (LFrame L L α) :=
  (sampleCount n frac).bind fun size =>
  if size = 0 then m.throughPandas cfg nan (Frame.sample num choose axis0 (some 0) none ignore)
  else if axis0 then (choose m.getIndex.length size).bind fun ps => m.take2d cfg known (some (.array ps)) none
  else (choose m.getColumns.length size).bind fun ps => m.takeColLabels cfg known (takeList m.getColumns ps)
