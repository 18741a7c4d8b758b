import Verif.Pandas.CaseWhen
import Verif.Model.Concat
import Verif.Model.Labels
/-
`Series.case_when`.
Models modin/pandas/series.py (`case_when`), modin/core/storage_formats/pandas/query_compiler.py (`case_when`),
modin/core/dataframe/pandas/dataframe/dataframe.py (`case_when`) and modin/core/dataframe/base/dataframe/utils.py (`is_trivial_index`).
A Series is a frame of one column.  dtypes and the names of the operands are not modelled.
-/

variable {L α : Type}

/-- A condition or replacement as it is given: a Modin Series, or anything else. -/
inductive CaseData (L α : Type) where
  | frame (m : MFrame L L α)
  | plain (a : CaseArg L α)

/-- modin/core/dataframe/base/dataframe/utils.py:158-182 `is_trivial_index`; `num i` is the integer label `i` -/
def trivialIndex [DecidableEq L] (num : Nat → L) (index : List L) : Bool := index == (List.range index.length).map num

/-- modin/core/dataframe/pandas/dataframe/dataframe.py:4917-4932: a pandas Series is brought to the rows of the frame -/
def CaseArg.toRows [DecidableEq L] (num : Nat → L) (fill : α) (index : List L) : CaseArg L α → Option (CaseArg L α)
  | .series idx cs =>
    if trivialIndex num index && trivialIndex num idx then
      some (.series (idx.take index.length ++ ((List.range index.length).drop (idx.take index.length).length).map num)
        (cs.take index.length ++ List.replicate (index.length - (cs.take index.length).length) fill))
    else (seriesFor fill index idx cs).map fun x => .series index x
  | a => some a

def CaseData.toRows [DecidableEq L] (num : Nat → L) (fill : α) (index : List L) : CaseData L α → Option (CaseData L α)
  | .frame m => some (.frame m)
  | .plain a => (a.toRows num fill index).map .plain

/-- the Modin frames of a list of operands -/
def framesOf : List (CaseData L α) → List (MFrame L L α)
  | [] => []
  | .frame m :: ds => m :: framesOf ds
  | .plain _ :: ds => framesOf ds

/-- `self.index.join(other, how="left", sort=False)`: the frame's own labels.  Simplification: only if the other labels are distinct, or
    the same (with others the join repeats rows; pandas' `case_when` raises then). -/
def leftKeep [DecidableEq L] : JoinOps L :=
  { first := true
    merge := fun l _ => l
    join2 := fun l r => (l, (List.range l.length).map some, if r = l then (List.range l.length).map some else l.map fun x => r.findIdx? (· == x)) }

/-- modin/core/dataframe/pandas/dataframe/dataframe.py:4944-4965: the Modin frames are divided like `m`, and made frames again -/
def alignCases [DecidableEq L] (cfg : Cfg) (fill : α) (m : MFrame L L α) (ds : List (CaseData L α)) : Option (List (MFrame L L α)) :=
  (copartition leftKeep cfg true fill m (framesOf ds)).bind fun c => (c.1.drop 1).mapM fun g =>
    MFrame.mk' { parts := g, index := c.2.1, columns := some m.getColumns, rowLens := c.2.2, colWidths := some [1] }

/-- modin/core/dataframe/pandas/dataframe/dataframe.py:4967-4977: the frames replaced one after the other -/
def nextFrames : List (CaseData L α) → List (MFrame L L α) → List (CaseData L α)
  | [], _ => []
  | .frame _ :: ds, f :: fs => .frame f :: nextFrames ds fs
  | d :: ds, fs => d :: nextFrames ds fs

/-- modin/core/dataframe/pandas/dataframe/dataframe.py:4985-5000 `map_data` (and `squeeze` in `remote_fn`, lines 4890-4898): what block
    number `i`, with `len` rows from `offset`, gets of an operand.  `none`: there is no such partition (`IndexError`). -/
def CaseData.chunk (i len offset : Nat) : CaseData L α → Option (CaseArg L α)
  | .frame m => (m.parts[i]?.bind (·[0]?)).map fun b => .series b.index (b.column 0)
  | .plain (.series idx cs) => some (.series (pySlice idx offset (offset + len)) (pySlice cs offset (offset + len)))
  | .plain (.array cs) => some (.array (pySlice cs offset (offset + len)))
  | .plain a => some a

/-- modin/core/dataframe/pandas/dataframe/dataframe.py:4888-4900 `remote_fn` -/
def caseBlock [DecidableEq L] (flag : α → Bool) (tt nan : α) (name : L) (cases : List (CaseArg L α × CaseArg L α)) (b : Frame L L α) :
    Option (Frame L L α) :=
  (caseWhen flag tt nan b.index (b.column 0) cases).map fun vals => oneColumn b.index name vals

/-- modin/core/dataframe/pandas/dataframe/dataframe.py:5002-5027: block by block -/
def caseParts [DecidableEq L] (flag : α → Bool) (tt nan : α) (name : L) (cases : List (CaseData L α × CaseData L α)) :
    Nat → Nat → List (Frame L L α × Nat) → Option (List (List (Frame L L α)))
  | _, _, [] => some []
  | i, offset, (part, len) :: rest =>
    (cases.mapM fun (c : CaseData L α × CaseData L α) => (c.1.chunk i len offset).bind fun a => (c.2.chunk i len offset).map fun r => (a, r)).bind fun cs =>
    (caseBlock flag tt nan name cs part).bind fun b =>
    (caseParts flag tt nan name cases (i + 1) (offset + len) rest).map fun bs => [b] :: bs

/-- modin/core/dataframe/pandas/dataframe/dataframe.py:4934: conditions and replacements that need no division -/
def CaseData.whole : CaseData L α → Bool
  | .plain (.scalar _) => true
  | .plain (.fn _) => true
  | _ => false

/-- modin/core/dataframe/pandas/dataframe/dataframe.py:4869-5037 `case_when` (not decorated: pending labels are not written).  The
    map of lines 4981-4982 is lazy and block by block here (`DynamicPartitioning` off). -/
def LFrame.caseWhen [DecidableEq L] (cfg : Cfg) (num : Nat → L) (flag : α → Bool) (tt nan : α) (cases : List (CaseData L α × CaseData L α))
    (m : LFrame L L α) : Option (LFrame L L α) :=
  m.getColumns.head?.bind fun name =>
  (cases.mapM fun (c : CaseData L α × CaseData L α) => (c.1.toRows num tt m.getIndex).bind fun a => (c.2.toRows num nan m.getIndex).map fun r => (a, r)).bind fun cs =>
  (alignCases cfg tt m.toMFrame (cs.map (·.1))).bind fun conds => (alignCases cfg nan m.toMFrame (cs.map (·.2))).bind fun repls =>
  let cs' := (nextFrames (cs.map (·.1)) conds).zip (nextFrames (cs.map (·.2)) repls)
  if cases.all fun c => c.1.whole && c.2.whole then
    (cs'.mapM fun (c : CaseData L α × CaseData L α) => (c.1.chunk 0 0 0).bind fun a => (c.2.chunk 0 0 0).map fun r => (a, r)).bind fun as =>
    (m.parts.mapM fun (row : List (Frame L L α)) => row.mapM (caseBlock flag tt nan name as)).bind fun g =>
    (MFrame.mk' { parts := g, index := m.index, columns := m.columns, rowLens := m.rowLens, colWidths := m.colWidths }).map
      fun r => { r with defIndex := m.defIndex, defColumns := m.defColumns }
  else
    (caseParts flag tt nan name cs' 0 0 ((m.parts.filterMap (·[0]?)).zip m.getRowLens)).bind fun g =>
    (MFrame.mk' { parts := g, index := some m.getIndex, columns := some m.getColumns, rowLens := some m.getRowLens, colWidths := some [1] }).map
      fun r => { r with defIndex := false, defColumns := false }
