import Verif.Pandas.Text
import Verif.Model.Chunking
import Verif.Pandas.Sort
/-
Reading delimited text files in parallel.
Models modin/core/io/text/text_file_dispatcher.py (`_read_rows`, `offset`, `rows_skipper_builder`, `partitioned_file`,
`_manage_skiprows_parameter`, `check_parameters_support`, `_get_new_qc`, `_read`) and
modin/core/storage_formats/pandas/parsers.py (`generic_parse`), for one-byte quote characters, `encoding=None`,
`names=None`, `usecols=None`, `skipfooter=0`.
-/

variable {B : Type} [DecidableEq B]

/-- Iterating over a binary file: physical lines, each with its newline (Python `for line in f`,
    modin/core/io/text/text_file_dispatcher.py:404). -/
def splitLines (nl : B) (bs : List B) : List (List B) := cutWith (fun (_ : Unit) _ => ()) (fun _ b => b = nl) () bs

/-- modin/core/io/text/text_file_dispatcher.py:404-410: the loop of `_read_rows`.  The result is (`outside_quotes`, rows
    read, bytes read). -/
def rowsLoop (quote : B) (quoting : Bool) (n : Nat) (outside : Bool) (rows used : Nat) : List (List B) → Bool × Nat × Nat
  | [] => (outside, rows, used)
  | line :: rest =>
    let o := if quoting && line.count quote % 2 != 0 then !outside else outside
    if o then
      if rows + 1 ≥ n then (o, rows + 1, used + line.length)
      else rowsLoop quote quoting n o (rows + 1) (used + line.length) rest
    else rowsLoop quote quoting n o rows (used + line.length) rest

/-- modin/core/io/text/text_file_dispatcher.py:350-419 `_read_rows`: (`outside_quotes`, rows read, new position).  The branch
    with `CustomNewlineIterator` (UTF-16 and the like) is not modelled. -/
def readRows (d : Dialect B) (file : List B) (n : Nat) (outside : Bool) (pos : Nat) : Bool × Nat × Nat :=
  if n = 0 then (true, 0, pos)
  else
    let r := rowsLoop d.quote d.quoting n outside 0 0 (splitLines d.nl (file.drop pos))
    (r.1, if r.1 then r.2.1 else r.2.1 + 1, pos + r.2.2)

/-- modin/core/io/text/text_file_dispatcher.py:502-513 `skipper`: the new position -/
def skipRows (d : Dialect B) (file : List B) (n pos : Nat) : Nat :=
  if n = 0 then pos else (readRows d file n true pos).2.2

/-- modin/core/io/text/text_file_dispatcher.py:149-204 `offset`: the new position -/
def offsetPos (d : Dialect B) (file : List B) (size pos : Nat) : Nat :=
  if d.quoting then
    let chunk := (file.drop pos).take size
    (readRows d file 1 (chunk.count d.quote % 2 = 0) (pos + chunk.length)).2.2
  else (readRows d file 1 true (pos + size)).2.2

/-- modin/core/io/text/text_file_dispatcher.py:331-348: the loop over byte ranges (`fuel`: at least the number of bytes left) -/
def byteLoop (d : Dialect B) (file : List B) (size : Nat) : Nat → Nat → List (Nat × Nat)
  | 0, _ => []
  | fuel + 1, pos =>
    if pos < file.length then
      (pos, offsetPos d file size pos) :: byteLoop d file size fuel (offsetPos d file size pos)
    else []

/-- modin/core/io/text/text_file_dispatcher.py:309-330: the loop over row ranges (`nrows`) -/
def rowLoop (d : Dialect B) (file : List B) (nrows : Nat) : Nat → Nat → Nat → Nat → List (Nat × Nat)
  | 0, _, _, _ => []
  | fuel + 1, size, counter, pos =>
    if pos < file.length ∧ counter < nrows then
      let size' := if counter + size > nrows then nrows - counter else size
      let r := readRows d file size' true pos
      (pos, r.2.2) :: rowLoop d file nrows fuel size' (counter + r.2.1) r.2.2
    else []

/-- modin/core/io/text/text_file_dispatcher.py:308-348: which loop runs; `nrows=0` counts as not given -/
def partitionLoop (d : Dialect B) (file : List B) (np : Nat) (nrows : Option Nat) (counter pos : Nat) : List (Nat × Nat) :=
  match nrows with
  | some (n + 1) => rowLoop d file (n + 1) (file.length + 1) (max 1 (max np ((n + 1) / np))) counter pos
  | _ => byteLoop d file (max 1 (max np (file.length / np))) (file.length + 1) pos

/-- modin/core/io/text/text_file_dispatcher.py:206-349 `partitioned_file`: the byte ranges to read.  Warnings and the
    metadata frame are not modelled; `num_partitions` is always given by `_read`. -/
def partitionedFile (d : Dialect B) (file : List B) (np : Nat) (nrows : Option Nat) (skip headerSize preReading : Nat) :
    List (Nat × Nat) :=
  let pre : List (Nat × Nat) × Nat × Nat :=
    if preReading ≠ 0 then
      let p0 := skipRows d file headerSize 0
      let r := readRows d file preReading true p0
      ([(p0, r.2.2)], r.2.1, skipRows d file skip r.2.2)
    else ([], 0, skipRows d file headerSize (skipRows d file skip 0))
  pre.1 ++ partitionLoop d file np nrows pre.2.1 pre.2.2

/-- what is left to skip after reading: `skiprows_md` -/
inductive SkipLater where
  | no
  | positions (ps : List Nat)
  | pred (f : Nat → Bool)

/-- `np.all(np.diff(l) == 1)` -/
def isRun : List Nat → Bool
  | a :: b :: rest => decide (b = a + 1) && isRun (b :: rest)
  | _ => true

/-- modin/core/io/text/text_file_dispatcher.py:831-853 `_manage_skiprows_parameter`: (`skiprows_md`, `pre_reading`,
    `skiprows_partitioning`) -/
def manageSkiprows (skip : Skip) (h : Nat) : SkipLater × Nat × Nat :=
  match skip with
  | .none => (.no, 0, 0)
  | .int k => (.no, 0, k)
  | .list ls =>
    match npSort ls with
    | [] => (.no, 0, 0)
    | s0 :: rest =>
      if isRun (s0 :: rest) then (.no, if s0 > h then s0 - h else 0, (s0 :: rest).length)
      else if s0 > h then (.positions ((s0 :: rest).map (· - h)), 0, 0)
      else (.positions (s0 :: rest), 0, 0)
  | .pred f => (.pred fun x => f (x + h), 0, 0)

/-- modin/core/io/text/text_file_dispatcher.py:708-724: does `skiprows` touch the header, as far as Modin can tell?  Then
    pandas reads the file. -/
def skipUnsupported (skip : Skip) (later : SkipLater) (h : Nat) : Bool :=
  match later, skip with
  | .positions (s0 :: _), _ => s0 < h
  | _, .pred f => (List.range h).any f
  | _, _ => false

/-- modin/core/io/text/text_file_dispatcher.py:1237-1245 `_uses_inferred_column_names` for `names=None`, `skipfooter=0`,
    `usecols=None` -/
def usesInferredNames : Skip → Bool
  | .none => false
  | .int k => k != 0
  | .list _ => true
  | .pred _ => true

/-- modin/core/storage_formats/pandas/parsers.py:167-231 `generic_parse` for `encoding=None`: the rows of one byte range.
    Unless the names are given, the first `h` physical lines of the file are put in front. -/
def parseRange (d : Dialect B) (blank : List B → Bool) (inferred : Bool) (h : Nat) (file : List B) (range : Nat × Nat) :
    List (List B) :=
  if inferred then pandasCsv d blank 0 .none none (pySlice file range.1 range.2)
  else pandasCsv d blank h .none none (((splitLines d.nl file).take h).flatten ++ pySlice file range.1 range.2)

/-- `if nrows: … .take_2d_positional(pandas.RangeIndex(nrows))`
    (modin/core/io/text/text_file_dispatcher.py:971-981); `nrows=0` counts as not given -/
def cutRows {A : Type} (nrows : Option Nat) (rows : List A) : List A :=
  match nrows with
  | some (n + 1) => rows.take (n + 1)
  | _ => rows

/-- modin/core/io/text/text_file_dispatcher.py:954-981 `_get_new_qc`: `skiprows_md` and `nrows` after reading; deleting a
    position that does not exist raises (`none`). -/
def skipAfterwards (later : SkipLater) (nrows : Option Nat) (rows : List (List B)) : Option (List (List B)) :=
  match later with
  | .no => some rows
  | .positions ps =>
    if ps.all (· < rows.length) then some (cutRows nrows ((rows.zipIdx.filter fun e => !ps.contains e.2).map (·.1))) else none
  | .pred f => some (cutRows nrows ((rows.zipIdx.filter fun e => !f e.2).map (·.1)))

/-- modin/core/io/text/text_file_dispatcher.py:988-1168 `_read` (the API layer adds nothing for these arguments) -/
def readCsv (d : Dialect B) (blank : List B → Bool) (np h : Nat) (skip : Skip) (nrows : Option Nat) (file : List B) :
    Option (List (List B)) :=
  let mng := manageSkiprows skip h
  if skipUnsupported skip mng.1 h then some (pandasCsv d blank h skip nrows file)
  else
    let later := match mng.1 with
      | .no => false
      | _ => true
    let ranges := partitionedFile d file np (if later then none else nrows) mng.2.2 h mng.2.1
    skipAfterwards mng.1 nrows (ranges.flatMap (parseRange d blank (usesInferredNames skip) h file))
