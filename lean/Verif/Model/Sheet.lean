import Verif.Pandas.Sheet
import Verif.Model.Text
import Verif.Model.Readers
/-
`read_excel` and `read_json(lines=True)`.
Models modin/core/io/text/excel_dispatcher.py (`_read`), modin/core/io/text/json_dispatcher.py (`_read`),
modin/core/io/text/text_file_dispatcher.py (`_define_metadata`, `build_partition`) and modin/core/storage_formats/pandas/parsers.py
(`_split_result_for_readers`, `PandasExcelParser.parse`, `PandasJSONParser.parse`).
-/

variable {ι κ α : Type}

/-! ### putting a frame together from the results of the workers -/

/-- modin/core/io/text/text_file_dispatcher.py:549-598 `_define_metadata`: (`column_widths`, `num_splits`) -/
def defineMetadata (cfg : Cfg) (ncols : Nat) : Option (List Nat × Nat) :=
  let splits := min (if ncols = 0 then 1 else ncols) cfg.nPartitions
  (computeChunksize ncols splits cfg.minCol).map fun c =>
    if c > ncols then ([ncols], 1)
    else ((List.range splits).map fun i => if ncols > c * (i + 1) then c else if ncols < c * i then 0 else ncols - c * i, splits)

/-- modin/core/io/text/json_dispatcher.py:78-118 and modin/core/io/text/excel_dispatcher.py:247-285: every worker cuts its result
    (modin/core/storage_formats/pandas/parsers.py:100-128) into `num_splits` pieces; the rows are numbered, the labels of the columns and all
    sizes are recorded, and the numbers of the rows are to be written to the blocks (`synchronize_labels`). -/
def assembleRead (cfg : Cfg) (num : Int → ι) (cols : List κ) (results : List (Frame ι κ α)) : Option (LFrame ι κ α) :=
  (defineMetadata cfg cols.length).bind fun md =>
  (results.mapM fun df => splitResult false md.2 df cfg.minCol none).bind fun g =>
  let rl := results.map (·.nrows)
  (MFrame.mk' { parts := g, index := some (rangeLabels num 0 1 rl.sum), columns := some cols, rowLens := some rl,
                colWidths := some md.1 }).map fun m => { m with defIndex := true, defColumns := false }

/-! ### `read_json(lines=True)` -/

/-- modin/core/storage_formats/pandas/parsers.py:649-672 `PandasJSONParser.parse` of a byte range: pandas reads its lines (blank ones do
    not count, `decode` reads one line, `none`: not valid JSON), at most `nrows` of them; the columns have to be those of the first line -/
def jsonParse {B : Type} [DecidableEq B] [DecidableEq κ] (nl : B) (blank : List B → Bool) (decode : List B → Option (List (κ × α)))
    (num : Int → ι) (nan : α) (nrows : Option Nat) (columns : List κ) (bytes : List B) : Option (Frame ι κ α) :=
  (((splitLines nl bytes).filter fun l => !blank l).mapM decode).bind fun records =>
  let df := jsonFrame num nan (nrows.elim records fun n => records.take n)
  if df.columns = columns then some df else none

/-- modin/core/io/text/json_dispatcher.py:31-118 `_read` for a file that exists and `lines=True`: the columns are those of the first line,
    the file is cut by `partitioned_file` (with the default quote character).  `nrows` reaches the workers and nothing else. -/
def readJsonLines {B : Type} [DecidableEq B] [DecidableEq ι] [DecidableEq κ] (cfg : Cfg) (d : Dialect B) (blank : List B → Bool)
    (decode : List B → Option (List (κ × α))) (num : Int → ι) (nan : α) (nrows : Option Nat) (file : List B) : Option (LFrame ι κ α) :=
  ((((splitLines d.nl file).take 1).filter fun l => !blank l).mapM decode).bind fun first =>
  let columns := (jsonFrame num nan first).columns
  (((partitionedFile d file cfg.nPartitions none 0 0 0).map fun r => pySlice file r.1 r.2).mapM
    (jsonParse d.nl blank decode num nan nrows columns)).bind (assembleRead cfg num columns)

/-! ### `read_excel` -/

/-- modin/core/io/text/excel_dispatcher.py:222-225: more is read until a row is complete.  At the end of the file nothing more comes and the
    loop never ends: `none`. -/
def growChunk (size : Nat) (rest : List Char) : Nat → Nat → Option (List Char)
  | 0, _ => none
  | fuel + 1, k =>
    if (occurs rowClose (rest.take k)).isEmpty then growChunk size rest fuel (k + size) else some (rest.take k)

/-- modin/core/io/text/excel_dispatcher.py:206-251: the loop that cuts the rows into pieces: how many rows come before a piece, and its text;
    `fuel`: at least the number of rows.  (Counting `re.subn` and `occurs` agree as the tag does not overlap itself.) -/
def excelPieces (size : Nat) : Nat → List Char → Nat → Option (List (Nat × List Char))
  | 0, _, _ => some []
  | fuel + 1, rest, skip =>
    if rest.isEmpty then some []
    else if (occurs rowOpen (rest.take size)).isEmpty then some []
    else
      (growChunk size rest (rest.length + 1) size).bind fun chunk =>
      let n := (occurs rowClose chunk).length
      let e := (occurs rowClose chunk).getLast?.getD 0 + rowClose.length
      if !(occurs dataClose chunk).isEmpty then some [(skip, rest.take e)]
      else (excelPieces size fuel (rest.drop e) (skip + n)).map ((skip, rest.take e) :: ·)

/-- the rows in a piece of the text; part of what openpyxl does with it -/
def splitRows : Nat → List Char → List (List Char)
  | 0, _ => []
  | fuel + 1, s =>
    match (occurs rowClose s).head? with
    | none => []
    | some i => s.take (i + rowClose.length) :: splitRows fuel (s.drop (i + rowClose.length))

/-- modin/core/storage_formats/pandas/parsers.py:496-644 `PandasExcelParser.parse` of a piece: `skip` is taken from the row numbers of the
    piece (but not of the header), openpyxl makes a table of it, `header` is looked for in this table, and if all cells are missing the rows
    are dropped.  `decode` reads a row: its number and its cells.  Types are not modelled, nor `index_col`, `usecols`, `nrows`,
    `skipfooter` and list-like `header`. -/
def excelParse (decode : List Char → Int × List α) (num : Int → ι) (colNum : Nat → α) (blank : α) (isna : α → Bool)
    (mangle : List α → List α) (header : Option Nat) (head : List (List Char)) (piece : Nat × List Char) : Option (Frame ι α α) :=
  let rows := (splitRows piece.2.length piece.2).map fun r => ((decode r).1 - (piece.1 : Int), (decode r).2)
  let data := sheetTable blank (head.map decode ++ rows)
  let read : Option (List α × List (List α)) :=
    match header with
    | none => data.head?.map fun r => ((List.range r.length).map colNum, data)
    | some k => data[k]?.map fun names => (mangle names, data.drop (k + 1))
  read.map fun r =>
    let rows := if r.2.length > 1 ∧ r.1.length ≠ 0 ∧ r.2.all (fun x => x.all isna) then [] else r.2
    { index := rangeLabels num piece.1 1 rows.length, columns := r.1, rows := rows }

/-- modin/core/io/text/excel_dispatcher.py:34-285 `_read` for one sheet and the default engine.  `xml` is the XML of the worksheet.  The first
    row is searched for until it is found (lines 141-142; if there is none the loop never ends: `none`).  Names that are empty or 0 (`falsy`)
    make Modin ask pandas for the names (lines 185-189).  Not modelled: the search for the sheet's file. -/
def readExcel [DecidableEq ι] [DecidableEq α] (cfg : Cfg) (decode : List Char → Int × List α) (num : Int → ι) (colNum : Nat → α) (blank : α)
    (isna falsy : α → Bool) (mangle : List α → List α) (header : Option Nat) (xml : List Char) : Option (LFrame ι α α) :=
  ((occurs rowClose xml).head?).bind fun i =>
  ((occurs rowOpen xml).head?).bind fun o =>
  let first := ((xml.take (i + rowClose.length)).drop o)
  let start := if header.isSome then i + rowClose.length else o
  let head := if header.isSome then [first] else []
  let data := sheetTable blank [decode first]
  (data.head?).bind fun names0 =>
  let names := if header.isSome then names0 else (List.range names0.length).map colNum
  (if names.any falsy then
      (pandasExcel num colNum blank isna mangle header ((splitRows xml.length xml).map fun r => decode (r.drop ((occurs rowOpen r).headD 0)))).map
        (·.columns)
    else some names).bind fun cols =>
  let rest := xml.drop start
  (excelPieces (max 1 (rest.length / cfg.nPartitions)) (rest.length + 1) rest 0).bind fun pieces =>
  (pieces.mapM (excelParse decode num colNum blank isna mangle header head)).bind (assembleRead cfg num cols)
