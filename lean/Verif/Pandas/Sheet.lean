import Verif.Pandas.Frame
import Verif.Pandas.Parquet
/-
Specification vocabulary: what pandas reads from a spreadsheet and from a file of JSON lines.
-/

variable {ι κ α : Type}

/-! ### the XML of a worksheet -/

/-- the places where `pat` stands in `s` -/
def occurs (pat : List Char) : List Char → List Nat
  | [] => []
  | c :: s => (if pat.isPrefixOf (c :: s) then [0] else []) ++ (occurs pat s).map (· + 1)

def rowOpen : List Char := ['<', 'r', 'o', 'w']
def rowClose : List Char := ['<', '/', 'r', 'o', 'w', '>']
def dataClose : List Char := ['<', '/', 's', 'h', 'e', 'e', 't', 'D', 'a', 't', 'a', '>']

/-- the text of one row: `<row ...> ... </row>` -/
structure RowText (r : List Char) : Prop where
  opens : rowOpen.isPrefixOf r = true
  closes : occurs rowClose r = [r.length - 6]
  inside : occurs dataClose r = []

/-- the XML file of a worksheet: what precedes the rows, the rows, and what follows them (from `</sheetData>` on) -/
structure SheetText (pre : List Char) (rows : List (List Char)) (tail : List Char) : Prop where
  pre_open : occurs rowOpen pre = []
  pre_close : occurs rowClose pre = []
  rows_ok : ∀ r ∈ rows, RowText r
  tail_starts : ∀ c, tail.head? = some c → c = '<'
  tail_open : occurs rowOpen tail = []
  tail_close : occurs rowClose tail = []

/-! ### `pandas.read_excel` -/

/-- the widest row -/
def widest (rows : List (Int × List α)) : Nat := (rows.map fun r => r.2.length).foldl max 0

/-- the table of a worksheet whose rows carry the numbers 1, 2, ... (some may be missing): rows that are missing and cells that are missing
    at the end of a row are blank -/
def sheetTable (blank : α) (rows : List (Int × List α)) : List (List α) :=
  (List.range (rows.foldl (fun m (r : Int × List α) => max m r.1) 0).toNat).map fun (i : Nat) =>
    let cells := ((rows.reverse.find? fun r => decide (r.1 = (i : Int) + 1)).map (·.2)).getD []
    cells ++ List.replicate (widest rows - cells.length) blank

/-- the rows up to the last one with something in it -/
def trimBlank (isna : α → Bool) (rows : List (List α)) : List (List α) :=
  (rows.reverse.dropWhile fun r => r.all isna).reverse

/-- `pandas.read_excel(sheet, header)`: with a header, row `k` holds the names of the columns (`mangle` makes them distinct) and the rows
    after it are the data; without one the columns are numbered.  An empty sheet is read as an empty frame. -/
def pandasExcel (num : Int → ι) (colNum : Nat → α) (blank : α) (isna : α → Bool) (mangle : List α → List α) (header : Option Nat)
    (rows : List (Int × List α)) : Option (Frame ι α α) :=
  let table := trimBlank isna (sheetTable blank rows)
  if table.isEmpty then some { index := [], columns := [], rows := [] }
  else match header with
  | none => table.head?.map fun r =>
    { index := rangeLabels num 0 1 table.length, columns := (List.range r.length).map colNum, rows := table }
  | some k => table[k]?.map fun names =>
    { index := rangeLabels num 0 1 (table.length - (k + 1)), columns := mangle names, rows := table.drop (k + 1) }

/-! ### `pandas.read_json(lines=True)` -/

/-- the keys of a list of records, in the order in which they first appear -/
def recordKeys [DecidableEq κ] (records : List (List (κ × α))) : List κ :=
  records.flatten.foldl (fun ks e => if e.1 ∈ ks then ks else ks ++ [e.1]) []

/-- `pandas.read_json(lines=True)` of the records of a file -/
def jsonFrame [DecidableEq κ] (num : Int → ι) (nan : α) (records : List (List (κ × α))) : Frame ι κ α :=
  { index := rangeLabels num 0 1 records.length
    columns := recordKeys records
    rows := records.map fun r => (recordKeys records).map fun k => ((r.find? fun e => decide (e.1 = k)).map (·.2)).getD nan }
