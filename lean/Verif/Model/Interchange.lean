import Verif.Model.Relabel
import Verif.Pandas.Interchange
/-
The dataframe interchange protocol.
Models modin/core/dataframe/pandas/interchange/dataframe_protocol/dataframe.py (`get_chunks`, `get_column_by_name`), column.py (the
buffers) and from_dataframe.py (`from_dataframe_to_pandas` and what it calls), and `PandasDataframe.to_numpy`.
Memory is not modelled: the buffer of a column of numbers is the list of its numbers.
-/

variable {ι κ α : Type}

/-- one band of `np.block`: blocks of one height side by side -/
def npBlockRow (bs : List (Frame ι κ α)) : Option (List (List α)) :=
  match bs with
  | [] => none
  | b :: _ => if bs.all (fun c => c.rows.length == b.rows.length) then some (Frame.hrows b.rows.length (bs.map (·.rows))) else none

/-- modin/core/dataframe/pandas/dataframe/dataframe.py:4725-4744 `to_numpy` with modin/core/dataframe/pandas/partitioning/
    partition_manager.py:1008-1026: the blocks are put together by their places, their labels do not matter.  `len(arr[0])` is an
    `IndexError` when there are no rows and the column labels are known. -/
def MFrame.toNumpy (m : MFrame ι κ α) : Option (List (List α)) :=
  match m.parts with
  | [] => none
  | row :: _ =>
    if m.parts.all (fun r => (r.map (·.ncols)).sum == (row.map (·.ncols)).sum) then
      (m.parts.mapM npBlockRow).bind fun bands =>
      if m.index.any (fun i => i.length != bands.flatten.length) then none
      else match m.columns with
        | none => some bands.flatten
        | some c => match bands.flatten with
          | [] => none
          | r :: _ => if r.length = c.length then some bands.flatten else none
    else none

/-- modin/core/dataframe/pandas/interchange/dataframe_protocol/dataframe.py:156-166 and 195-203: one chunk for each row of blocks.
    `known i` says which block sizes are cached when the `i`-th chunk is taken. -/
def LFrame.bandChunks [DecidableEq ι] [DecidableEq κ] (cfg : Cfg) (known : Nat → Nat → Nat → Bool × Bool) (m : LFrame ι κ α) :
    Option (List (LFrame ι κ α)) :=
  (sliceBounds m.getRowLens).zipIdx.mapM fun (p : (Nat × Nat) × Nat) => m.take2d cfg (known p.2) (some (.range p.1.1 p.1.2)) none

/-- modin/core/dataframe/pandas/interchange/dataframe_protocol/dataframe.py:177-179 -/
def chunkLengths (n k : Nat) : List Nat :=
  List.replicate (k - 1) (n / k) ++ [n % k + n / k]

/-- modin/core/dataframe/pandas/interchange/dataframe_protocol/dataframe.py:181-194: the same frame, divided anew along the rows.  The
    flags of labels still to be written are not handed on. -/
def LFrame.redivided [DecidableEq ι] [DecidableEq κ] (cfg : Cfg) (lens : List Nat) (m : LFrame ι κ α) : Option (LFrame ι κ α) :=
  (mapAxisPartitions cfg true some m.parts false none (some lens)).bind fun g =>
  (MFrame.mk' (MFrame.mk g (some m.getIndex) (some m.getColumns) (some lens) (some m.getColWidths))).map fun r =>
    { r with defIndex := false, defColumns := false }

/-- modin/core/dataframe/pandas/interchange/dataframe_protocol/dataframe.py:151-203 `get_chunks`.  `none`: it raises (not a multiple,
    more chunks than rows, division by zero). -/
def LFrame.getChunks [DecidableEq ι] [DecidableEq κ] (cfg : Cfg) (known : Nat → Nat → Nat → Bool × Bool) (n : Option Nat)
    (m : LFrame ι κ α) : Option (List (LFrame ι κ α)) :=
  match n with
  | none => m.bandChunks cfg known
  | some k =>
    if k = m.parts.length then m.bandChunks cfg known
    else if m.parts.length = 0 ∨ k % m.parts.length ≠ 0 then none
    else if m.getIndex.length < k then none
    else if k = 0 then none
    else (m.redivided cfg (chunkLengths m.getIndex.length k)).bind fun r => r.bandChunks cfg known

/-! ### Buffers -/

/-- modin/core/dataframe/pandas/interchange/dataframe_protocol/column.py:357-364: the bytes of all the strings -/
def stringData (u : Utf8 α) (values : List α) : List Nat :=
  values.flatMap fun v => (u.enc v).getD []

/-- modin/core/dataframe/pandas/interchange/dataframe_protocol/column.py:454-465: where each string starts, and the end of the last -/
def stringOffsets (u : Utf8 α) : Nat → List α → List Nat
  | ptr, [] => [ptr]
  | ptr, v :: vs => ptr :: stringOffsets u (match u.enc v with | some b => ptr + b.length | none => ptr) vs

/-- modin/core/dataframe/pandas/interchange/dataframe_protocol/column.py:405-415: 1 for the strings, 0 for anything else -/
def stringValidity (u : Utf8 α) (values : List α) : List Bool :=
  values.map fun v => (u.enc v).isSome

/-- modin/core/dataframe/pandas/interchange/dataframe_protocol/from_dataframe.py:290-309: the strings are put together again -/
def decodeStrings (u : Utf8 α) (nan : α) (size : Nat) (data offsets : List Nat) (null : List Bool) : Option (List α) :=
  (List.range size).mapM fun i =>
    (null[i]?).bind fun isNull =>
    if isNull then some nan
    else (offsets[i]?).bind fun a => (offsets[i + 1]?).bind fun b => u.dec (pySlice data a b)

/-- modin/core/dataframe/pandas/interchange/dataframe_protocol/from_dataframe.py:232-311 `string_column_to_ndarray` on the buffers of
    column.py: a byte mask in which 0 stands for a missing value. -/
def unpackStrings (u : Utf8 α) (nan : α) (values : List α) : Option (List α) :=
  decodeStrings u nan values.length (stringData u values) (stringOffsets u 0 values) ((stringValidity u values).map (!·))

/-- `Series.values.codes` (column.py:352-355): the number of the category, -1 for a missing value -/
def codeOf [DecidableEq α] (cats : List α) (v : α) : Int :=
  match cats.findIdx? (· = v) with
  | some i => i
  | none => -1

/-- modin/core/dataframe/pandas/interchange/dataframe_protocol/from_dataframe.py:167-203 `categorical_column_to_series`: the codes are
    reduced modulo the number of categories, -1 becomes the last one; then 488-541 `set_nulls` compares the *values* with the sentinel -1
    (`isMinusOne`).  With no categories the reduction gives 0, an `IndexError`. -/
def unpackCategories (isMinusOne : α → Bool) (nan : α) (cats : List α) (codes : List Int) : Option (List α) :=
  (codes.mapM fun (c : Int) => cats[(c % (cats.length : Int)).toNat]?).map fun vs => vs.map fun v => if isMinusOne v then nan else v

/-- modin/core/dataframe/pandas/interchange/dataframe_protocol/from_dataframe.py:110-142 `unpack_protocol_column` for the buffers of a
    Modin column with the given cells.  Of numbers, booleans and dates only the list is handed on; they have no mask. -/
def unpackColumn [DecidableEq α] (u : Utf8 α) (isMinusOne : α → Bool) (nan : α) : ColKind α → List α → Option (List α)
  | .primitive, vs => some vs
  | .string, vs => unpackStrings u nan vs
  | .categorical cats strings, vs =>
    (if strings then unpackStrings u nan cats else some cats).bind fun cats' =>
      unpackCategories isMinusOne nan cats' (vs.map (codeOf cats))

/-! ### Reading a frame -/

/-- The cells of the column `c` of a chunk: dataframe.py:114-120 `get_column_by_name`, then column.py:326-358: `to_numpy().flatten()`,
    but for categories `to_pandas().squeeze(axis=1)`. -/
def LFrame.columnCells [DecidableEq ι] [DecidableEq κ] (cfg : Cfg) (known : Nat → Nat → Bool × Bool) (nan : α) (kind : ColKind α) (c : κ)
    (m : LFrame ι κ α) : Option (List α) :=
  (m.takeColLabels cfg known [c]).bind fun col =>
  match kind with
  | .categorical _ _ => (col.toPandas nan).map fun f => f.rows.flatten
  | _ => col.toNumpy.map (·.flatten)

/-- modin/core/dataframe/pandas/interchange/dataframe_protocol/from_dataframe.py:94-103: the columns one by one; a label that is not a
    string or has been seen raises. -/
def readColumns [DecidableEq κ] (isStr : κ → Bool) (read : κ → Option (List α)) : List κ → List κ → Option (List (κ × List α))
  | _, [] => some []
  | seen, c :: cs =>
    if !isStr c || seen.contains c then none
    else (read c).bind fun vs => (readColumns isStr read (seen ++ [c]) cs).map fun rest => (c, vs) :: rest

/-- modin/core/dataframe/pandas/interchange/dataframe_protocol/from_dataframe.py:80-107 `protocol_df_chunk_to_pandas` -/
def LFrame.chunkToPandas [DecidableEq ι] [DecidableEq κ] [DecidableEq α] (cfg : Cfg) (known : κ → Nat → Nat → Bool × Bool) (u : Utf8 α)
    (isMinusOne : α → Bool) (nan : α) (isStr : κ → Bool) (kind : κ → ColKind α) (m : LFrame ι κ α) : Option (Frame Nat κ α) :=
  (readColumns isStr (fun c => (m.columnCells cfg (known c) nan (kind c) c).bind (unpackColumn u isMinusOne nan (kind c))) []
    m.getColumns).bind frameOfDict

/-- modin/core/dataframe/pandas/interchange/dataframe_protocol/from_dataframe.py:44-77 `from_dataframe_to_pandas` for a Modin frame: the
    chunks below each other, then the row labels of the frame (`ValueError` if their number differs).  `known i` and `knownCol i c`: the
    cached block sizes when the `i`-th chunk, and its column `c`, are taken. -/
def LFrame.fromInterchange [DecidableEq ι] [DecidableEq κ] [DecidableEq α] (cfg : Cfg) (known : Nat → Nat → Nat → Bool × Bool)
    (knownCol : Nat → κ → Nat → Nat → Bool × Bool) (u : Utf8 α) (isMinusOne : α → Bool) (nan : α) (isStr : κ → Bool) (kind : κ → ColKind α)
    (n : Option Nat) (m : LFrame ι κ α) : Option (Frame ι κ α) :=
  (m.getChunks cfg known n).bind fun chunks =>
  (chunks.zipIdx.mapM fun (c : LFrame ι κ α × Nat) => c.1.chunkToPandas cfg (knownCol c.2) u isMinusOne nan isStr kind).bind fun fs =>
  (Frame.vcat fs).bind fun f =>
  if f.rows.length = m.getIndex.length then some { index := m.getIndex, columns := f.columns, rows := f.rows } else none
