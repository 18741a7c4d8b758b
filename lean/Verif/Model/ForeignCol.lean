import Verif.Pandas.ForeignCol
/-
Reading the columns of another library.
Models modin/core/dataframe/pandas/interchange/dataframe_protocol/from_dataframe.py:145-164 (`primitive_column_to_ndarray`), 232-311
(`string_column_to_ndarray`), 380-541 (`buffer_to_ndarray`, `bitmask_to_bool_ndarray`, `set_nulls`).
Not modelled: categories and the parsing of date formats (the mask of a date column goes the same way), the tables of dtypes.
-/

variable {α β : Type}

/-- modin/core/dataframe/pandas/interchange/dataframe_protocol/from_dataframe.py:434-485 `bitmask_to_bool_ndarray`.  The bits of the first
    byte, those of the following whole bytes, and what remains from the *last* byte of the mask, if it has more than one.  `none`: an
    `IndexError`. -/
def bitmaskToBool (bitmask : List Nat) (length first : Nat) : Option (List Bool) :=
  let bm := bitmask.drop (first / 8)
  let f := first % 8
  bm[0]?.bind fun val =>
  let inFirst := min (8 - f) length
  let full := (length - inFirst) / 8
  ((List.range full).mapM fun i => bm[i + 1]?).bind fun vals =>
  let done := inFirst + 8 * full
  some ((List.range inFirst).map (fun j => val.testBit (j + f)) ++
    vals.flatMap (fun v => (List.range 8).map fun j => v.testBit j) ++
    (List.range (length - done)).map (fun j => if 1 < bm.length then (bm.getLastD 0).testBit j else false))

/-- modin/core/dataframe/pandas/interchange/dataframe_protocol/from_dataframe.py:413-425 and 428-431 `buffer_to_ndarray` for elements of a
    whole number of bytes: the pointer is moved by `offset` elements, the length of the array is that of the whole buffer. -/
def Buf.read (b : Buf β) (offset : Nat) : List β := (List.range b.len).map fun i => b.mem (offset + i)

/-- modin/core/dataframe/pandas/interchange/dataframe_protocol/from_dataframe.py:421-427 `buffer_to_ndarray` for bits -/
def Buf.readBits (b : Buf Nat) (offset length : Nat) : Option (List Bool) :=
  bitmaskToBool ((List.range b.len).map fun i => b.mem (offset / 8 + i)) length (offset % 8)

/-- `null_pos`: an array of booleans, or of numbers, which numpy takes for positions -/
inductive NullPos where
  | bools (bs : List Bool)
  | ints (ns : List Nat)

/-- modin/core/dataframe/pandas/interchange/dataframe_protocol/from_dataframe.py:516-528 (`set_nulls`) and 281-286: the mask, inverted by
    `_inverse_null_buf` (206-229) when 0 stands for a missing value.  A byte mask that is not inverted keeps its dtype. -/
def NullDesc.positions (offset size : Nat) (data : List α) : NullDesc α → Option (Option NullPos)
  | .nonNullable => some none
  | .useNan => some none
  | .sentinel is => some (some (.bools (data.map is)))
  | .bitmask b nullIsOne => (b.readBits offset size).map fun bs => some (.bools (if nullIsOne then bs else bs.map (!·)))
  | .bytemask b isBool nullIsOne =>
    if nullIsOne then
      if isBool then some (some (.bools ((b.read offset).map (· != 0)))) else some (some (.ints (b.read offset)))
    else some (some (.bools ((b.read offset).map (· == 0))))

/-- What `data[null_pos] = None` does to a numpy array: it becomes NaN or NaT, it is a `TypeError` (integers), or it becomes `False`
    (booleans). -/
inductive NoneInto where
  | missing
  | typeError
  | false

/-- `data[null_pos] = v`.  `none`: an `IndexError`. -/
def assignAt (data : List α) (v : α) : NullPos → Option (List α)
  | .bools bs => if bs.length = data.length then some (List.zipWith (fun d (b : Bool) => if b then v else d) data bs) else none
  | .ints ns => if ns.all (fun n => n < data.length) then some (ns.foldl (fun d n => d.set n v) data) else none

/-- `np.any(null_pos)` -/
def NullPos.any : NullPos → Bool
  | .bools bs => bs.any id
  | .ints ns => ns.any (· != 0)

/-- modin/core/dataframe/pandas/interchange/dataframe_protocol/from_dataframe.py:533-539 (`set_nulls`): integers are converted to floats
    first (`toFloat`). -/
def assignNone (kind : NoneInto) (toFloat : α → α) (nan ff : α) (data : List α) (p : NullPos) : Option (List α) :=
  match kind with
  | .missing => assignAt data nan p
  | .typeError => assignAt (data.map toFloat) nan p
  | .false => assignAt data ff p

/-- modin/core/dataframe/pandas/interchange/dataframe_protocol/from_dataframe.py:530-541 (`set_nulls`): nothing is assigned when nothing is
    marked. -/
def setNulls (kind : NoneInto) (toFloat : α → α) (nan ff : α) (data : List α) : Option NullPos → Option (List α)
  | none => some data
  | some p => if p.any then assignNone kind toFloat nan ff data p else some data

/-- `buffer_to_ndarray` for the data of a column -/
def DataBuf.read (tt ff : α) (offset size : Nat) : DataBuf α → Option (List α)
  | .elems b => some (b.read offset)
  | .bits b => (b.readBits offset size).map fun bs => bs.map fun x => if x then tt else ff

/-- modin/core/dataframe/pandas/interchange/dataframe_protocol/from_dataframe.py:145-164 `primitive_column_to_ndarray` -/
def ForeignCol.read (kind : NoneInto) (toFloat : α → α) (nan tt ff : α) (c : ForeignCol α) : Option (List α) :=
  (c.data.read tt ff c.offset c.size).bind fun data =>
  (c.null.positions c.offset c.size data).bind fun p => setNulls kind toFloat nan ff data p

/-- modin/core/dataframe/pandas/interchange/dataframe_protocol/from_dataframe.py:157-163 with 530-541: the memory of the other library after
    the column has been read.  The array of `buffer_to_ndarray` is that memory, and `set_nulls` is called with
    `allow_modify_inplace=True`; only bits and converted integers are copies.  `none`: reading raises. -/
def ForeignCol.memAfter (kind : NoneInto) (toFloat : α → α) (nan tt ff : α) (c : ForeignCol α) (b : Buf α) : Option (Nat → α) :=
  (c.null.positions c.offset c.size (b.read c.offset)).bind fun p =>
  (setNulls kind toFloat nan ff (b.read c.offset) p).map fun data =>
  match kind with
  | .typeError => b.mem
  | _ => fun j => if j < c.offset then b.mem j else (data[j - c.offset]?).getD (b.mem j)

/-- `null_pos[i]` taken for a boolean.  `none`: an `IndexError`. -/
def NullPos.marked (i : Nat) : Option NullPos → Option Bool
  | none => some false
  | some (.bools bs) => bs[i]?
  | some (.ints ns) => ns[i]?.map (· != 0)

/-- modin/core/dataframe/pandas/interchange/dataframe_protocol/from_dataframe.py:245-253: the ways of marking missing strings that are
    supported -/
def NullDesc.forStrings : NullDesc α → Bool
  | .nonNullable => true
  | .bitmask _ _ => true
  | .bytemask _ _ _ => true
  | _ => false

/-- modin/core/dataframe/pandas/interchange/dataframe_protocol/from_dataframe.py:232-311 `string_column_to_ndarray`.  The bytes are read
    from the beginning, the table of offsets and the mask from `col.offset` on. -/
def ForeignStr.read (u : Utf8 α) (nan : α) (c : ForeignStr α) : Option (List α) :=
  if c.null.forStrings then
    (c.null.positions c.offset c.size []).bind fun p =>
    (List.range c.size).mapM fun i =>
      (NullPos.marked i p).bind fun isNull =>
      if isNull then some nan
      else ((c.offs.read c.offset)[i]?).bind fun a => ((c.offs.read c.offset)[i + 1]?).bind fun b => u.dec (pySlice (c.bytes.read 0) a b)
  else none
