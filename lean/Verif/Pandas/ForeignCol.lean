import Verif.Pandas.Interchange
/-
Specification vocabulary: a column handed over by another library through the dataframe interchange protocol, and the cells it stands for
(the protocol's description of `Column.offset`, `Column.size`, `describe_null` and `get_buffers`, which modin/core/dataframe/base/interchange/
dataframe_protocol/dataframe.py repeats).
-/

variable {α β : Type}

/-- A buffer: the memory that begins at its pointer, counted in elements, and how many elements belong to it (`bufsize`).  What lies
    beyond them is any memory whatever. -/
structure Buf (β : Type) where
  mem : Nat → β
  len : Nat

/-- the `i`-th bit of a buffer of bytes, the lowest bit of each byte first -/
def Buf.bit (b : Buf Nat) (i : Nat) : Bool := (b.mem (i / 8)).testBit (i % 8)

/-- The data: elements of a whole number of bytes, or booleans of one bit. -/
inductive DataBuf (α : Type) where
  | elems (b : Buf α)
  | bits (b : Buf Nat)

/-- How missing values are marked (`describe_null`): not at all, by the value NaN itself, by a special value, by a bit or by a byte.
    `nullIsOne`: which of 0 and 1 stands for a missing value.  `isBool`: the dtype of the byte mask is `bool`, else `uint8`. -/
inductive NullDesc (α : Type) where
  | nonNullable
  | useNan
  | sentinel (is : α → Bool)
  | bitmask (b : Buf Nat) (nullIsOne : Bool)
  | bytemask (b : Buf Nat) (isBool nullIsOne : Bool)

/-- is the element `v`, the `i`-th from the beginning of the buffers, a missing value? -/
def NullDesc.isNull (n : NullDesc α) (v : α) (i : Nat) : Bool :=
  match n with
  | .nonNullable => false
  | .useNan => false
  | .sentinel is => is v
  | .bitmask b nullIsOne => b.bit i == nullIsOne
  | .bytemask b _ nullIsOne => (b.mem i != 0) == nullIsOne

/-- the element `i` of the data as a cell -/
def DataBuf.at (tt ff : α) (d : DataBuf α) (i : Nat) : α :=
  match d with
  | .elems b => b.mem i
  | .bits b => if b.bit i then tt else ff

/-- A column of numbers, booleans or dates: the `size` elements from `offset` on. -/
structure ForeignCol (α : Type) where
  offset : Nat
  size : Nat
  data : DataBuf α
  null : NullDesc α

/-- What the column holds. -/
def ForeignCol.cells (nan tt ff : α) (c : ForeignCol α) : List α :=
  (List.range c.size).map fun i =>
    if c.null.isNull (c.data.at tt ff (c.offset + i)) (c.offset + i) then nan else c.data.at tt ff (c.offset + i)

/-- A column of strings: the string `i` is made of the bytes from `offs i` to `offs (i + 1)`. -/
structure ForeignStr (α : Type) where
  offset : Nat
  size : Nat
  bytes : Buf Nat
  offs : Buf Nat
  null : NullDesc α

/-- the bytes from `a` to `b` of a buffer -/
def Buf.between (d : Buf Nat) (a b : Nat) : List Nat := (List.range (b - a)).map fun k => d.mem (a + k)

/-- What the column holds; `none`: some string is not UTF-8. -/
def ForeignStr.cells (u : Utf8 α) (nan : α) (c : ForeignStr α) : Option (List α) :=
  (List.range c.size).mapM fun i =>
    if c.null.isNull nan (c.offset + i) then some nan
    else u.dec (c.bytes.between (c.offs.mem (c.offset + i)) (c.offs.mem (c.offset + i + 1)))
