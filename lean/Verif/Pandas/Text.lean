/-
Specification vocabulary: how pandas cuts a delimited text file into records and rows.
-/

variable {B : Type}

/-- Put `b` in front of the first record. -/
def glue (b : B) : List (List B) → List (List B)
  | [] => [[b]]
  | r :: rs => (b :: r) :: rs

/-- Cut a byte string into records with an automaton: `step` reads a byte, `fin s b` says that byte `b`, read in state
    `s`, is the last one of its record.  What is left at the end of the file is a record too. -/
def cutWith {S : Type} (step : S → B → S) (fin : S → B → Bool) : S → List B → List (List B)
  | _, [] => []
  | s, b :: bs => if fin s b then [b] :: cutWith step fin (step s b) bs else glue b (cutWith step fin (step s b) bs)

/-- The characters of a delimited file; `quoting = false` is `quoting=csv.QUOTE_NONE`. -/
structure Dialect (B : Type) where
  delim : B
  quote : B
  nl : B
  quoting : Bool

/-- the bytes have different roles -/
def Dialect.Ok (d : Dialect B) : Prop := d.delim ≠ d.quote ∧ d.delim ≠ d.nl ∧ d.quote ≠ d.nl

instance [DecidableEq B] (d : Dialect B) : Decidable d.Ok := inferInstanceAs (Decidable (_ ∧ _ ∧ _))

/-- States of pandas' tokenizer: at the start of a field, in an unquoted field, in a quoted field, just after a quote
    inside a quoted field (`doublequote=True`). -/
inductive Tok where
  | start
  | field
  | quoted
  | quoteInQuoted
deriving DecidableEq, Repr

/-- pandas' tokenizer (`tokenize_bytes`): a quote opens a quoted field only at the start of a field; inside an unquoted
    field it is an ordinary character. -/
def Dialect.step [DecidableEq B] (d : Dialect B) : Tok → B → Tok
  | .start, b => if d.quoting ∧ b = d.quote then .quoted else if b = d.delim ∨ b = d.nl then .start else .field
  | .field, b => if b = d.delim ∨ b = d.nl then .start else .field
  | .quoted, b => if b = d.quote then .quoteInQuoted else .quoted
  | .quoteInQuoted, b => if b = d.quote then .quoted else if b = d.delim ∨ b = d.nl then .start else .field

/-- a newline ends the record unless it is inside a quoted field -/
def Dialect.ends [DecidableEq B] (d : Dialect B) (s : Tok) (b : B) : Bool := b = d.nl && s != .quoted

/-- the records of a file -/
def Dialect.records [DecidableEq B] (d : Dialect B) (file : List B) : List (List B) := cutWith d.step d.ends .start file

/-- `skiprows` of `read_csv` -/
inductive Skip where
  | none
  | int (k : Nat)
  | list (ls : List Nat)
  | pred (f : Nat → Bool)

/-- is line number `i` to be skipped? -/
def Skip.skips : Skip → Nat → Bool
  | .none, _ => false
  | .int k, i => i < k
  | .list ls, i => ls.contains i
  | .pred f, i => f i

/-- `pandas.read_csv(file, header=h-1 (h = 0: header=None), skiprows, nrows)`: records whose number is to be skipped are
    dropped first, then blank records; the first `h` of the others are the header, and at most `nrows` rows follow. The rows
    are given by their records (how a record is converted to values is not part of this specification). -/
def pandasCsv [DecidableEq B] (d : Dialect B) (blank : List B → Bool) (h : Nat) (skip : Skip) (nrows : Option Nat) (file : List B) :
    List (List B) :=
  let kept := ((d.records file).zipIdx.filter fun e => !skip.skips e.2).map (·.1)
  let rows := (kept.filter fun r => !blank r).drop h
  match nrows with
  | some n => rows.take n
  | none => rows

/-- No quote character inside an unquoted field (where pandas takes it literally). -/
def Dialect.Clean [DecidableEq B] (d : Dialect B) : Tok → List B → Prop
  | _, [] => True
  | s, b :: bs => (d.quoting = true → s = .field → b ≠ d.quote) ∧ d.Clean (d.step s b) bs

instance instDecidableClean [DecidableEq B] (d : Dialect B) : (s : Tok) → (bs : List B) → Decidable (d.Clean s bs)
  | _, [] => isTrue trivial
  | s, b :: bs =>
    have := instDecidableClean d (d.step s b) bs
    inferInstanceAs (Decidable (_ ∧ _))

/-- Nonempty ranges, each starting where the one before ends, the first at `pos`; `stop` holds of the end of the last one. -/
def Tiles (stop : Nat → Prop) : Nat → List (Nat × Nat) → Prop
  | pos, [] => stop pos
  | pos, r :: rest => r.1 = pos ∧ pos < r.2 ∧ Tiles stop r.2 rest
