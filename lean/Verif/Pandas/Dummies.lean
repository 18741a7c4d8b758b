import Verif.Pandas.GroupAgg
/-
Specification: `pandas.get_dummies(df, columns=...)`.
-/

variable {ι L α P : Type}

/-- How a column is encoded.  `levels cells`: the levels that get a column of their own, in pandas' order (the sorted distinct
    cells; `drop_first` leaves out the first, `dummy_na` adds one for missing cells).  `name prefix label level`: the label
    of the new column (`f"{prefix}{sep}{level}"`; without a list of prefixes the prefix is found from the label).
    `hit level cell`: the new cell (true or false in the `dtype` asked for). -/
structure Encoder (P L α : Type) where
  levels : List α → List α
  name : Option P → L → α → L
  hit : α → α → α

/-- the new columns of one column: one for each of its levels -/
def Encoder.encode (E : Encoder P L α) (pre : Option P) (c : L × List α) : List (L × List α) :=
  (E.levels c.2).map fun v => (E.name pre c.1 v, c.2.map (E.hit v))

/-- the new columns of several columns; with a list of prefixes each takes the next one -/
def Encoder.encodeAll (E : Encoder P L α) (pre : Option (List P)) (chosen : List (L × List α)) : List (L × List α) :=
  match pre with
  | none => chosen.flatMap (E.encode none)
  | some ps => (ps.zip chosen).flatMap fun e => E.encode (some e.1) e.2

/-- Encode the columns `chosen` of a frame and keep the columns `kept` in front.  `none`: an exception - a list of prefixes
    of another length than there are columns to encode, or nothing to put side by side (the frame has no columns). -/
def Encoder.assemble (E : Encoder P L α) (pre : Option (List P)) (df : Frame ι L α) (chosen kept : List (L × List α)) :
    Option (Frame ι L α) :=
  if pre.all (fun ps => ps.length == chosen.length) ∧ df.columns ≠ [] then
    some (Frame.ofCols df.index ((if chosen.length = df.columns.length then [] else kept) ++ E.encodeAll pre chosen))
  else none

/-- `pandas.get_dummies(df, columns=cols)`: the other columns, then the new columns of each of `cols` in the order of `cols`.
    `none`: an exception (`KeyError` for a label that is not there). -/
def Frame.getDummies [DecidableEq L] (E : Encoder P L α) (pre : Option (List P)) (cols : List L) (df : Frame ι L α) :
    Option (Frame ι L α) :=
  if ∀ c ∈ cols, c ∈ df.columns then
    E.assemble pre df (cols.flatMap fun c => df.named.filter fun p => decide (p.1 = c))
      (df.named.filter fun p => !cols.contains p.1)
  else none

/-- The kinds of dtype `get_dummies` tells apart. -/
inductive DummyKind where
  | number   -- integers, floats, booleans
  | text     -- object, string
  | category
  | date     -- datetimes, timedeltas, periods, intervals
  deriving DecidableEq, Repr

/-- the kinds encoded when `columns` is not given -/
def DummyKind.encoded : DummyKind → Bool
  | .text | .category => true
  | .number | .date => false

/-- `pandas.get_dummies(df)`: the columns of text or categories are encoded.  `kinds` are the dtypes of the columns. -/
def Frame.getDummiesDefault (E : Encoder P L α) (pre : Option (List P)) (kinds : List DummyKind) (df : Frame ι L α) :
    Option (Frame ι L α) :=
  E.assemble pre df (((df.named.zip kinds).filter fun e => e.2.encoded).map (·.1))
    (((df.named.zip kinds).filter fun e => !e.2.encoded).map (·.1))
