import Verif.Pandas.Polars
import Verif.Model.Mask
import Verif.Model.Duplicated
import Verif.Model.Relabel
import Verif.Model.Equals
/-
`modin.polars`: frames with Polars' methods, kept by the same query compiler as `modin.pandas` frames.  Such a frame has row labels
that Polars' methods do not know of.
Models modin/polars/dataframe.py and modin/polars/base.py.  A method that gives a Polars Series in Polars and a frame here is modelled
by its cells.
-/

variable {ι κ κ' α K T D L : Type}

/-- modin/polars/base.py:392-402 `filter` with one predicate, a frame or Series of one boolean column.  (With several, line 394
    leaves only the first and goes on with parts of it; not modelled.) -/
def LFrame.plFilter [DecidableEq ι] [DecidableEq κ] [DecidableEq κ'] (le : ι → ι → Bool) (cfg : Cfg) (dyn : Bool) (nan : α)
    (m : LFrame ι κ α) (mask : LFrame ι κ' (Option Bool)) : Option (LFrame ι κ α) :=
  m.getitemMask le cfg dyn nan mask

/-- modin/polars/base.py:165-174 `is_duplicated` -/
def LFrame.plIsDuplicated [DecidableEq ι] [DecidableEq κ] [DecidableEq K] [DecidableEq D] (cfg : Cfg) (key : α → K) (text : α → T)
    (digest : List T → D) (m : LFrame ι κ α) : Option (LFrame ι String Bool) :=
  m.duplicated cfg key text digest .none

/-- modin/polars/base.py:185-194 `is_unique` -/
def LFrame.plIsUnique [DecidableEq ι] [DecidableEq κ] [DecidableEq K] [DecidableEq D] (cfg : Cfg) (dyn : Bool) (cpu : Nat)
    (key : α → K) (text : α → T) (digest : List T → D) (m : LFrame ι κ α) : Option (LFrame ι String Bool) :=
  (m.duplicated cfg key text digest .none).bind fun d => d.mapBlocks cfg dyn cpu (Frame.mapCells fun b => !b)

/-- modin/polars/dataframe.py:517-531 `n_unique()`: the sum of `is_unique` (the sum of booleans counts those that are true),
    `to_pandas().squeeze()` -/
def LFrame.plNUnique [DecidableEq ι] [DecidableEq κ] [DecidableEq K] [DecidableEq D] (cfg : Cfg) (dyn : Bool) (cpu : Nat)
    (key : α → K) (text : α → T) (digest : List T → D) (m : LFrame ι κ α) : Option Nat :=
  (m.plIsUnique cfg dyn cpu key text digest).bind fun u =>
  (u.operation fun u1 => treeReduceOp cfg (fun c : List Bool => c.count true) (fun c : List Nat => c.sum) u1).bind fun s =>
  (s.toPandas 0).bind onlyValue

/-- modin/polars/dataframe.py:242-251 `max_horizontal` -/
def LFrame.plMaxHorizontal [DecidableEq ι] [DecidableEq κ] (cfg : Cfg) (m : LFrame ι κ (Option Int)) :
    Option (LFrame ι String (Option Int)) :=
  m.operation fun m1 => treeReduceOp1 cfg (maxOp true).map (maxOp true).reduce m1

/-- modin/polars/dataframe.py:344-353 `min_horizontal` -/
def LFrame.plMinHorizontal [DecidableEq ι] [DecidableEq κ] (cfg : Cfg) (m : LFrame ι κ (Option Int)) :
    Option (LFrame ι String (Option Int)) :=
  m.operation fun m1 => treeReduceOp1 cfg (minOp true).map (minOp true).reduce m1

/-- modin/polars/dataframe.py:225-240 `max(axis=1)` -/
def LFrame.plMax1 [DecidableEq ι] [DecidableEq κ] (cfg : Cfg) (m : LFrame ι κ (Option Int)) : Option (LFrame ι String (Option Int)) :=
  m.plMaxHorizontal cfg

/-- modin/polars/dataframe.py:327-342 `min(axis=1)`: line 342 is `return self.max_horizontal()` -/
def LFrame.plMin1 [DecidableEq ι] [DecidableEq κ] (cfg : Cfg) (m : LFrame ι κ (Option Int)) : Option (LFrame ι String (Option Int)) :=
  m.plMaxHorizontal cfg

/-- modin/polars/dataframe.py:1225-1244 `with_row_index(name, offset)`.  With an offset, line 1238 reads the attribute `index`, which
    these frames do not have (`AttributeError`).  The row labels have no name.
    modin/core/storage_formats/pandas/query_compiler.py:741-919 `reset_index(drop=False)`, without the check of names that
    `modin.pandas` does before. -/
def LFrame.plWithRowIndex [DecidableEq ι] [DecidableEq κ] (cfg : Cfg) (num : Nat → ι) (cell : ι → α) (indexName levelName : κ)
    (namesKnown : Bool) (name : κ) (offset : Nat) (m : LFrame ι κ α) : Option (LFrame ι κ α) :=
  if offset ≠ 0 then none
  else (if m.index.isNone then m.resetIndexLazy cfg num cell indexName levelName none false namesKnown
        else m.fromLabels num cell indexName levelName none).bind fun r => r.setColumns (name :: m.getColumns)

/-- what `getitem_row_array` is given: positions or a Python slice -/
inductive RowKey where
  | positions (ps : List Nat)
  | slice (start stop step : Option Int)

/-- modin/core/storage_formats/pandas/query_compiler.py:3124-3127 `getitem_row_array` and
    modin/core/dataframe/pandas/dataframe/dataframe.py:1220-1239: a slice is not range-like (it cannot be iterated over) and not
    list-like, so `catch_bugs_and_request_email` raises. -/
def LFrame.getitemRowArray [DecidableEq ι] [DecidableEq κ] (cfg : Cfg) (known : Nat → Nat → Bool × Bool) (key : RowKey)
    (m : LFrame ι κ α) : Option (LFrame ι κ α) :=
  match key with
  | .positions ps => m.take2d cfg known (some (.array ps)) none
  | .slice _ _ _ => none

/-- modin/polars/base.py:421-433 `head` (435-445 `limit` is the same) -/
def LFrame.plHead [DecidableEq ι] [DecidableEq κ] (cfg : Cfg) (known : Nat → Nat → Bool × Bool) (n : Nat) (m : LFrame ι κ α) :
    Option (LFrame ι κ α) :=
  m.getitemRowArray cfg known (.slice (some 0) (some n) none)

/-- modin/polars/base.py:547-559 `tail` -/
def LFrame.plTail [DecidableEq ι] [DecidableEq κ] (cfg : Cfg) (known : Nat → Nat → Bool × Bool) (n : Nat) (m : LFrame ι κ α) :
    Option (LFrame ι κ α) :=
  m.getitemRowArray cfg known (.slice (some (-(n : Int))) none none)

/-- modin/polars/base.py:496-512 `slice(offset, length)` -/
def LFrame.plSlice [DecidableEq ι] [DecidableEq κ] (cfg : Cfg) (known : Nat → Nat → Bool × Bool) (offset length : Int)
    (m : LFrame ι κ α) : Option (LFrame ι κ α) :=
  m.getitemRowArray cfg known (.slice (some offset) (some (offset + length)) none)

/-- modin/polars/base.py:404-419 `gather_every(n, offset)` -/
def LFrame.plGatherEvery [DecidableEq ι] [DecidableEq κ] (cfg : Cfg) (known : Nat → Nat → Bool × Bool) (n offset : Nat)
    (m : LFrame ι κ α) : Option (LFrame ι κ α) :=
  m.getitemRowArray cfg known (.slice (some offset) none (some n))

/-- modin/polars/dataframe.py:1000-1011 `reverse` -/
def LFrame.plReverse [DecidableEq ι] [DecidableEq κ] (cfg : Cfg) (known : Nat → Nat → Bool × Bool) (m : LFrame ι κ α) :
    Option (LFrame ι κ α) :=
  m.getitemRowArray cfg known (.slice none none (some (-1)))

/-- modin/polars/base.py:635-655 `equals` of two frames.  `self._query_compiler.equals(...)`
    (modin/core/storage_formats/pandas/query_compiler.py:542-547) is a query compiler with one cell per block, and as an operand of `and`
    it counts as true, whatever is in it. -/
def MFrame.plEquals [DecidableEq L] (P : JoinOps L) (cfg : Cfg) (nan : α) (same : α → α → Bool) (zero : L) (isna : α → Bool)
    (nullEqual : Bool) (self other : MFrame L L α) : Option Bool :=
  (nAryOp P cfg nan (equalsBlock same zero) self [other]).bind fun _ =>
  if nullEqual then some true
  else (self.toPandas nan).bind fun a => (other.toPandas nan).map fun b =>
    !(a.rows.any (·.any isna)) && !(b.rows.any (·.any isna))
