import Verif.Model.Fold
import Verif.Model.Concat
import Verif.Pandas.Where
/-
`where`, `isin` and `clip`.
Models modin/pandas/dataframe.py (`where`), modin/pandas/base.py (`isin`, `clip`) and
modin/core/storage_formats/pandas/query_compiler.py (`where`, `isin`, `clip`) for frames.
Not modelled: Series as `other` of `where` and as bounds of `clip`, `level`, dtypes.  A condition is a frame whose cells `truth` reads
as true or false; pandas raises for cells that are not booleans.
-/

variable {ι κ α L : Type}

/-- modin/core/storage_formats/pandas/query_compiler.py:649-655: one cell, its condition, a scalar `other` -/
def whereScalarCell (truth : α → Bool) (w v : α) (os : List α) : α :=
  match os with
  | c :: _ => if truth c then v else w
  | [] => v

/-- lines 638-645: one cell, its condition and the cell of `other` -/
def whereFrameCell (truth : α → Bool) (v : α) (os : List α) : α :=
  match os with
  | c :: o :: _ => if truth c then v else o
  | _ => v

/-- modin/core/storage_formats/pandas/query_compiler.py:646-656 `where(cond, scalar)`: `n_ary_op` with `join_type="left"` -/
def MFrame.whereScalar [DecidableEq L] (m : MFrame L L α) (P : JoinOps L) (cfg : Cfg) (nan : α) (truth : α → Bool)
    (cond : MFrame L L α) (w : α) : Option (MFrame L L α) :=
  nAryOp { P with first := false } cfg nan (cellwiseBlock (whereScalarCell truth w)) m [cond]

/-- lines 635-645 `where(cond, frame)`: `n_ary_op` with `join_type=None`, which keeps the labels of `self` -/
def MFrame.whereFrame [DecidableEq L] (m : MFrame L L α) (P : JoinOps L) (cfg : Cfg) (nan : α) (truth : α → Bool)
    (cond other : MFrame L L α) : Option (MFrame L L α) :=
  nAryOp { P with first := true } cfg nan (cellwiseBlock (whereFrameCell truth)) m [cond, other]

/-- modin/pandas/base.py:2026-2038 and modin/core/storage_formats/pandas/query_compiler.py:2009-2035 `isin`: a Series or frame of values
    is brought to the driver, then every block asks pandas with its own labels.  pandas raises in every block for
    repeated labels of the values. -/
def LFrame.isin [DecidableEq ι] [DecidableEq κ] (cfg : Cfg) (dyn : Bool) (cpu : Nat) (eqv : α → α → Bool) (a : IsinArg ι κ α)
    (m : LFrame ι κ α) : Option (LFrame ι κ Bool) :=
  if a.ok then m.mapBlocks cfg dyn cpu fun b => b.mapCellsL (a.has eqv) else none

/-- modin/pandas/base.py:1272-1276: a bound with a missing value anywhere in it is dropped altogether -/
def Bound.clean (isna : α → Bool) (b : Bound α) : Bound α :=
  match b with
  | .absent => .absent
  | .scalar v => if isna v then .absent else .scalar v
  | .list vs => if vs.any isna then .absent else .list vs

/-- modin/core/dataframe/pandas/dataframe/dataframe.py:2355-2400 `fold(None, ...)` and
    modin/core/dataframe/pandas/partitioning/partition_manager.py:564-611: `axis == 0` is false, so row partitions are made;
    `not axis` is true, so the grid of the results is transposed nevertheless -/
def LFrame.foldNoAxis [DecidableEq ι] [DecidableEq κ] (cfg : Cfg) (func : Frame ι κ α → Option (Frame ι κ β)) (m : LFrame ι κ α) :
    Option (LFrame ι κ β) :=
  m.operation fun m1 =>
    (mapAxisPartitions cfg false func m1.parts true none none).bind fun g =>
    MFrame.mk' ⟨colBlocks g, m1.index, m1.columns, m1.rowLens, m1.colWidths⟩

/-- modin/pandas/base.py:336-414 `_validate_other` as far as `clip` needs it, and 1260-1285 `clip`;
    modin/core/storage_formats/pandas/query_compiler.py:2438-2452.  `axis`: `none` if not given, `some true` for 0.  Without an axis
    the list is checked against the columns, like `axis=1`; `kwargs.get("axis", 0)` is `None` then. -/
def LFrame.clip [DecidableEq ι] [DecidableEq κ] (cfg : Cfg) (dyn : Bool) (cpu : Nat) (lt : α → α → Bool) (isna : α → Bool)
    (lower upper : Bound α) (axis : Option Bool) (m : LFrame ι κ α) : Option (LFrame ι κ α) :=
  let lo := lower.clean isna
  let hi := upper.clean isna
  if lo.isList || hi.isList then
    (if axis.getD false then m.getIndex.length else m.getColumns.length) |> fun n =>
    if lo.fits n && hi.fits n then
      if axis = none then m.foldNoAxis cfg fun b => b.clip lt isna lo hi false
      else m.fold cfg (axis.getD false) fun b => b.clip lt isna lo hi (axis.getD false)
    else none
  else m.mapBlocks cfg dyn cpu fun b =>
    b.mapCells (clipCell lt ((clipBounds lt isna lo hi).1.at isna 0) ((clipBounds lt isna lo hi).2.at isna 0))
