import Verif.Model.Fold
import Verif.Pandas.Astype
/-
`df.astype`.  Models modin/pandas/base.py (`astype`) and modin/core/dataframe/pandas/dataframe/dataframe.py (`astype`).
The dtypes of the frame are an argument `T`; `is_dtype_equal` is equality; the dtype recorded for a column cast to a
category (a proxy that asks the data, 1743-1750) is the dtype asked for.  `copy=False` is not modelled.
-/

variable {ι κ α τ : Type} [DecidableEq ι] [DecidableEq κ] [DecidableEq τ]

/-- modin/core/dataframe/pandas/dataframe/dataframe.py:1732 `not is_dtype_equal(dtype, self_dtypes[column])`: for a label that
    occurs several times `self_dtypes[column]` is a Series, which is never equal to a dtype -/
def dtypeDiffers (columns : List κ) (T : List τ) (p : κ × τ) : Bool :=
  match (columns.zip T).filter fun q => decide (q.1 = p.1) with
  | [q] => decide (p.2 ≠ q.2)
  | _ => true

/-- modin/core/dataframe/pandas/dataframe/dataframe.py:1734-1753 `new_dtypes[column] = new_dtype` for the columns that change -/
def newDtypes (columns : List κ) (T : List τ) (ch : List (κ × τ)) : List τ :=
  List.zipWith (fun k t => (valueFor ch k).getD t) columns T

/-- modin/core/dataframe/pandas/dataframe/dataframe.py:1755-1759 and 1784-1786 `astype_builder`: pandas' `astype` of one frame,
    with the part of the dictionary that names columns of that frame -/
def astypeBuilder (castTo : τ → List α → Option (List α)) (ignore : Bool) (arg : AstypeArg κ τ) (b : Frame ι κ α) :
    Option (Frame ι κ α) :=
  match arg with
  | .all t => b.astype castTo ignore (.all t)
  | .each d => b.astype castTo ignore (.each (d.filter fun p => b.columns.contains p.1))

/-- modin/core/dataframe/pandas/dataframe/dataframe.py:1795-1806: every block by itself (`lazy_map_partitions`), labels and
    lengths handed on -/
def LFrame.castBlocks (f : Frame ι κ α → Option (Frame ι κ α)) (m : LFrame ι κ α) : Option (LFrame ι κ α) :=
  m.operation fun m1 => (baseMapPartitions f m1.parts).bind fun g =>
    MFrame.mk' { parts := g, index := m1.index, columns := m1.columns, rowLens := m1.rowLens, colWidths := m1.colWidths }

/-- modin/core/dataframe/pandas/dataframe/dataframe.py:1788-1806: nothing to change: a copy; categories: whole columns
    (`map_axis_partitions(0, ..., keep_partitioning=True)`, as in `fold`); otherwise block by block -/
def LFrame.castWith (cfg : Cfg) (f : Frame ι κ α → Option (Frame ι κ α)) (changed full : Bool) (m : LFrame ι κ α) :
    Option (LFrame ι κ α) :=
  if !changed then m.operation fun m1 => m1.mk'
  else if full then m.fold cfg true f
  else m.castBlocks f

/-- modin/core/dataframe/pandas/dataframe/dataframe.py:1706-1806 `astype` and modin/pandas/base.py:1085-1133: the frame and its
    recorded dtypes.  An unknown name raises (in base.py with `errors="raise"`, otherwise at `self_dtypes[column]`). -/
def LFrame.astype (cfg : Cfg) (isCat : τ → Bool) (castTo : τ → List α → Option (List α)) (ignore : Bool) (arg : AstypeArg κ τ)
    (T : List τ) (m : LFrame ι κ α) : Option (LFrame ι κ α × List τ) :=
  match arg with
  | .each d =>
    if d.all fun p => m.getColumns.contains p.1 then
      let ch := d.filter (dtypeDiffers m.getColumns T)
      (m.castWith cfg (astypeBuilder castTo ignore arg) (!ch.isEmpty) (ch.any fun p => isCat p.2)).map
        fun r => (r, newDtypes m.getColumns T ch)
    else none
  | .all t =>
    (m.castWith cfg (astypeBuilder castTo ignore arg) (T.any fun u => decide (u ≠ t)) (isCat t)).map
      fun r => (r, if T.any fun u => decide (u ≠ t) then T.map fun _ => t else T)
