import Verif.Model.Convert
import Verif.Pandas.Replace
/-
`replace`, `round`, `Series.map`, `Series.apply`.  All go through `Map.register` (modin/core/dataframe/algebra/map.py): a
function of single blocks, whose labels are not brought up to date first.  dtypes are not modelled.
-/

variable {ι κ α : Type} [DecidableEq ι] [DecidableEq κ]

/-- modin/core/storage_formats/pandas/query_compiler.py:2107 `replace`, called by modin/pandas/dataframe.py:1886-1908 and
    modin/pandas/series.py:1996-2018.  Regular expressions and `method="bfill"` are not modelled. -/
def LFrame.replace [DecidableEq α] (cfg : Cfg) (dyn : Bool) (cpu : Nat) (arg : ReplaceArg κ α) (m : LFrame ι κ α) : Option (LFrame ι κ α) :=
  m.mapBlocks cfg dyn cpu (Frame.replace arg)

/-- modin/core/storage_formats/pandas/query_compiler.py:2106 `round`, called by modin/pandas/base.py:2820-2828 -/
def LFrame.roundTo (cfg : Cfg) (dyn : Bool) (cpu : Nat) (rnd : Int → α → α) (arg : RoundArg κ) (m : LFrame ι κ α) : Option (LFrame ι κ α) :=
  m.mapBlocks cfg dyn cpu (Frame.roundTo rnd arg)

/-- `list[i]` with negative numbers counting from the end (part of `mapper.get`, modin/pandas/series.py:1463-1467) -/
def mapperItem (l : List α) (i : Int) : Option α :=
  if 0 ≤ i then l[i.toNat]? else if -(l.length : Int) ≤ i then l[(l.length + i).toNat]? else none

/-- modin/pandas/series.py:1463-1467 `mapper.get(s, np.nan)` for a Series: the value under the label; `several` is the Series of
    the values of a repeated label; an integer that is not a label is a position if none of the labels is an integer
    (pandas 2 `Series.get`).  `asInt` says which values are integers. -/
def mapperGet [DecidableEq α] (nan : α) (asInt : α → Option Int) (several : List α → α) (s : List (α × α)) (x : α) : α :=
  match s.filter fun p => decide (p.1 = x) with
  | [p] => p.2
  | [] => if s.all fun p => (asInt p.1).isNone then ((asInt x).bind (mapperItem (s.map (·.2)))).getD nan else nan
  | ps => several (ps.map (·.2))

/-- modin/pandas/series.py:1463-1467: what `arg(s)` is.  `dict.get` does not call `__missing__`. -/
def MapArg.modinValue [DecidableEq α] (nan : α) (asInt : α → Option Int) (several : List α → α) : MapArg α → α → Option α
  | .fn f, x => f x
  | .dict d _, x => some ((valueFor d x).getD nan)
  | .series s, x => some (mapperGet nan asInt several s x)

/-- modin/pandas/series.py:1451-1475 `Series.map` -/
def LFrame.mapSeries [DecidableEq α] (cfg : Cfg) (dyn : Bool) (cpu : Nat) (nan : α) (isna : α → Bool) (asInt : α → Option Int)
    (several : List α → α) (ignoreNa : Bool) (arg : MapArg α) (m : LFrame ι κ α) : Option (LFrame ι κ α) :=
  m.mapBlocksM cfg dyn cpu (Frame.mapCellsM fun x =>
    if !(isna x) || !ignoreNa then arg.modinValue nan asInt several x else some x)

/-- modin/pandas/series.py:703-805 `Series.apply` with a function of single values whose results are not Series: `self.map(f)`;
    afterwards (797-799) a name equal to the first row label is taken away (`same k i`: the name `k` equals the label `i`;
    `unnamed` is the column label of a Series without a name, modin/pandas/series.py:199-216).  `self.index[0]` raises for
    an empty Series.  The trial on the first value (739-748) has no other effect here. -/
def LFrame.applySeries (cfg : Cfg) (dyn : Bool) (cpu : Nat) (same : κ → ι → Bool) (unnamed : κ) (f : α → Option α)
    (m : LFrame ι κ α) : Option (LFrame ι κ α) :=
  (m.mapBlocksM cfg dyn cpu (Frame.mapCellsM f)).bind fun r =>
    match m.getIndex, r.getColumns with
    | i :: _, [k] => if same k i then r.setColumns [unnamed] else some r
    | _, _ => none
