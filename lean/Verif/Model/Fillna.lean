import Verif.Model.Fold
import Verif.Model.Mask
import Verif.Pandas.Fillna
/-
`fillna` with a value.
Models modin/pandas/base.py (`fillna`) and modin/core/storage_formats/pandas/query_compiler.py (`fillna`) for frames
(`squeeze_self=False`).  dtypes are not modelled.
-/

variable {ι κ α : Type}

/-- The argument `value` of `DataFrame.fillna`.  A Series is read as pairs of a label and a value
    (modin/core/storage_formats/pandas/query_compiler.py:2753-2760). -/
inductive FillArg (ι κ α : Type) where
  | scalar (v : α)
  | named (d : List (κ × α))
  | frame (v : LFrame ι κ α)
  | listLike
  | missing

/-- modin/core/storage_formats/pandas/query_compiler.py:2803-2813 with a scalar -/
def LFrame.fillScalar [DecidableEq ι] [DecidableEq κ] (cfg : Cfg) (dyn : Bool) (cpu : Nat) (isna : α → Bool) (v : α) (limit : Option Nat)
    (axis0 : Bool) (m : LFrame ι κ α) : Option (LFrame ι κ α) :=
  if limit.isSome then m.fold cfg axis0 fun b => some (b.fillScalar isna v limit axis0)
  else m.mapBlocks cfg dyn cpu fun b => b.fillScalar isna v none axis0

/-- modin/core/storage_formats/pandas/query_compiler.py:2775-2813 with a dictionary or a Series: every block is filled by the
    names of its own columns.  pandas raises for `axis=1` (in every block). -/
def LFrame.fillDict [DecidableEq ι] [DecidableEq κ] (cfg : Cfg) (dyn : Bool) (cpu : Nat) (isna : α → Bool) (d : List (κ × α))
    (limit : Option Nat) (axis0 : Bool) (m : LFrame ι κ α) : Option (LFrame ι κ α) :=
  if !axis0 then none
  else if limit.isSome then m.fold cfg axis0 fun b => some (b.fillDict isna d limit)
  else m.mapBlocks cfg dyn cpu fun b => b.fillDict isna d none

/-- modin/core/storage_formats/pandas/query_compiler.py:2762-2770 with a frame: `broadcast_apply` along the rows, the row labels
    of `self` kept; its decorator brings the labels of both frames up to date.  pandas ignores `limit` and `axis` here. -/
def LFrame.fillFrame [DecidableEq ι] [DecidableEq κ] (m : LFrame ι κ α) (le : ι → ι → Bool) (cfg : Cfg) (dyn : Bool) (nan : α)
    (isna : α → Bool) (v : LFrame ι κ α) : Option (LFrame ι κ α) :=
  v.synced.bind fun v1 => m.operation fun m1 =>
    m1.broadcastApplyRows (leftJoinSorted le) cfg dyn nan nan (fun b r => some (b.fillFrame nan isna r)) .keep v1.toMFrame

/-- modin/pandas/base.py:1815-1856 `fillna` without `method`: lists and tuples, no value, and a limit below 1 raise -/
def LFrame.fillna [DecidableEq ι] [DecidableEq κ] (le : ι → ι → Bool) (cfg : Cfg) (dyn : Bool) (cpu : Nat) (nan : α) (isna : α → Bool)
    (value : FillArg ι κ α) (limit : Option Int) (axis0 : Bool) (m : LFrame ι κ α) : Option (LFrame ι κ α) :=
  if (limit.map fun n => decide (n ≤ 0)).getD false then none
  else match value with
    | .scalar v => m.fillScalar cfg dyn cpu isna v (limit.map Int.toNat) axis0
    | .named d => m.fillDict cfg dyn cpu isna d (limit.map Int.toNat) axis0
    | .frame v => m.fillFrame le cfg dyn nan isna v
    | .listLike => none
    | .missing => none
