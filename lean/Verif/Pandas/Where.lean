import Verif.Pandas.Fillna
import Verif.Pandas.Align
/-
Specification vocabulary: `where`, `isin` and `clip`, pandas' semantics.
-/

variable {ι κ α L : Type}

/-- where the labels `J` are found among `labels`; the same labels are matched in order, even if they repeat -/
def labelPositions [DecidableEq L] (labels J : List L) : List (Option Nat) :=
  if labels = J then (List.range J.length).map some else J.map fun x => labels.findIdx? (· == x)

/-- the cell of `v` that belongs to row `x`, column `y` of a frame with the labels `idx`, `cols`: the one under the same labels -/
def Frame.alignedCell [DecidableEq ι] [DecidableEq κ] (v : Frame ι κ α) (idx : List ι) (cols : List κ) (x y : Nat) : Option α :=
  ((labelPositions v.index idx)[x]?).join.bind fun p => ((labelPositions v.columns cols)[y]?).join.bind fun q => v.cell p q

/-- `df.where(cond, other)`: a cell stays where the condition holds under its labels, anything else (a condition that is absent
    too) gives way to `other` -/
def Frame.whereBy [DecidableEq ι] [DecidableEq κ] (f : Frame ι κ α) (truth : α → Bool) (cond : Frame ι κ α) (other : Nat → Nat → α) :
    Frame ι κ α :=
  ⟨f.index, f.columns, f.rows.mapIdx fun x row => row.mapIdx fun y v =>
    if (cond.alignedCell f.index f.columns x y).any truth then v else other x y⟩

/-- the values of `isin` -/
inductive IsinArg (ι κ α : Type) where
  | list (vals : List α)
  | dict (d : List (κ × List α))
  | series (s : List (ι × α))
  | frame (v : Frame ι κ α)

/-- whether one cell under the labels `i`, `k` is in the values: in the list; in the list for its column; equal to the value for
    its row; equal to the cell under its labels -/
def IsinArg.has [DecidableEq ι] [DecidableEq κ] (eqv : α → α → Bool) (a : IsinArg ι κ α) (i : ι) (k : κ) (x : α) : Bool :=
  match a with
  | .list vals => vals.any (eqv x)
  | .dict d => ((d.find? fun p => decide (p.1 = k)).map (·.2)).any fun vals => vals.any (eqv x)
  | .series s => ((s.find? fun p => decide (p.1 = i)).map (·.2)).any (eqv x)
  | .frame v => ((v.index.findIdx? (· == i)).bind fun p => (v.columns.findIdx? (· == k)).bind fun q => v.cell p q).any (eqv x)

/-- labels pandas refuses: repeated labels of a Series or frame of values -/
def IsinArg.ok [DecidableEq ι] [DecidableEq κ] (a : IsinArg ι κ α) : Bool :=
  match a with
  | .list _ => true
  | .dict _ => true
  | .series s => decide (s.map (·.1)).Nodup
  | .frame v => decide v.index.Nodup && decide v.columns.Nodup

/-- `df.isin(values)` -/
def Frame.isin [DecidableEq ι] [DecidableEq κ] (eqv : α → α → Bool) (a : IsinArg ι κ α) (f : Frame ι κ α) : Option (Frame ι κ Bool) :=
  if a.ok then some (f.mapCellsL (a.has eqv)) else none

/-- a bound of `clip` -/
inductive Bound (α : Type) where
  | absent
  | scalar (v : α)
  | list (vs : List α)
deriving DecidableEq, Repr

/-- the bound for the cell at position `i` of a line; a missing value is no bound -/
def Bound.at (isna : α → Bool) (b : Bound α) (i : Nat) : Option α :=
  match b with
  | .absent => none
  | .scalar v => if isna v then none else some v
  | .list vs => vs[i]?.filter fun v => !isna v

/-- a cell below the lower bound becomes that bound, then one above the upper bound becomes that bound -/
def clipCell (lt : α → α → Bool) (lo hi : Option α) (x : α) : α :=
  let y := match lo with
    | some l => if lt x l then l else x
    | none => x
  match hi with
  | some h => if lt h y then h else y
  | none => y

def Bound.isList : Bound α → Bool
  | .list _ => true
  | _ => false

/-- pandas exchanges two scalar bounds in the wrong order -/
def clipBounds (lt : α → α → Bool) (isna : α → Bool) (lo hi : Bound α) : Bound α × Bound α :=
  match lo, hi with
  | .scalar l, .scalar h => if !isna l && !isna h && lt h l then (.scalar h, .scalar l) else (lo, hi)
  | _, _ => (lo, hi)

/-- a line (a column or row) clipped with bounds by position -/
def clipLine (lt : α → α → Bool) (isna : α → Bool) (lo hi : Bound α) (c : List α) : List α :=
  c.mapIdx fun i x => clipCell lt (lo.at isna i) (hi.at isna i) x

/-- the lists among the bounds have one value for each cell of a line -/
def Bound.fits (b : Bound α) (n : Nat) : Bool :=
  match b with
  | .list vs => vs.length == n
  | _ => true

/-- `df.clip(lower, upper, axis=...)`: with `axis=0` a list bounds the rows, with `axis=1` the columns; so without an axis.  A list of the
    wrong length raises. -/
def Frame.clip (lt : α → α → Bool) (isna : α → Bool) (lo hi : Bound α) (axis0 : Bool) (f : Frame ι κ α) : Option (Frame ι κ α) :=
  if lo.fits (if axis0 then f.nrows else f.ncols) && hi.fits (if axis0 then f.nrows else f.ncols) then
    some (f.along axis0 (clipLine lt isna (clipBounds lt isna lo hi).1 (clipBounds lt isna lo hi).2))
  else none
