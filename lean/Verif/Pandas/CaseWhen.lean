import Verif.Pandas.Align
/-
Specification vocabulary: pandas' `Series.case_when`.
-/

variable {L α : Type}

/-- A condition or a replacement: a Series with its labels, a list or array, a scalar, or a function of the Series' cells. -/
inductive CaseArg (L α : Type) where
  | series (index : List L) (cells : List α)
  | array (cells : List α)
  | scalar (a : α)
  | fn (f : List α → List α)

/-- a Series' cells for the given labels (`Series.reindex(index, fill_value=fill)`); `none`: it has repeated labels, in another order -/
def seriesFor [DecidableEq L] (fill : α) (index idx : List L) (cells : List α) : Option (List α) :=
  if idx = index then some cells
  else if idx.Nodup then some (index.map fun x => ((idx.findIdx? (· == x)).bind (cells[·]?)).getD fill)
  else none

/-- The cells of a condition (`cond`) or replacement, one for each row of the Series with labels `index` and cells `vals`; labels
    that a Series lacks get `fill`.  `none`: `ValueError`. -/
def CaseArg.cells [DecidableEq L] (cond : Bool) (fill : α) (index : List L) (vals : List α) : CaseArg L α → Option (List α)
  | .series idx cs => seriesFor fill index idx cs
  | .array cs => if cs.length = vals.length then some cs else none
  | .scalar a => if cond then none else some (vals.map fun _ => a)
  | .fn f => if (f vals).length = vals.length then some (f vals) else none

/-- the replacement of the first case whose condition holds, otherwise the cell itself -/
def firstMatch (flag : α → Bool) (v : α) : List (α × α) → α
  | [] => v
  | (c, r) :: rest => if flag c then r else firstMatch flag v rest

/-- `s.case_when(caselist)` for a Series with labels `index` and cells `vals`: the new cells.  A condition holds where its cell is
    true (`flag`); `tt` is True, `nan` the missing value. -/
def caseWhen [DecidableEq L] (flag : α → Bool) (tt nan : α) (index : List L) (vals : List α) (cases : List (CaseArg L α × CaseArg L α)) :
    Option (List α) :=
  if cases.isEmpty then none
  else (cases.mapM fun (c : CaseArg L α × CaseArg L α) => (c.1.cells true tt index vals).bind fun cs => (c.2.cells false nan index vals).map fun rs => (cs, rs)).map
    fun cols => vals.mapIdx fun i v => firstMatch flag v (cols.filterMap fun p => (p.1[i]?).bind fun c => (p.2[i]?).map fun r => (c, r))

/-- a frame of one column -/
def oneColumn (index : List L) (name : L) (vals : List α) : Frame L L α := { index := index, columns := [name], rows := vals.map ([·]) }
