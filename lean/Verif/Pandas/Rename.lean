import Verif.Pandas.Labels

/-!
# pandas' `rename`, `add_prefix` and `add_suffix`

The specification of the methods that give rows and columns other labels (`pandas.pydata.org/docs/reference/api/pandas.DataFrame.rename.html`).
-/

variable {L α : Type}

/-- new labels: a dictionary from old to new ones, or a function -/
inductive Renamer (L : Type) where
  | dict (d : List (L × L))
  | fn (f : L → L)

/-- the new label; what the dictionary does not have stays -/
def Renamer.new [DecidableEq L] : Renamer L → L → L
  | .dict d, x => ((d.find? fun e => decide (e.1 = x)).map (·.2)).getD x
  | .fn f, x => f x

/-- a key of the dictionary that is no label: with `errors="raise"` a `KeyError` -/
def Renamer.lacks [DecidableEq L] (labels : List L) : Renamer L → Bool
  | .dict d => d.any fun e => decide (e.1 ∉ labels)
  | .fn _ => false

/-- `df.rename(index=..., columns=..., errors=...)` once it is settled which axis gets which labels; `none`: `KeyError` -/
def Frame.relabelled [DecidableEq L] (index columns : Option (Renamer L)) (raises : Bool) (df : Frame L L α) : Option (Frame L L α) :=
  if raises && (index.any (·.lacks df.index) || columns.any (·.lacks df.columns)) then none
  else some { df with
    index := (match index with | some r => df.index.map r.new | none => df.index),
    columns := (match columns with | some r => df.columns.map r.new | none => df.columns) }

/-- `df.rename(mapper, index=..., columns=..., axis=..., errors=...)`, `axis` is true for the columns; `none`: an exception.  Nothing to
    rename by, `mapper` or `axis` together with `index` or `columns`: `TypeError`. -/
def Frame.rename [DecidableEq L] (mapper index columns : Option (Renamer L)) (axis : Option Bool) (raises : Bool) (df : Frame L L α) :
    Option (Frame L L α) :=
  if mapper.isNone && index.isNone && columns.isNone then none
  else if index.isSome || columns.isSome then
    if axis.isSome || mapper.isSome then none else df.relabelled index columns raises
  else if axis = some true then df.relabelled none mapper raises
  else df.relabelled mapper none raises

/-- `s.rename(mapping, inplace=..., errors=...)` of a Series (a frame of one column): the Series afterwards and what is returned;
    `none`: `KeyError` -/
def Frame.seriesRename [DecidableEq L] (r : Renamer L) (inplace raises : Bool) (s : Frame L L α) :
    Option (Frame L L α × Option (Frame L L α)) :=
  (s.relabelled (some r) none raises).map fun t => if inplace then (t, none) else (s, some t)
