import Verif.Pandas.Fillna
import Verif.Pandas.GroupAgg
/-
Specification vocabulary: `df.astype`, pandas' semantics.  `castTo t c` is the column `c` cast to the dtype `t`
(`none` = it cannot be cast); what casting does is left open.
-/

variable {ι κ α τ : Type}

/-- the argument of `astype`: one dtype for all columns, or a dictionary (a Series is made into one) -/
inductive AstypeArg (κ τ : Type) where
  | all (t : τ)
  | each (d : List (κ × τ))

/-- the dtype asked for a column -/
def AstypeArg.target [DecidableEq κ] (arg : AstypeArg κ τ) (k : κ) : Option τ :=
  match arg with
  | .all t => some t
  | .each d => valueFor d k

/-- does the argument name columns of the frame only? -/
def AstypeArg.keysIn [DecidableEq κ] (arg : AstypeArg κ τ) (columns : List κ) : Bool :=
  match arg with
  | .all _ => true
  | .each d => d.all fun p => columns.contains p.1

/-- every column replaced by what `cast` makes of its name and its values; `none`: one of them raised -/
def Frame.castNamed (cast : κ → List α → Option (List α)) (f : Frame ι κ α) : Option (Frame ι κ α) :=
  (f.named.mapM fun p => (cast p.1 p.2).map fun c => (p.1, c)).map (Frame.ofCols f.index)

/-- what becomes of one column: with `errors="ignore"` a column that cannot be cast is left as it is -/
def AstypeArg.cast [DecidableEq κ] (castTo : τ → List α → Option (List α)) (ignore : Bool) (arg : AstypeArg κ τ) (k : κ) (c : List α) :
    Option (List α) :=
  match arg.target k with
  | none => some c
  | some t => match castTo t c with
    | some c' => some c'
    | none => if ignore then some c else none

/-- `df.astype(arg, errors=...)` -/
def Frame.astype [DecidableEq κ] (castTo : τ → List α → Option (List α)) (ignore : Bool) (arg : AstypeArg κ τ) (f : Frame ι κ α) :
    Option (Frame ι κ α) :=
  if arg.keysIn f.columns then f.castNamed (arg.cast castTo ignore) else none

/-- the dtypes of the result, if every column could be cast -/
def AstypeArg.dtypes [DecidableEq κ] (arg : AstypeArg κ τ) (columns : List κ) (T : List τ) : List τ :=
  List.zipWith (fun k t => (arg.target k).getD t) columns T
