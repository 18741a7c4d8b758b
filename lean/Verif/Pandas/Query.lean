import Verif.Pandas.Dropna
/-
Specification vocabulary: `df.query(expr)` and `df.explode(columns)`, pandas' semantics.
-/

variable {ι κ α : Type}

/-! ### `query` -/

/-- The expressions of `query`.  `bin` is an arithmetic operator, `&`, `|`, `and`, `or` or a comparison other than `in`; more than two
    operands (`a and b and c`, `a < b < c`) are nested.  `mem` is `a in b`.  `call` is a call of a method that makes one value
    of a whole column (`a.mean()`). -/
inductive QExpr (κ α : Type) where
  | name (k : κ)
  | var (s : κ)
  | const (a : α)
  | unary (op : α → α) (e : QExpr κ α)
  | bin (op : α → α → α) (l r : QExpr κ α)
  | mem (l r : QExpr κ α)
  | call (fn : List α → α) (e : QExpr κ α)

/-- what an expression stands for: one value, a column, or an array that has nothing to do with the rows -/
inductive QVal (α : Type) where
  | scalar (a : α)
  | column (xs : List α)
  | array (xs : List α)
deriving DecidableEq, Repr

/-- the cells' side of an expression: equality, the cells for `True` and `False`, and which cells are those -/
structure QOps (α : Type) where
  eqv : α → α → Bool
  ofBool : Bool → α
  truth : α → Option Bool

/-- a scalar function of one operand -/
def QVal.map (op : α → α) : QVal α → QVal α
  | .scalar a => .scalar (op a)
  | .column xs => .column (xs.map op)
  | .array xs => .array (xs.map op)

/-- a scalar function of two operands; arrays go with columns position by position and must have the same length -/
def QVal.map₂ (op : α → α → α) : QVal α → QVal α → Option (QVal α)
  | .scalar a, .scalar b => some (.scalar (op a b))
  | .scalar a, .column ys => some (.column (ys.map (op a)))
  | .scalar a, .array ys => some (.array (ys.map (op a)))
  | .column xs, .scalar b => some (.column (xs.map (op · b)))
  | .array xs, .scalar b => some (.array (xs.map (op · b)))
  | .column xs, .column ys => some (.column (List.zipWith op xs ys))
  | .column xs, .array ys => if xs.length = ys.length then some (.column (List.zipWith op xs ys)) else none
  | .array xs, .column ys => if xs.length = ys.length then some (.column (List.zipWith op xs ys)) else none
  | .array xs, .array ys => if xs.length = ys.length then some (.array (List.zipWith op xs ys)) else none

/-- `a in b` is `a.isin(b)`: every cell of the column `a` is looked up among all the values of `b`.  Other operands are not
    considered. -/
def QVal.isin (o : QOps α) : QVal α → QVal α → Option (QVal α)
  | .column xs, .column ys => some (.column (xs.map fun x => o.ofBool (ys.any (o.eqv x))))
  | .column xs, .array ys => some (.column (xs.map fun x => o.ofBool (ys.any (o.eqv x))))
  | _, _ => none

/-- one value of a whole column -/
def QVal.reduce (fn : List α → α) : QVal α → Option (QVal α)
  | .column xs => some (.scalar (fn xs))
  | _ => none

/-- the position of a column; the last one if the name repeats (the columns are put in a dictionary) -/
def lastPosition [DecidableEq κ] (columns : List κ) (k : κ) : Option Nat :=
  ((List.range columns.length).filter fun p => columns[p]? == some k).getLast?

/-- the value of an expression on a frame; `env` has the variables written with `@`.  `none`: an error, such as an undefined name -/
def QExpr.eval [DecidableEq κ] (o : QOps α) (env : κ → Option (QVal α)) (f : Frame ι κ α) : QExpr κ α → Option (QVal α)
  | .name k => (lastPosition f.columns k).map fun p => .column (columnCells f.rows p)
  | .var s => env s
  | .const a => some (.scalar a)
  | .unary op e => (e.eval o env f).map (QVal.map op)
  | .bin op l r => (l.eval o env f).bind fun x => (r.eval o env f).bind fun y => x.map₂ op y
  | .mem l r => (l.eval o env f).bind fun x => (r.eval o env f).bind fun y => x.isin o y
  | .call fn e => (e.eval o env f).bind (QVal.reduce fn)

/-- `df.query(expr)`: the rows where the expression is true.  Only expressions with a column of truth values are considered. -/
def Frame.query [DecidableEq κ] (o : QOps α) (env : κ → Option (QVal α)) (e : QExpr κ α) (f : Frame ι κ α) : Option (Frame ι κ α) :=
  match e.eval o env f with
  | some (.column xs) => (xs.mapM o.truth).map fun flags => f.pickRows flags
  | _ => none

/-- The value of an expression at a row depends on that row only: there is no call, variables are single values, and `in` is asked
    of an array. -/
def QExpr.Rowwise (env : κ → Option (QVal α)) : QExpr κ α → Prop
  | .name _ => True
  | .var s => ∃ a, env s = some (.scalar a)
  | .const _ => True
  | .unary _ e => e.Rowwise env
  | .bin _ l r => l.Rowwise env ∧ r.Rowwise env
  | .mem l r => l.Rowwise env ∧ ∃ s vals, r = .var s ∧ env s = some (.array vals)
  | .call _ _ => False

/-- some method is called in the expression -/
def QExpr.Calls : QExpr κ α → Prop
  | .name _ => False
  | .var _ => False
  | .const _ => False
  | .unary _ e => e.Calls
  | .bin _ l r => l.Calls ∨ r.Calls
  | .mem l r => l.Calls ∨ r.Calls
  | .call _ _ => True

/-! ### `explode` -/

/-- the rows made of one row: the `t`-th has the `t`-th item of each exploded cell.  `none`: the cells have different numbers of items -/
def explodeRow (items : α → List α) (ps : List Nat) (row : List α) : Option (List (List α)) :=
  match ps.filterMap fun p => row[p]?.map fun x => (p, items x) with
  | [] => none
  | (q, first) :: rest =>
    if rest.all (fun e => e.2.length == first.length) then
      some ((List.range first.length).map fun t => row.mapIdx fun j x =>
        ((((q, first) :: rest).find? fun e => e.1 == j).bind fun e => e.2[t]?).getD x)
    else none

/-- `df.explode(columns)`: the rows made of each row, under the label of that row.  `items` has the elements of a list-like cell (a
    missing value if there are none) and just the cell itself otherwise.  Repeated column labels, repeated or absent names are errors. -/
def Frame.explode [DecidableEq κ] (items : α → List α) (columns : List κ) (f : Frame ι κ α) : Option (Frame ι κ α) :=
  if f.columns.Nodup ∧ columns.Nodup ∧ columns ≠ [] ∧ ∀ k ∈ columns, k ∈ f.columns then
    (f.rows.mapM (explodeRow items (columns.filterMap (lastPosition f.columns)))).map fun groups =>
      ⟨(List.zipWith (fun i g => g.map fun _ => i) f.index groups).flatten, f.columns, groups.flatten⟩
  else none

/-- `df.explode(columns, ignore_index)` -/
def Frame.explodeI [DecidableEq κ] (items : α → List α) (columns : List κ) (num : Nat → ι) (ignore : Bool) (f : Frame ι κ α) :
    Option (Frame ι κ α) :=
  (f.explode items columns).map fun r => if ignore then { r with index := (List.range r.rows.length).map num } else r
