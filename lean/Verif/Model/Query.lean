import Verif.Model.Dropna
import Verif.Pandas.Query
/-
`df.query(expr)` and `df.explode(columns)`.
Models modin/pandas/dataframe.py (`query`), modin/pandas/base.py (`explode`),
modin/core/storage_formats/pandas/query_compiler.py (`rowwise_query`, `explode`) and
modin/core/dataframe/pandas/dataframe/dataframe.py (`filter`, `explode`).
What pandas does to one row partition is `Frame.query`, `Frame.explode` of Verif/Pandas/Query.lean.  The expression is taken as parsed:
`ast.parse` of modin and the parser of pandas agree on which kinds of nodes there are; names in backticks, which `ast.parse`
refuses, are left out.
-/

variable {ι κ α : Type}

/-- the number of nodes of an expression (bounds the steps of the walk below) -/
def QExpr.size : QExpr κ α → Nat
  | .name _ => 1
  | .var _ => 1
  | .const _ => 1
  | .unary _ e => e.size + 1
  | .bin _ l r => l.size + r.size + 1
  | .mem l r => l.size + r.size + 1
  | .call _ e => e.size + 1

/-- modin/core/storage_formats/pandas/query_compiler.py:3612-3634: the walk over the expression; the top of the stack is the head of
    the list.  `ast.UnaryOp`, `ast.BinOp`, `ast.BoolOp` and `ast.Compare` (whatever the operator) are looked into, `ast.Name` and
    `ast.Constant` pass, anything else ends the walk. -/
def rowWiseWalk : Nat → List (QExpr κ α) → Bool
  | _, [] => true
  | 0, _ :: _ => false
  | n + 1, node :: nodes =>
    match node with
    | .unary _ e => rowWiseWalk n (e :: nodes)
    | .bin _ l r => rowWiseWalk n (r :: l :: nodes)
    | .mem l r => rowWiseWalk n (r :: l :: nodes)
    | .name _ => rowWiseWalk n nodes
    | .var _ => rowWiseWalk n nodes
    | .const _ => rowWiseWalk n nodes
    | .call _ _ => false

/-- modin/core/storage_formats/pandas/query_compiler.py:3612-3637 -/
def isRowWiseQuery (e : QExpr κ α) : Bool := rowWiseWalk e.size [e]

/-- modin/pandas/dataframe.py:1767-1806 `query` and modin/core/storage_formats/pandas/query_compiler.py:3585-3642 `rowwise_query`.
    `fallback` is what is done for other expressions (`self.loc[self.eval(expr)]`), not modelled. -/
def LFrame.query [DecidableEq ι] [DecidableEq κ] (cfg : Cfg) (o : QOps α) (env : κ → Option (QVal α))
    (fallback : LFrame ι κ α → Option (LFrame ι κ α)) (e : QExpr κ α) (m : LFrame ι κ α) : Option (LFrame ι κ α) :=
  if isRowWiseQuery e then m.operation fun m1 => m1.filterAxis cfg false (Frame.query o env e)
  else fallback m

/-- modin/core/dataframe/pandas/dataframe/dataframe.py:2878-2916 `explode` with `axis=1` (841-863
    `_compute_axis_labels_and_lengths`: labels and lengths of the first block of each row partition).  Reading `self.columns` may also
    record the column widths if they are not known; they are left unknown here. -/
def MFrame.explode [DecidableEq ι] [DecidableEq κ] (cfg : Cfg) (func : Frame ι κ α → Option (Frame ι κ α)) (m : MFrame ι κ α) :
    Option (MFrame ι κ α) :=
  (mapAxisPartitions cfg false func m.parts true none none).bind fun g =>
  MFrame.mk' { parts := g, index := some (gridIndex g), columns := some m.getColumns,
               rowLens := some (g.filterMap fun row => row.head?.map (·.nrows)), colWidths := m.colWidths }

/-- modin/pandas/base.py:1632-1643 `explode`; the row labels are known then, so that `reset_index(drop=True)`
    (modin/core/storage_formats/pandas/query_compiler.py:741-919) numbers the rows of a copy -/
def LFrame.explode [DecidableEq ι] [DecidableEq κ] (cfg : Cfg) (items : α → List α) (columns : List κ) (num : Nat → ι) (ignore : Bool)
    (m : LFrame ι κ α) : Option (LFrame ι κ α) :=
  (m.operation fun m1 => m1.explode cfg (Frame.explode items columns)).bind fun e =>
  if ignore then e.copy.bind fun c => c.setIndex ((List.range c.getRowLens.sum).map num) else some e
