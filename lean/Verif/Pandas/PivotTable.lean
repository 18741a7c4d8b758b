import Verif.Pandas.Unstack
/-
Specification vocabulary: `df.pivot_table(...)`.
`index` and `columns` are one label each, `margins=False`.  Level names and dtypes are left out.  A column label has two levels, or only
the second one (`(none, some b)`), or only the first one (`(some v, none)`).
-/

variable {ι κ κ' α δ : Type}

/-- The table of the columns `vs`: `ci` and `cc` are the cells of the columns whose values label the rows and the columns of the table.
    The rows of the frame are grouped by both; with `dropna`, groups with a missing key are left out, then groups for which `h` has no
    value in any column.  The values of the keys of the groups that are left label the table, in order.  A cell is the value of `h` on its
    group, or `fill` (which may be missing) if there is no such value or no such group.  With `dropna`, columns without any value are
    left out at the end. -/
def pivotCells [DecidableEq α] (le : α → α → Bool) (isna : α → Bool) (h : List α → Option δ) (lab : κ → α → κ') (dropna : Bool)
    (fill : Option δ) (ci cc : List α) (vs : List (κ × List α)) : Frame α κ' (Option δ) :=
  let keys := ci.zip cc
  let groups := (firsts keys).filter fun k => !(dropna && (isna k.1 || isna k.2))
  let kept := groups.filter fun k => !dropna || vs.any fun v => (h (cellsAt k keys v.2)).isSome
  let rows := levelValues le (kept.map (·.1))
  let table := vs.flatMap fun v => (levelValues le (kept.map (·.2))).map fun b =>
    (lab v.1 b, rows.map fun a => (if (a, b) ∈ kept then h (cellsAt (a, b) keys v.2) else none).or fill)
  Frame.ofCols rows (if dropna then table.filter fun c => c.2.any (·.isSome) else table)

/-- the column labels of a pivot table -/
def PivotValues.tableLabel (values : PivotValues κ) (v : κ) (b : α) : Option κ × Option α := ((values.label v b).1, some b)

/-- the table of the columns called `vs`, in this order; `none`: one of the columns named does not exist, or exists twice -/
def Frame.pivotTableOf [DecidableEq κ] [DecidableEq α] (le : α → α → Bool) (isna : α → Bool) (h : List α → Option δ) (i c : κ)
    (lab : κ → α → κ') (vs : List κ) (dropna : Bool) (fill : Option δ) (df : Frame ι κ α) : Option (Frame α κ' (Option δ)) :=
  (df.onlyColumn i).bind fun ci => (df.onlyColumn c).bind fun cc =>
  (vs.mapM fun v => (df.onlyColumn v).map fun cells => (v, cells)).map fun vs => pivotCells le isna h lab dropna fill ci cc vs

/-- `df.pivot_table(index=i, columns=c, values=values, aggfunc=h, dropna=dropna, fill_value=fill)`: the columns in order of their
    labels (`sort=True`). -/
def Frame.pivotTable [DecidableEq κ] [DecidableEq α] (leK : κ → κ → Bool) (le : α → α → Bool) (isna : α → Bool)
    (h : List α → Option δ) (i c : κ) (values : PivotValues κ) (dropna : Bool) (fill : Option δ) (df : Frame ι κ α) :
    Option (Frame α (Option κ × Option α) (Option δ)) :=
  df.pivotTableOf le isna h i c values.tableLabel (sortBy leK (values.labels i c df.columns)) dropna fill
