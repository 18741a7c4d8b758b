import Verif.Model.FullAxis
import Verif.Model.Labels
import Verif.Pandas.Corr
import Verif.Pandas.Sort
/-
Correlation and covariance.
Models modin/core/storage_formats/pandas/aggregations.py (`_CorrCovKernels`, `CorrCovBuilder.build_corr_method`),
modin/core/storage_formats/pandas/query_compiler.py (`cov`, `_nancorr`), modin/pandas/dataframe.py (`cov`) and
modin/core/dataframe/pandas/dataframe/dataframe.py (`combine_and_apply`).
All columns are numeric (`numeric_only` has nothing to do), arithmetic is exact, infinities are left out, column labels are
taken to be distinct in `corr` (rows of its tables are found by label).
-/

variable {ι κ R : Type}

/-! ### correlation -/

/-- The rows of one row partition. -/
abbrev Band := List (List (Option Rat))

/-- modin/core/storage_formats/pandas/aggregations.py:194-200: missing values replaced by zeros -/
def zeroFilled (row : List (Option Rat)) (i : Nat) : Rat := ((row[i]?).bind id).getD 0

/-- `~nan_mask`, modin/core/storage_formats/pandas/aggregations.py:186 -/
def isValid (row : List (Option Rat)) (i : Nat) : Bool := ((row[i]?).bind id).isSome

/-- modin/core/storage_formats/pandas/aggregations.py:192 `has_nans` -/
def Band.hasNans (b : Band) : Bool := b.any (·.any (·.isNone))

/-- modin/core/storage_formats/pandas/aggregations.py:208-210 `sum_of_pairwise_mul` -/
def Band.mul (b : Band) (r c : Nat) : Rat := (b.map fun row => zeroFilled row r * zeroFilled row c).sum

/-- modin/core/storage_formats/pandas/aggregations.py:303-306 `sums[c]` at `r`: the values of `c` where `r` is not missing -/
def Band.nanSum (b : Band) (r c : Nat) : Rat := (b.map fun row => if isValid row r then zeroFilled row c else 0).sum

/-- modin/core/storage_formats/pandas/aggregations.py:307-309 `sums_of_squares[c]` at `r` -/
def Band.nanPow (b : Band) (r c : Nat) : Rat :=
  (b.map fun row => if isValid row r then zeroFilled row c * zeroFilled row c else 0).sum

/-- modin/core/storage_formats/pandas/aggregations.py:310-314 `count[c]` at `r` -/
def Band.nanCount (b : Band) (r c : Nat) : Nat := b.length - (b.filter fun row => !isValid row r || !isValid row c).length

/-- modin/core/storage_formats/pandas/aggregations.py:244-249 `_compute_non_nan_aggs` -/
def Band.plainSum (b : Band) (c : Nat) : Rat := (b.map fun row => zeroFilled row c).sum
def Band.plainPow (b : Band) (c : Nat) : Rat := (b.map fun row => zeroFilled row c * zeroFilled row c).sum

/-- `total_agg` after `_maybe_combine_nan_and_non_nan_aggs`; `sumCols` is the number of columns below `"sum"` -/
structure CorrTotals where
  mul : Nat → Nat → Rat
  sums : Nat → Nat → Rat
  pows : Nat → Nat → Rat
  counts : Nat → Nat → Nat
  sumCols : Nat

/-- the positions of the columns in the order of their labels: `groupby(level=0)` sorts the rows of the totals -/
def labelOrder (le : κ → κ → Bool) (cols : List κ) : List Nat :=
  sortBy (fun i j => match cols[i]?, cols[j]? with
    | some a, some b => le a b
    | _, _ => true) (List.range cols.length)

/-- modin/core/storage_formats/pandas/aggregations.py:359-360 and 400-510: the results of the row partitions, added up.  Where
    both kinds of partitions occur, the array of plain results (rows in the order of the labels) is repeated and reshaped so
    that its row number `c` is added to column number `c` of the pairwise results, whatever the labels
    (lines 467-502: `.values`).  Entries missing from a partition's result count as zero. -/
def corrTotals (le : κ → κ → Bool) (cols : List κ) (bands : List Band) : CorrTotals :=
  let withNans := bands.filter (·.hasNans)
  let plain := bands.filter (!·.hasNans)
  let order := labelOrder le cols
  { mul := fun r c => (bands.map (·.mul r c)).sum
    sums := fun r c =>
      if withNans = [] then (plain.map (·.plainSum r)).sum
      else (withNans.map (·.nanSum r c)).sum + (plain.map (·.plainSum (order.getD c c))).sum
    pows := fun r c =>
      if withNans = [] then (plain.map (·.plainPow r)).sum
      else (withNans.map (·.nanPow r c)).sum + (plain.map (·.plainPow (order.getD c c))).sum
    counts := fun r c =>
      if withNans = [] then (plain.map (·.length)).sum
      else (withNans.map (·.nanCount r c)).sum + (plain.map (·.length)).sum
    sumCols := if withNans = [] then 1 else if plain = [] then cols.length else cols.length + 1 }

/-- modin/core/storage_formats/pandas/aggregations.py:384-392 with 512-555 `_build_corr_table_nan`, row `r`, column `c`.  A
    division by a count of zero makes the entry missing. -/
def corrEntryNan (quotient : Rat → Rat → Rat → R) (nan : R) (minPeriods : Nat) (t : CorrTotals) (r c : Nat) : R :=
  let mean := fun a b => t.sums a b / t.counts a b
  let var := fun a b => t.pows a b - 2 * mean a b * t.sums a b + t.counts a b * (mean a b * mean a b)
  if t.counts r c < minPeriods then nan
  else if t.counts r c = 0 ∨ t.counts c r = 0 then nan
  else quotient (t.mul r c - t.sums r c * mean c r - mean r c * t.sums c r + t.counts r c * mean r c * mean c r)
    (var r c) (var c r)

/-- modin/core/storage_formats/pandas/aggregations.py:371-398 with 557-595 `_build_corr_table_non_nan`, row `r`, column `c`: `sums`
    has one column -/
def corrEntryPlain (quotient : Rat → Rat → Rat → R) (nan : R) (minPeriods : Nat) (t : CorrTotals) (r c : Nat) : R :=
  let count := t.counts 0 0
  let sum := fun a => t.sums a 0
  let mean := fun a => sum a / count
  let var := fun a => t.pows a 0 - 2 * mean a * sum a + count * (mean a * mean a)
  if count < minPeriods then nan
  else if count = 0 then nan
  else quotient (t.mul r c - sum r * mean c - mean r * sum c + count * mean r * mean c) (var r) (var c)

/-- modin/core/storage_formats/pandas/aggregations.py:322-398 `reduce` -/
def corrReduce (le : κ → κ → Bool) (quotient : Rat → Rat → Rat → R) (nan : R) (minPeriods : Nat) (cols : List κ)
    (bands : List Band) : Frame κ κ R :=
  let t := corrTotals le cols bands
  { index := cols, columns := cols
    rows := (List.range cols.length).map fun r => (List.range cols.length).map fun c =>
      if t.sumCols > 1 then corrEntryNan quotient nan minPeriods t r c else corrEntryPlain quotient nan minPeriods t r c }

/-- modin/core/storage_formats/pandas/aggregations.py:53-100 `corr_method` with
    modin/core/dataframe/pandas/dataframe/dataframe.py:2518-2562 `combine_and_apply`: every row partition is joined and
    summarised, the summaries are joined, the table is computed and divided into as many row partitions as there were.
    (Dividing the summaries into blocks in between and joining them again is left out.) -/
def LFrame.corr [DecidableEq ι] [DecidableEq κ] (cfg : Cfg) (le : κ → κ → Bool) (quotient : Rat → Rat → Rat → R) (nan : R)
    (minPeriods : Nat) (m : LFrame ι κ (Option Rat)) : Option (LFrame κ κ R) :=
  m.synced.bind fun m1 =>
  (m1.parts.mapM fun row => Frame.hcat row).bind fun bands =>
  (bands.head?).bind fun b =>
  let res := corrReduce le quotient nan minPeriods b.columns (bands.map (·.rows))
  (splitResult true bands.length res cfg.minRow none).bind fun pieces =>
  (MFrame.mk' { parts := pieces.map ([·]), index := m.columns, columns := m.columns, rowLens := none,
                colWidths := m.columns.map fun c => [c.length] }).map fun r =>
  { r with defIndex := m.columns.isSome, defColumns := m.columns.isSome }

/-! ### covariance -/

/-- modin/core/storage_formats/pandas/query_compiler.py:2514-2517: `valid` and the two values there -/
def bothPresent : Option Rat × Option Rat → Option (Rat × Rat)
  | (some x, some y) => some (x, y)
  | _ => none

/-- modin/core/storage_formats/pandas/query_compiler.py:2512-2534, one entry: `vx` and `vy` are the values where both are
    present -/
def covEntry (minPeriods ddof : Nat) (xy : List (Option Rat × Option Rat)) : Option Rat :=
  let v := xy.filterMap bothPresent
  if v.length < minPeriods then none
  else
    let mx := (v.map (·.1)).sum / v.length
    let my := (v.map (·.2)).sum / v.length
    let vx := v.map fun p => p.1 - mx
    let vy := v.map fun p => p.2 - my
    let denom : Rat := v.length - ddof
    if denom ≠ 0 then some ((List.zipWith (· * ·) vx vy).sum / denom) else none

/-- modin/core/storage_formats/pandas/query_compiler.py:2499-2536 `map_func` on a row partition of the transposed frame; the
    result has labels 0, 1, ... -/
def covBand (num : Nat → κ) (minPeriods ddof : Nat) (other : Frame ι κ (Option Rat)) (b : Frame κ ι (Option Rat)) :
    Frame κ κ (Option Rat) :=
  { index := (List.range b.rows.length).map num
    columns := (List.range other.columns.length).map num
    rows := b.rows.map fun x => (List.range other.columns.length).map fun j =>
      covEntry minPeriods ddof (x.zip (other.rows.filterMap (·[j]?))) }

/-- modin/core/dataframe/pandas/dataframe/dataframe.py:3483-3676 `broadcast_apply_full_axis` with `axis=1`, `other=None`,
    `keep_partitioning=True`, `num_splits=None` and `sync_labels=True` (`apply_axis="both"`) -/
def LFrame.applyFullRowsSynced {ι' κ' α β : Type} [DecidableEq ι] [DecidableEq κ] (cfg : Cfg)
    (func : Frame ι κ α → Option (Frame ι' κ' β)) (newIndex : List ι') (newColumns : List κ') (m : LFrame ι κ α) :
    Option (LFrame ι' κ' β) :=
  m.synced.bind fun m1 =>
  (applyRowBands cfg (fun _ => func) m1.parts true none).bind fun g =>
  (MFrame.mk' { parts := g, index := some newIndex, columns := some newColumns,
                rowLens := if g.length = 1 then some [newIndex.length] else none,
                colWidths := fullAxisWidths cfg true m1.colWidths (some newColumns) g }).map fun r =>
  { r with defIndex := true, defColumns := true }

/-- modin/core/storage_formats/pandas/query_compiler.py:2456-2544 `cov`, `_nancorr` -/
def LFrame.nancorr [DecidableEq ι] [DecidableEq κ] (cfg : Cfg) (num : Nat → κ) (minPeriods : Option Nat) (ddof : Nat)
    (m : LFrame ι κ (Option Rat)) : Option (LFrame κ κ (Option Rat)) :=
  (m.toPandas none).bind fun other =>
  m.transpose.bind fun t =>
  t.applyFullRowsSynced cfg (fun b => some (covBand num (minPeriods.getD 1) ddof other b)) m.getColumns m.getColumns

/-- modin/pandas/dataframe.py:766-789 `cov`: the shortcut makes a new frame from an array of missing values, without labels
    (held in one block here). -/
def LFrame.cov [DecidableEq ι] [DecidableEq κ] (cfg : Cfg) (num : Nat → κ) (minPeriods : Option Nat) (ddof : Nat)
    (m : LFrame ι κ (Option Rat)) : Option (LFrame κ κ (Option Rat)) :=
  if minPeriods.any (fun p => decide (p > m.getIndex.length)) then
    let n := m.getColumns.length
    let f : Frame κ κ (Option Rat) :=
      ⟨(List.range n).map num, (List.range n).map num, (List.range n).map fun _ => (List.range n).map fun _ => none⟩
    some { parts := [[f]], index := some f.index, columns := some f.columns, rowLens := some [n], colWidths := some [n],
           defIndex := false, defColumns := false }
  else m.nancorr cfg num minPeriods ddof
