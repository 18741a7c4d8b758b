import Verif.Pandas.GroupAgg
import Verif.Pandas.Sort
import Verif.Pandas.SortValues
/-
pandas' `resample` with a fixed step (pandas/core/resample.py: `TimeGrouper._get_time_bins`, `_get_timestamp_range_edges`,
`_adjust_dates_anchored`).  Times are whole numbers of nanoseconds.
-/

variable {κ α β : Type}

/-- the arguments of `resample`: the step (a fixed number of nanoseconds), the `origin` and `offset` (the time of an edge, which may
    depend on the first and the last time: `"start"`, `"start_day"`, `"end"`), `closed="right"`, `label="right"` -/
structure ResampleRule where
  step : Int
  origin : Int → Int → Int
  closedRight : Bool
  labelRight : Bool

/-- the left edge of bin number `b` -/
def ResampleRule.edge (R : ResampleRule) (o b : Int) : Int := o + R.step * b

/-- the number of the bin a time is in: between the edges `edge b ≤ t < edge (b + 1)`, or `edge b < t ≤ edge (b + 1)` if the bins
    are closed on the right -/
def ResampleRule.bin (R : ResampleRule) (o t : Int) : Int := if R.closedRight then (t - o - 1) / R.step else (t - o) / R.step

/-- the label of a bin: its left or right edge -/
def ResampleRule.label (R : ResampleRule) (o b : Int) : Int := R.edge o (if R.labelRight then b + 1 else b)

/-- the whole numbers from `lo` to `hi` -/
def intsFrom (lo hi : Int) : List Int := (List.range (hi + 1 - lo).toNat).map fun (i : Nat) => lo + (i : Int)

/-- the cells with times in bin `b`, in order of time -/
def ResampleRule.cells (R : ResampleRule) (o b : Int) (cells : List (Int × α)) : List α :=
  ((sortBy (fun x y => decide (x.1 ≤ y.1)) cells).filter fun c => decide (R.bin o c.1 = b)).map (·.2)

/-- a row for each of the given bins, `agg` of the cells of the bin in each column -/
def Frame.resampleBins (R : ResampleRule) (agg : List α → β) (o : Int) (bins : List Int) (df : Frame Int κ α) : Frame Int κ β :=
  Frame.ofCols (bins.map (R.label o)) (df.named.map fun e => (e.1, bins.map fun b => agg (R.cells o b (df.index.zip e.2))))

/-- the origin and the bins from that of the first time to that of the last -/
def ResampleRule.bins (R : ResampleRule) (times : List Int) : Int × List Int :=
  match times.min?, times.max? with
  | some a, some z => (R.origin a z, intsFrom (R.bin (R.origin a z) a) (R.bin (R.origin a z) z))
  | _, _ => (0, [])

/-- `df.resample(rule).agg(...)`: a row for every bin from the first time to the last, whether it holds a row or not -/
def Frame.resample (R : ResampleRule) (agg : List α → β) (df : Frame Int κ α) : Frame Int κ β :=
  df.resampleBins R agg (R.bins df.index).1 (R.bins df.index).2

/-- `df.resample(rule, on=k)`: the times are the cells of the column `k`; `none`: there is no such column, or several -/
def Frame.resampleOn {ι : Type} [DecidableEq κ] (R : ResampleRule) (agg : List α → β) (time : α → Int) (k : κ) (df : Frame ι κ α) :
    Option (Frame Int κ β) :=
  (keyColumn k df.named).map fun c =>
    (Frame.ofCols (c.map time) (df.named.filter fun e => decide (e.1 ≠ k))).resample R agg

/-- `df.resample(rule).size()`: the number of rows of every bin -/
def Frame.resampleSize (R : ResampleRule) (label : κ) (df : Frame Int κ α) : Frame Int κ Nat :=
  { index := (R.bins df.index).2.map (R.label (R.bins df.index).1), columns := [label],
    rows := (R.bins df.index).2.map fun b => [(df.index.filter fun t => decide (R.bin (R.bins df.index).1 t = b)).length] }
