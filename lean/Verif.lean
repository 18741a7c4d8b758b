import Verif.Props.Partitioning
import Verif.Props.MapPlans
import Verif.Props.CallQueue
import Verif.Props.Select
import Verif.Props.Assign
import Verif.Props.Concat
import Verif.Props.Reduce
import Verif.Props.GroupBy
import Verif.Props.Shuffle
import Verif.Props.Merge
import Verif.Props.Labels
import Verif.Props.Text
import Verif.Props.Config
import Verif.Props.Deferred
import Verif.Props.Readers
import Verif.Props.Dispatch
import Verif.Props.Dtypes
import Verif.Props.Relabel
import Verif.Props.Insert
import Verif.Props.Dropna
import Verif.Props.Duplicated
import Verif.Props.Corr
import Verif.Props.Mask
import Verif.Props.DropDuplicates
import Verif.Props.ToCsv
import Verif.Props.SeriesOp
import Verif.Props.LocAssign
import Verif.Props.Reindex
import Verif.Props.SortIndex
import Verif.Props.Fold
import Verif.Props.Fillna
import Verif.Props.Where
import Verif.Props.Ranks
import Verif.Props.SetMask
import Verif.Props.Query
import Verif.Props.Partitions
import Verif.Props.XGBoost
import Verif.Props.GroupAgg
import Verif.Props.CaseWhen
import Verif.Props.Interchange
import Verif.Props.ForeignCol
import Verif.Props.Batch
import Verif.Props.Melt
import Verif.Props.LocGet
import Verif.Props.LabelIds
import Verif.Props.NumpyOps
import Verif.Props.NumpyReduce
import Verif.Props.Dot
import Verif.Props.Share
import Verif.Props.Dummies
import Verif.Props.Describe
import Verif.Props.Unstack
import Verif.Props.Resample
import Verif.Props.Portion
import Verif.Props.Equals
import Verif.Props.Sheet
import Verif.Props.GroupApply
import Verif.Props.PivotTable
import Verif.Props.ValueCounts
import Verif.Props.Combine
import Verif.Props.GroupIter
import Verif.Props.GroupDict
import Verif.Props.SortColumns
import Verif.Props.Convert
import Verif.Props.Astype
import Verif.Props.Replace
import Verif.Props.Pieces
import Verif.Props.MergeAsof
import Verif.Props.Polars
import Verif.Props.NumpyIndex
import Verif.Props.NumpySetitem
import Verif.Props.Rename
import Verif.Props.CrossSection
import Verif.Props.Squeeze
import Verif.Props.SeriesGet
import Verif.Props.SeriesName
import Verif.Props.SeriesSet
