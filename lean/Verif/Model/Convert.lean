import Verif.Model.Labels
import Verif.Pandas.Convert
/-
`pd.to_numeric`, `pd.to_timedelta` and `pd.to_datetime` of a Series.  Each is registered as a function of single blocks.
-/

variable {ι κ α β φ : Type} [DecidableEq ι] [DecidableEq κ]

/-- modin/core/dataframe/pandas/dataframe/dataframe.py:2252-2320 `map` and
    modin/core/dataframe/algebra/map.py:57-70: as `LFrame.mapBlocks`, for a function that may raise.  (The exception is
    raised where the blocks are first looked at; here the call itself fails.) -/
def LFrame.mapBlocksM (cfg : Cfg) (dyn : Bool) (cpu : Nat) (f : Frame ι κ α → Option (Frame ι κ β)) (m : LFrame ι κ α) :
    Option (LFrame ι κ β) :=
  (mapPartitions cfg dyn cpu f m.parts).bind fun g =>
  (MFrame.mk' { parts := g, index := m.index, columns := m.columns, rowLens := m.rowLens, colWidths := m.colWidths }).map
    fun r => { r with defIndex := m.defIndex, defColumns := m.defColumns }

/-- modin/core/storage_formats/pandas/query_compiler.py:2113-2123 `to_numeric`, `to_timedelta`, called by
    modin/pandas/general.py:303-307 (modin/pandas/series.py:2576-2592) and 843-846: pandas' function on the column of each
    block.  `downcast`, `dtype_backend`, `unit` are part of `conv` (what they do to the dtype is not modelled). -/
def LFrame.convert (cfg : Cfg) (dyn : Bool) (cpu : Nat) (onBad : OnBad) (nan : α) (conv : α → Option α) (m : LFrame ι κ α) :
    Option (LFrame ι κ α) :=
  m.mapBlocksM cfg dyn cpu (Frame.convert onBad nan conv)

/-- modin/core/storage_formats/pandas/query_compiler.py:1161-1170 `to_datetime` of one column
    (modin/pandas/general.py:621-632, modin/pandas/series.py:2557-2574): pandas' function on the column of each block.
    Several columns (1171-1175: year, month, day are put together) are not modelled. -/
def LFrame.convertDates (cfg : Cfg) (dyn : Bool) (cpu : Nat) (onBad : OnBad) (nat : α) (isna : α → Bool) (guess : α → Option φ)
    (parse : Option φ → α → Option α) (fmt : Option φ) (m : LFrame ι κ α) : Option (LFrame ι κ α) :=
  m.mapBlocksM cfg dyn cpu (Frame.convertDates onBad nat isna guess parse fmt)
