import Verif.Lemmas.SortColumns
import Verif.Props.Reindex
import Verif.Lemmas.Query

variable {L ι κ α Q : Type}

/-- **C93.** What `df.sort_values(by, axis=1)` is, for a stable algorithm: the columns of `df`, each once with all its cells and its label,
    in an order in which the cells of the rows named ascend or descend as asked, the first row deciding and ties going to the next one;
    missing values come last or first. -/
theorem C93_meaning [DecidableEq ι] {le : Q → Q → Bool} (hle : TotalLe le) (key : α → Option Q) (naLast : Bool) (asc : List Bool)
    (df : Frame ι κ α) (h : df.WF) (rows : List ι) (hne : rows ≠ []) (df' : Frame ι κ α)
    (e : df.sortColumnsBy (lineOrder le key naLast asc) none rows = some df') :
    ∃ P keys, P.Perm (List.range df.ncols) ∧ df' = df.takeCols P ∧ (rows.mapM fun x => df'.rowNamed x) = some keys ∧
      (lineColumns keys).Pairwise fun a b => rowBefore le key naLast ((List.range rows.length).zip asc) a b = true := by
  unfold Frame.sortColumnsBy at e
  rw [if_neg hne] at e
  obtain ⟨keys, hk, e⟩ := Option.map_eq_some_iff.1 e
  simp only at e
  have hlen : keys.length = rows.length := mapM_length hk
  have hkne : keys ≠ [] := by
    intro h0
    rw [h0] at hlen
    exact hne (List.length_eq_zero_iff.1 hlen.symm)
  have hw : ∀ k ∈ keys, k.length = df.ncols := by
    intro k hk'
    obtain ⟨x, _, hx⟩ := mapM_mem2 hk hk'
    unfold Frame.rowNamed at hx
    split at hx
    · rename_i r hr
      cases hx
      have : r ∈ df.records := (List.mem_filter.1 (by rw [hr]; simp : r ∈ df.records.filter _)).1
      exact h.row_width _ (List.of_mem_zip this).2
    · cases hx
  have hperm : (lineOrder le key naLast asc keys).Perm (List.range df.ncols) := by
    have := stableOrder_perm (rowBefore le key naLast ((List.range keys.length).zip asc)) (lineColumns keys)
    rw [lineColumns_length hkne hw] at this
    exact this
  have hP : ∀ p ∈ lineOrder le key naLast asc keys, p < df.ncols := fun p hp => by
    have := hperm.mem_iff.1 hp
    simpa using this
  refine ⟨lineOrder le key naLast asc keys, keys.map (takeList · (lineOrder le key naLast asc keys)), hperm, e.symm, ?_, ?_⟩
  · rw [← e]
    exact mapM_map_of_some hk fun x => rowNamed_takeCols df _ x
  · rw [lineColumns_take hkne hw hP, ← hlen]
    unfold lineOrder
    rw [takeList_stableOrder]
    exact sortBy_pairwise (rowBefore_trans hle key naLast _) (rowBefore_total hle key naLast _) _

/-- **C93.** `df.sort_values(by, axis=1)` is pandas' result whatever the partitioning, and for every way `order` pandas may have of
    ordering the columns by the cells of the rows named (stable or not, with any `ascending`, `na_position`, `key`).
    Partial: `by` must name at least one row and none twice (`SortColumnsDemo.C93_no_row_raises`, `SortColumnsDemo.C93_row_twice_raises`), every label named must be
    the integer position of its row (`SortColumnsDemo.C93_label_taken_as_position`), the column labels must be distinct
    (`SortColumnsDemo.C93_repeated_columns`) and `ignore_index` must be false (`SortColumnsDemo.C93_ignore_index`). -/
theorem C93_sort_columns_partial [DecidableEq L] (cfg : Cfg) (hp : 1 ≤ cfg.nPartitions) (hmr : 1 ≤ cfg.minRow) (hmc : 1 ≤ cfg.minCol)
    (known : Nat → Nat → Bool × Bool) (nan : α) (asPos : L → Option Nat) (order : List (List α) → List Nat)
    (m : LFrame L L α) (df : Frame L L α) (h : m.Shows df) (hcol : df.columns.Nodup) (rows : List L) (hne : rows ≠ []) (hnd : rows.Nodup)
    (hrows : ∀ x ∈ rows, df.index.count x = 1 ∧ ∃ p, asPos x = some p ∧ df.index[p]? = some x)
    (horder : ∀ keys, keys.length = rows.length → (∀ k ∈ keys, k.length = df.ncols) → (order keys).Perm (List.range df.ncols)) :
    ∃ df' m', df.sortColumnsBy order none rows = some df' ∧ m.sortColsByRows cfg known nan asPos order none rows = some m' ∧
      m'.Shows df' ∧ m'.toPandas nan = some df' := by
  obtain ⟨df', m', e1, e2, e3⟩ := sortColsByRows_spec cfg hp hmr hmc known nan h hcol hne hnd hrows fun keys h1 h2 p hp' => by
    have := (horder keys h1 h2).mem_iff.1 hp'
    simpa using this
  exact ⟨df', m', e1, e2, e3, (e3.observed nan).1⟩

/-! ### demonstrations -/

namespace SortColumnsDemo
open LocAssignDemo

/-- integers from zero on are positions -/
def asPos (x : Int) : Option Nat := if 0 ≤ x then some x.toNat else none

/-- ascending or descending by every row, missing values (`-9`) last -/
def order (asc : List Bool) : List (List Int) → List Nat :=
  lineOrder (fun a b : Int => decide (a ≤ b)) (fun v => if v = -9 then none else some v) true asc

/-- a frame with the default index -/
def sdf : Frame Int Int Int :=
  { index := [0, 1, 2], columns := [7, 8, 9, 6], rows := [[4, 1, 4, -9], [5, 5, 3, 2], [10, 20, 30, 40]] }

/-- a partitioned frame with these blocks -/
def cutOf (f : Frame Int Int Int) (rl cw : List Nat) : LFrame Int Int Int :=
  LFrame.mk (MFrame.mk (f.cut rl cw) (some f.index) (some f.columns) none none) false false

theorem cutOf_shows : (cutOf sdf [2, 1] [1, 3]).Shows sdf :=
  represents_shows (MFrame.Represents.mk ⟨by decide, by decide⟩
    ⟨[2, 1], [1, 3], ⟨by decide, by decide, by decide, by decide⟩, rfl, Or.inl rfl, Or.inl rfl⟩
    (Or.inr rfl) (Or.inr rfl))

-- `df.sort_values(by=[0, 1], axis=1, ascending=[True, False])`
example : ∃ m', (cutOf sdf [2, 1] [1, 3]).sortColsByRows cfg no (-9) asPos (order [true, false]) none [0, 1] = some m' ∧
    m'.toPandas (-9) = some { index := [0, 1, 2], columns := [8, 7, 9, 6], rows := [[1, 4, 4, -9], [5, 5, 3, 2], [20, 10, 30, 40]] } := by
  obtain ⟨df', m', e1, e2, _, e3⟩ := C93_sort_columns_partial cfg (by decide) (by decide) (by decide) no (-9) asPos (order [true, false])
    (cutOf sdf [2, 1] [1, 3]) sdf cutOf_shows (by decide) [0, 1] (by decide) (by decide)
    (by
      intro x hx
      simp only [List.mem_cons, List.not_mem_nil, or_false] at hx
      rcases hx with rfl | rfl
      · exact ⟨by decide, 0, by decide, by decide⟩
      · exact ⟨by decide, 1, by decide, by decide⟩)
    (by
      intro keys h1 h2
      have := stableOrder_perm (rowBefore (fun a b : Int => decide (a ≤ b)) (fun v => if v = -9 then none else some v) true
        ((List.range keys.length).zip [true, false])) (lineColumns keys)
      rw [lineColumns_length (by intro h0; rw [h0] at h1; cases h1) h2] at this
      exact this)
  refine ⟨m', e2, ?_⟩
  rw [e3, ← e1]
  decide +kernel

-- what `C93_meaning` says of it
example : ∃ P keys, P.Perm (List.range 4) ∧ (sdf.sortColumnsBy (order [true, false]) none [0, 1]) = some (sdf.takeCols P) ∧
    ([0, 1].mapM fun x => (sdf.takeCols P).rowNamed x) = some keys ∧
    (lineColumns keys).Pairwise fun a b => rowBefore (fun a b : Int => decide (a ≤ b)) (fun v => if v = -9 then none else some v) true
      ((List.range 2).zip [true, false]) a b = true := by
  have hle : TotalLe (fun a b : Int => decide (a ≤ b)) :=
    ⟨by intro a b c; simp only [decide_eq_true_eq]; omega, by intro a b; simp only [decide_eq_true_eq]; omega⟩
  cases e : sdf.sortColumnsBy (order [true, false]) none [0, 1] with
  | none => exact absurd e (by decide +kernel)
  | some df' =>
    obtain ⟨P, keys, h1, h2, h3, h4⟩ := C93_meaning hle (fun v : Int => if v = -9 then none else some v) true [true, false] sdf
      ⟨by decide, by decide⟩ [0, 1] (by decide) df' e
    exact ⟨P, keys, h1, by rw [h2], by rw [← h2]; exact h3, h4⟩

/-- the frame after `m.sort_values(by=rows, axis=1)`, all ascending -/
def srt (f : Frame Int Int Int) (numbers : Option (Nat → Int)) (rows : List Int) : Option (Frame Int Int Int) :=
  ((cutOf f [1, 1] [1, 1]).sortColsByRows cfg no (-9) asPos (order [true, true]) numbers rows).bind (·.toPandas (-9))

/-- **C93, violated.** With the index `[1, 0]`, `df.sort_values(by=0, axis=1)` raises: the label `0` is used as a position, where the row
    called `1` stands. -/
theorem C93_label_taken_as_position :
    srt { index := [1, 0], columns := [7, 8], rows := [[1, 2], [4, 3]] } none [0] = none ∧
    Frame.sortColumnsBy (order [true]) none [0] { index := [1, 0], columns := [7, 8], rows := [[1, 2], [4, 3]] }
      = some { index := [1, 0], columns := [8, 7], rows := [[2, 1], [3, 4]] } := by decide +kernel

/-- **C93, violated.** With two columns of the same name nothing is sorted and nothing raised. -/
theorem C93_repeated_columns :
    srt { index := [0, 1], columns := [7, 7], rows := [[2, 1], [4, 3]] } none [0]
      = some { index := [0, 1], columns := [7, 7], rows := [[2, 1], [4, 3]] } ∧
    Frame.sortColumnsBy (order [true]) none [0] { index := [0, 1], columns := [7, 7], rows := [[2, 1], [4, 3]] }
      = some { index := [0, 1], columns := [7, 7], rows := [[1, 2], [3, 4]] } := by decide +kernel

/-- **C93, violated.** `df.sort_values(by=0, axis=1, ignore_index=True)` loses all cells: the frame is reindexed by the new numbers. -/
theorem C93_ignore_index :
    srt { index := [0, 1], columns := [7, 8], rows := [[2, 1], [4, 3]] } (some fun i => i) [0]
      = some { index := [0, 1], columns := [0, 1], rows := [[-9, -9], [-9, -9]] } ∧
    Frame.sortColumnsBy (order [true]) (some fun i => (i : Int)) [0] { index := [0, 1], columns := [7, 8], rows := [[2, 1], [4, 3]] }
      = some { index := [0, 1], columns := [0, 1], rows := [[1, 2], [3, 4]] } := by decide +kernel

/-- **C93, violated.** `df.sort_values(by=[0, 0], axis=1)` raises: row `0` is fetched twice and is then no longer unique. -/
theorem C93_row_twice_raises :
    srt { index := [0, 1], columns := [7, 8], rows := [[2, 1], [4, 3]] } none [0, 0] = none ∧
    Frame.sortColumnsBy (order [true, true]) none [0, 0] { index := [0, 1], columns := [7, 8], rows := [[2, 1], [4, 3]] }
      = some { index := [0, 1], columns := [8, 7], rows := [[1, 2], [3, 4]] } := by decide +kernel

/-- **C93, violated.** `df.sort_values(by=[], axis=1)` raises where pandas returns the frame. -/
theorem C93_no_row_raises :
    srt { index := [0, 1], columns := [7, 8], rows := [[2, 1], [4, 3]] } none [] = none ∧
    Frame.sortColumnsBy (order []) none [] { index := [0, 1], columns := [7, 8], rows := [[2, 1], [4, 3]] }
      = some { index := [0, 1], columns := [7, 8], rows := [[2, 1], [4, 3]] } := by decide +kernel

end SortColumnsDemo
