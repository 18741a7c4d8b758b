import Verif.Model.RangeOps
import Verif.Lemmas.KeyParts
import Verif.Lemmas.Reduce
/-
Properties C18 (distributed sort) and C19 (range partitioning).
In all of them `m` stands for the pandas frame `df`, divided into blocks in any way.  `draw` (one per key column) is the
outcome of the random sampling: a list of pivots for every number of ranges wanted, of which only
`GoodDraws` is known: they are strictly increasing (NaN counts as largest) and there is at least one.  `over` says
whether the sampling probability came out as 1 or more.
-/

variable {ι κ α β Q K : Type}

/-! ### C18 -/

/-- **C18 (what the specification says).** `sortValues` keeps every row exactly once, orders the rows by
    the columns sorted by, and rows that tie in all of them keep their original order. -/
theorem C18_sorted_meaning {le : Q → Q → Bool} (hle : TotalLe le) (key : α → Option Q) (naLast : Bool)
    (by_ : List (Nat × Bool)) (df : Frame ι κ α) :
    (df.sortValues le key naLast by_).columns = df.columns ∧
    (df.sortValues le key naLast by_).records.Perm df.records ∧
    (df.sortValues le key naLast by_).records.Pairwise (fun r s => rowBefore le key naLast by_ r s = true) ∧
    ∀ t, (df.sortValues le key naLast by_).records.filter
        (fun r => rowBefore le key naLast by_ r t && rowBefore le key naLast by_ t r) =
      df.records.filter (fun r => rowBefore le key naLast by_ r t && rowBefore le key naLast by_ t r) := by
  unfold Frame.sortValues
  rw [Frame.records_ofRecords]
  refine ⟨rfl, sortBy_perm _ _, sortBy_pairwise (rowBefore_trans hle key naLast by_) (rowBefore_total hle key naLast by_) _, ?_⟩
  intro t
  apply sortBy_filter
  intro x _ y _ hx hy
  rw [Bool.and_eq_true] at hx hy
  exact rowBefore_trans hle key naLast by_ x t y hx.1 hy.2

/-- **C18.** `sort_values` by any columns and directions, missing values last or first, is pandas' stable sort
    of the whole frame, whatever pivots the sampling led to.
    Partial: `NPartitions` must be at least 2, and the user's `key` function must neither make values missing nor fill
    missing ones (both restrictions are needed, see `C18_no_pivots_wrong` and `C18_key_fills_wrong`). -/
theorem C18_sort_values_partial [DecidableEq ι] [DecidableEq κ] (cfg : Cfg) (hp : 2 ≤ cfg.nPartitions) (hmr : 1 ≤ cfg.minRow)
    (hmc : 1 ≤ cfg.minCol) (over : Bool) {le : Q → Q → Bool} (hle : TotalLe le) {isna : α → Bool} {key : α → Option Q}
    (hkey : ∀ a, isna a = (key a).isNone) (numeric naLast : Bool) {draw : Nat → List (Option Q)}
    (hdraw : ∀ n, 2 ≤ n → draw n ≠ [] ∧ Increasing le (draw n)) {m : MFrame ι κ α} {df : Frame ι κ α} (hm : m.Represents df)
    (pos : Nat) (asc : Bool) (rest : List (Nat × Bool)) (hpos : pos < df.ncols) :
    ∃ m', sortByValues cfg over le isna key numeric naLast draw ((pos, asc) :: rest) m = some m' ∧
      m'.Represents (df.sortValues le key naLast ((pos, asc) :: rest)) := by
  have hwf := hm.wf
  unfold sortByValues
  simp only [hm.getColumns, hm.getIndex]
  by_cases h0 : df.index.length = 0
  · refine ⟨m, by simp [h0], ?_⟩
    have : df.sortValues le key naLast ((pos, asc) :: rest) = df := by
      unfold Frame.sortValues
      have hr : df.records = [] := by
        rw [← List.length_eq_zero_iff, hwf.records_length]; exact h0
      rw [hr]
      have := hwf.ofRecords_records
      rw [hr] at this
      exact this
    rw [this]; exact hm
  · have hcol : ¬ (df.columns.length = 0 ∨ df.index.length = 0) := by
      rintro (h | h)
      · exact absurd hpos (by simp [Frame.ncols, h])
      · exact h0 h
    rw [if_neg hcol]
    generalize hrq : (RangeReq.mk le asc naLast false [(KeyCol.mk pos isna key numeric [], draw)] : RangeReq α Q) = rq
    have hd : GoodDraws rq := by
      subst hrq
      refine ⟨by simp, ?_⟩
      intro x hx
      simp only [List.mem_singleton] at hx
      subst hx
      exact hdraw
    obtain ⟨bins, hb, hF⟩ := applyRange_spec (β := α) (ι' := ι) cfg hp hmr hmc over rq (by subst hrq; exact hle) hd hm (some id) df.columns
      (by rintro f ⟨⟩; simp)
    have hgood := hF (fun b => b.sortValues le key naLast ((pos, asc) :: rest)) (by
        intro b hbw hbc
        refine ⟨?_, hbc⟩
        unfold Frame.sortValues
        apply Frame.WF.ofRecords
        intro r hr
        exact hbw.records_width (mem_sortBy.1 hr))
    rcases hgood with ⟨h1, _⟩ | ⟨m', h1, h2⟩
    · subst hrq; simp at h1
    · refine ⟨m', h1, ?_⟩
      have hst : stackOf df.columns (fun b => b.sortValues le key naLast ((pos, asc) :: rest)) bins =
          df.sortValues le key naLast ((pos, asc) :: rest) := by
        rcases hb with rfl | ⟨ideal, rl, cw, hi, hc, rfl⟩
        · exact stackOf_single _ _ _ rfl
        · subst hrq
          obtain ⟨hne, hinc⟩ := hdraw ideal hi
          have hpf : pivotFn ideal [(KeyCol.mk pos isna key numeric [], draw)] 1 true = [sortCol pos isna key numeric (draw ideal)] := by
            simp [pivotFn, pickPivots, sortCol, show ¬ ideal ≤ 1 by omega]
          simp only [hpf]
          have := sort_bins hle asc naLast hkey numeric hinc hne hwf hc hpos rest
          rw [← (sortCol_bins (isna := isna) (key := key) (pos := pos) numeric hne).1] at this
          unfold stackOf Frame.sortValues
          rw [← this]
          simp only [List.map_map, Function.comp_def, Frame.ofRecords, Frame.mk.injEq, true_and, List.map_flatten]
          have hrec : ∀ l : List (ι × List α), (Frame.mk (l.map (·.1)) df.columns (l.map (·.2))).records = l :=
            fun l => Frame.records_ofRecords df.columns l
          simp only [hrec, and_self]
      rw [hst] at h2
      exact h2

/-! ### C19 -/

theorem keyCells_sameRange (cols : List (KeyCol α Q × (Nat → List (Option Q)))) (r s : ι × List α)
    (h : keyCells cols r = keyCells cols s) : SameRange (cols.map (·.1)) r s := by
  intro c hc
  simp only [List.mem_map] at hc
  obtain ⟨x, hx, rfl⟩ := hc
  have := List.map_inj_left.1 h x hx
  unfold KeyCol.missing sortKey
  rw [this]
  exact ⟨rfl, rfl⟩

/-- **C19.** Range partitioning by any key columns hands the function frames that hold every row exactly once,
    all rows with the same key in one of them and in their original order; the results are put one under
    another.  `c`: the columns of the function's results.
    Partial: with two or more key columns the call may raise instead (`C19_single_row_crash`); `NPartitions` must
    be at least 2. -/
theorem C19_parts_partial {ι' κ' : Type} [DecidableEq ι] [DecidableEq κ] [DecidableEq ι'] [DecidableEq κ'] [DecidableEq α] (cfg : Cfg)
    (hp : 2 ≤ cfg.nPartitions) (hmr : 1 ≤ cfg.minRow) (hmc : 1 ≤ cfg.minCol) (over : Bool) (rq : RangeReq α Q)
    (hle : TotalLe rq.le) (hd : GoodDraws rq) {m : MFrame ι κ α} {df : Frame ι κ α} (hm : m.Represents df) (c : List κ') :
    ∃ bins : List (Frame ι κ α), KeyParts (keyCells rq.cols) df bins ∧
      ∀ F : Frame ι κ α → Frame ι' κ' β, (∀ b, b.WF → b.columns = df.columns → (F b).WF ∧ (F b).columns = c) →
      (1 < rq.cols.length ∧ applyRangePartitioning cfg over rq (fun b => some (F b)) none m = none) ∨
      ∃ m', applyRangePartitioning cfg over rq (fun b => some (F b)) none m = some m' ∧
        m'.Represents ⟨(bins.map fun b => (F b).index).flatten, c, (bins.map fun b => (F b).rows).flatten⟩ := by
  obtain ⟨bins, hb, hF⟩ := applyRange_spec (β := β) (ι' := ι') (κ' := κ') cfg hp hmr hmc over rq hle hd hm none c (by simp)
  exact ⟨bins, isBins_keyParts hle hd hm.wf hb _ fun r s _ _ h => keyCells_sameRange _ r s h, hF⟩

/-- **C19 (ordered ranges).** With one key column the frames handed to the function follow each other in the order of
    the key: every row of an earlier one comes strictly before every row of a later one. -/
theorem C19_ordered_partial {ι' κ' : Type} [DecidableEq ι] [DecidableEq κ] [DecidableEq ι'] [DecidableEq κ'] [DecidableEq α] (cfg : Cfg)
    (hp : 2 ≤ cfg.nPartitions) (hmr : 1 ≤ cfg.minRow) (hmc : 1 ≤ cfg.minCol) (over : Bool) (rq : RangeReq α Q)
    (hle : TotalLe rq.le) (hd : GoodDraws rq) (hcr : rq.closedRight = false)
    {col : KeyCol α Q} {d : Nat → List (Option Q)} (hone : rq.cols = [(col, d)]) (hkey : ∀ a, col.isna a = (col.conv a).isNone)
    {m : MFrame ι κ α} {df : Frame ι κ α} (hm : m.Represents df) (hpos : col.pos < df.ncols) (c : List κ') :
    ∃ bins : List (Frame ι κ α), KeyParts (keyCells rq.cols) df bins ∧
      (∀ (i j : Nat) (b b' : Frame ι κ α) (r s : ι × List α), i < j → bins[i]? = some b → bins[j]? = some b' → r ∈ b.records → s ∈ b'.records →
        keyBefore rq.le rq.asc rq.naLast (sortKey col.conv col.pos r) (sortKey col.conv col.pos s) = true ∧
        keyBefore rq.le rq.asc rq.naLast (sortKey col.conv col.pos s) (sortKey col.conv col.pos r) = false) ∧
      ∀ F : Frame ι κ α → Frame ι' κ' β, (∀ b, b.WF → b.columns = df.columns → (F b).WF ∧ (F b).columns = c) →
      ∃ m', applyRangePartitioning cfg over rq (fun b => some (F b)) none m = some m' ∧
        m'.Represents ⟨(bins.map fun b => (F b).index).flatten, c, (bins.map fun b => (F b).rows).flatten⟩ := by
  obtain ⟨bins, hb, hF⟩ := applyRange_spec (β := β) (ι' := ι') (κ' := κ') cfg hp hmr hmc over rq hle hd hm none c (by simp)
  refine ⟨bins, isBins_keyParts hle hd hm.wf hb _ fun r s _ _ h => keyCells_sameRange _ r s h, ?_, ?_⟩
  · intro i j b b' r s hij hbi hbj hr hs
    obtain ⟨h1, h2⟩ := isBins_ordered hle hd hcr hone hkey hm.wf hpos hb hbi hbj hij hr hs
    simp only [rowBefore] at h1 h2
    generalize keyBefore rq.le rq.asc rq.naLast (sortKey col.conv col.pos r) (sortKey col.conv col.pos s) = x at h1 h2 ⊢
    generalize keyBefore rq.le rq.asc rq.naLast (sortKey col.conv col.pos s) (sortKey col.conv col.pos r) = y at h1 h2 ⊢
    cases x <;> cases y <;> simp_all
  · intro F h
    rcases hF F h with ⟨h1, _⟩ | h
    · rw [hone] at h1; simp at h1
    · exact h

theorem KeyParts.records_perm {ι' κ' : Type} [DecidableEq K] {key : ι × List α → K} {df : Frame ι κ α} {bins : List (Frame ι κ α)}
    (h : KeyParts key df bins) {key' : ι' × List β → K} {F : List (ι × List α) → List (ι' × List β)} (hF : KeyLocal key key' F)
    (c : List κ') : (stackOf c (fun b => Frame.ofRecords c (F b.records)) bins).records.Perm (F df.records) := by
  have : stackOf c (fun b => Frame.ofRecords c (F b.records)) bins =
      Frame.ofRecords c ((bins.map fun b => F b.records).flatten) := by
    simp only [stackOf, Frame.ofRecords, Frame.mk.injEq, true_and, List.map_flatten, List.map_map]
    exact ⟨rfl, rfl⟩
  rw [this, Frame.records_ofRecords]
  exact h.perm hF

theorem mem_dropDuplicates {τ : Type} [DecidableEq K] (keep : Keep) (key : τ → K) {l : List τ} {x : τ}
    (h : x ∈ dropDuplicates keep key l) : x ∈ l := by
  induction l with
  | nil => simp [dropDuplicates] at h
  | cons y ys ih =>
    unfold dropDuplicates at h
    cases keep <;> simp only at h
    · simp only [List.mem_cons, List.mem_filter] at h ⊢
      rcases h with h | h
      · exact Or.inl h
      · exact Or.inr (ih h.1)
    · split at h
      · exact List.mem_cons_of_mem _ (ih h)
      · simp only [List.mem_cons] at h ⊢
        exact h.imp_right ih
    · split at h
      · exact List.mem_cons_of_mem _ (ih (List.mem_filter.1 h).1)
      · simp only [List.mem_cons] at h ⊢
        exact h.imp_right ih

section C19ops
variable [DecidableEq ι] [DecidableEq κ] (cfg : Cfg) (hp : 2 ≤ cfg.nPartitions) (hmr : 1 ≤ cfg.minRow)
  (hmc : 1 ≤ cfg.minCol) (over : Bool) {le : Q → Q → Bool} (hle : TotalLe le)
  {cols : List (KeyCol α Q × (Nat → List (Option Q)))} (hd : GoodDraws (rangeReq le cols))
  {m : MFrame ι κ α} {df : Frame ι κ α} (hm : m.Represents df)
include hp hmr hmc hle hd hm

/-- **C19 (`drop_duplicates`).** The rows kept are exactly those pandas keeps (as a multiset: their order is that of
    the ranges). -/
theorem C19_drop_duplicates_partial [DecidableEq α] (keep : Keep) :
    (1 < cols.length ∧ dropDuplicatesRange cfg over le cols keep m = none) ∨
    ∃ m' R, dropDuplicatesRange cfg over le cols keep m = some m' ∧ m'.Represents R ∧ R.columns = df.columns ∧
      R.records.Perm (dropDuplicates keep (keyCells cols) df.records) := by
  obtain ⟨bins, hb, hF⟩ := applyRange_spec (β := α) (ι' := ι) cfg hp hmr hmc over (rangeReq le cols) hle hd hm (some id) df.columns
    (by rintro f ⟨⟩; simp)
  have hk := isBins_keyParts hle hd hm.wf hb (keyCells cols) fun r s _ _ h => keyCells_sameRange _ r s h
  have hgood := hF (fun b => Frame.ofRecords b.columns (dropDuplicates keep (keyCells cols) b.records)) (by
      intro b hbw hbc
      refine ⟨Frame.WF.ofRecords ?_, hbc⟩
      intro r hr
      exact hbw.records_width (mem_dropDuplicates keep _ hr))
  rcases hgood with ⟨h1, h2⟩ | ⟨m', h1, h2⟩
  · left; exact ⟨h1, h2⟩
  · right
    refine ⟨m', _, h1, h2, rfl, ?_⟩
    have := hk.records_perm (dropDuplicates_local keep (keyCells cols)) df.columns
    refine List.Perm.trans (List.Perm.of_eq ?_) this
    congr 1

/-- **C19 (groups, any number of key columns).** One row per group of the whole frame, each computed from all rows of
    the group in their original order (as a multiset: see `C19_two_keys_unsorted` for the order). -/
theorem C19_groupby_partial [DecidableEq K] (G : Grouping K) (key : ι × List α → K)
    (hkey : ∀ r s, r ∈ df.records → s ∈ df.records → key r = key s → SameRange (cols.map (·.1)) r s)
    (agg : K → List (ι × List α) → List β) (resCols : List κ) (hagg : ∀ k l, (agg k l).length = resCols.length) :
    (1 < cols.length ∧ groupbyRange cfg over le cols G key agg resCols m = none) ∨
    ∃ m' R, groupbyRange cfg over le cols G key agg resCols m = some m' ∧ m'.Represents R ∧ R.columns = resCols ∧
      R.records.Perm (groupRecords G key agg df.records) := by
  obtain ⟨bins, hb, hF⟩ := applyRange_spec (β := β) (ι' := K) cfg hp hmr hmc over (rangeReq le cols) hle hd hm none resCols
    (by simp)
  have hk := isBins_keyParts hle hd hm.wf hb key hkey
  have hgood := hF (fun b => Frame.ofRecords resCols (groupRecords G key agg b.records)) (by
      intro b _ _
      refine ⟨Frame.WF.ofRecords ?_, rfl⟩
      intro r hr
      simp only [groupRecords, List.mem_map] at hr
      obtain ⟨k, _, rfl⟩ := hr
      exact hagg _ _)
  rcases hgood with ⟨h1, h2⟩ | ⟨m', h1, h2⟩
  · left; exact ⟨h1, h2⟩
  · right
    exact ⟨m', _, h1, h2, rfl, hk.records_perm (groupRecords_local G key agg) resCols⟩

end C19ops

/-- groups by the value a single key column is compared by, sorted, missing values last -/
def valueGrouping (le : Q → Q → Bool) (dropna : Bool) : Grouping (Option Q) :=
  { le := keyBefore le true true, sort := true, dropped := fun k => dropna && k.isNone }

/-- **C19 (groups, one key column, sorted).** With `sort=True` and one key column the result is pandas' result, groups
    in order. -/
theorem C19_groupby_sorted_partial [DecidableEq ι] [DecidableEq κ] [DecidableEq Q] (cfg : Cfg) (hp : 2 ≤ cfg.nPartitions) (hmr : 1 ≤ cfg.minRow)
    (hmc : 1 ≤ cfg.minCol) (over : Bool) {le : Q → Q → Bool} (hle : TotalLe le) (hanti : ∀ a b, le a b = true → le b a = true → a = b)
    {col : KeyCol α Q} {draw : Nat → List (Option Q)} (hd : GoodDraws (rangeReq le [(col, draw)]))
    (hna : ∀ a, col.isna a = (col.conv a).isNone) {m : MFrame ι κ α} {df : Frame ι κ α} (hm : m.Represents df)
    (hpos : col.pos < df.ncols) (dropna : Bool)
    (agg : Option Q → List (ι × List α) → List β) (resCols : List κ) (hagg : ∀ k l, (agg k l).length = resCols.length) :
    ∃ m', groupbyRange cfg over le [(col, draw)] (valueGrouping le dropna) (sortKey col.conv col.pos) agg resCols m = some m' ∧
      m'.Represents (Frame.ofRecords resCols (groupRecords (valueGrouping le dropna) (sortKey col.conv col.pos) agg df.records)) := by
  obtain ⟨bins, hb, hF⟩ := applyRange_spec (β := β) (ι' := Option Q) cfg hp hmr hmc over (rangeReq le [(col, draw)]) hle hd hm none resCols
    (by simp)
  have hwid : ∀ r ∈ df.records, col.pos < r.2.length := by
    intro r hr; rw [hm.wf.records_width hr]; exact hpos
  have hk := isBins_keyParts hle hd hm.wf hb (sortKey col.conv col.pos) (by
    intro r s hr hs h c hc
    simp only [rangeReq, List.map_cons, List.map_nil, List.mem_singleton] at hc
    subst hc
    refine ⟨?_, h⟩
    unfold KeyCol.missing
    unfold sortKey at h
    rw [List.getElem?_eq_getElem (hwid r hr), List.getElem?_eq_getElem (hwid s hs)] at h ⊢
    simp only [Option.bind_some] at h
    simp [hna, h])
  generalize hG : valueGrouping le dropna = G
  have hGle : ∀ a b c, G.le a b = true → G.le b c = true → G.le a c = true := by
    subst hG; exact fun a b c => keyBefore_trans hle true true a b c
  have hGt : ∀ a b, G.le a b = true ∨ G.le b a = true := by
    subst hG; exact keyBefore_total hle true true
  have hGa : ∀ a b, G.le a b = true → G.le b a = true → a = b := by
    subst hG
    intro a b h1 h2
    cases a <;> cases b <;> simp_all [valueGrouping, keyBefore]
    exact hanti _ _ h1 h2
  have hsort : ∀ l : List (ι × List α), (groupRecords G (sortKey col.conv col.pos) agg l).Pairwise fun a b => G.le a.1 b.1 = true := by
    intro l
    unfold groupRecords
    rw [List.pairwise_map]
    unfold Grouping.groups
    rw [if_pos (by subst hG; rfl)]
    exact sortBy_pairwise hGle hGt _
  have hgood := hF (fun b => Frame.ofRecords resCols (groupRecords G (sortKey col.conv col.pos) agg b.records)) (by
      intro b _ _
      refine ⟨Frame.WF.ofRecords ?_, rfl⟩
      intro r hr
      simp only [groupRecords, List.mem_map] at hr
      obtain ⟨k, _, rfl⟩ := hr
      exact hagg _ _)
  rcases hgood with ⟨h1, _⟩ | ⟨m', h1, h2⟩
  · simp [rangeReq] at h1
  · refine ⟨m', h1, ?_⟩
    have hst : stackOf resCols (fun b => Frame.ofRecords resCols (groupRecords G (sortKey col.conv col.pos) agg b.records)) bins =
        Frame.ofRecords resCols ((bins.map fun b => groupRecords G (sortKey col.conv col.pos) agg b.records).flatten) := by
      simp only [stackOf, Frame.ofRecords, Frame.mk.injEq, true_and, List.map_flatten, List.map_map]
      exact ⟨rfl, rfl⟩
    rw [hst] at h2
    have hperm := hk.perm (groupRecords_local G (sortKey col.conv col.pos) agg)
    have heq : (bins.map fun b => groupRecords G (sortKey col.conv col.pos) agg b.records).flatten =
        groupRecords G (sortKey col.conv col.pos) agg df.records := by
      apply List.Perm.eq_of_pairwise (le := fun a b => G.le a.1 b.1 = true) _ _ (hsort _) hperm
      · intro a b ha hb' h3 h4
        have ha := hperm.mem_iff.1 ha
        simp only [groupRecords, List.mem_map] at ha hb'
        obtain ⟨k, _, rfl⟩ := ha
        obtain ⟨k', _, rfl⟩ := hb'
        have := hGa k k' h3 h4
        rw [this]
      · rw [List.pairwise_flatten]
        refine ⟨?_, ?_⟩
        · intro l hl
          simp only [List.mem_map] at hl
          obtain ⟨b, _, rfl⟩ := hl
          exact hsort _
        · rw [List.pairwise_iff_getElem]
          intro i j hi hj hij x hx y hy
          simp only [List.getElem_map, groupRecords, List.mem_map] at hx hy
          obtain ⟨k, hk1, rfl⟩ := hx
          obtain ⟨k', hk2, rfl⟩ := hy
          rw [Grouping.mem_groups] at hk1 hk2
          simp only [List.mem_map] at hk1 hk2
          obtain ⟨⟨r, hr, rfl⟩, _⟩ := hk1
          obtain ⟨⟨s, hs, rfl⟩, _⟩ := hk2
          simp only [List.length_map] at hi hj
          have := isBins_ordered (rq := rangeReq le [(col, draw)]) hle hd rfl rfl hna hm.wf hpos hb
            (List.getElem?_eq_getElem hi) (List.getElem?_eq_getElem hj) hij hr hs
          simp only [rowBefore, rangeReq] at this
          subst hG
          simp only [valueGrouping]
          obtain ⟨t1, t2⟩ := this
          have hbool : ∀ x y : Bool, (if (x && y) = true then true else x) = true → x = true := by decide
          exact hbool _ _ t1
    rw [heq] at h2
    exact h2

theorem firsts_filter {K : Type} [DecidableEq K] (p : K → Bool) (l : List K) : firsts (l.filter p) = (firsts l).filter p := by
  induction l with
  | nil => rfl
  | cons x xs ih =>
    by_cases h : p x = true
    · rw [List.filter_cons_of_pos h, firsts, firsts, List.filter_cons_of_pos h, ih, List.filter_filter, List.filter_filter]
      congr 1
      apply List.filter_congr
      intro y _
      rw [Bool.and_comm]
    · rw [List.filter_cons_of_neg h, firsts, List.filter_cons_of_neg h, ih, List.filter_filter]
      apply List.filter_congr
      intro y _
      by_cases hy : y = x
      · subst hy; simp [h]
      · simp [hy]

theorem filterMap_singletons {τ σ : Type} (f : τ → σ) (l : List τ) : (l.map fun b => [f b]).filterMap (fun x => x[0]?) = l.map f := by
  induction l with
  | nil => rfl
  | cons b bs ih => simp [ih]

/-- the distinct values of the first column -/
theorem distinct_local [DecidableEq α] (p : α → Bool) :
    KeyLocal (fun r : ι × List α => r.2[0]?) (fun a : α => some a) (fun l => firsts ((l.filterMap fun r => r.2[0]?).filter p)) := by
  refine ⟨rfl, ?_⟩
  intro l k
  rw [← firsts_filter]
  congr 1
  rw [List.filter_filter, List.filterMap_filter, List.filter_filterMap, List.filter_filterMap]
  apply filterMap_congr'
  intro r _
  cases h : r.2[0]? with
  | none =>
    by_cases hk : (none : Option α) = k
    · subst hk; simp
    · simp [hk]
  | some a =>
    by_cases hk : some a = k
    · subst hk; simp [Option.filter]
    · simp [hk, Option.filter]

/-- **C19 (`nunique`).** The number of distinct values of a single-column frame, counted range by range. -/
theorem C19_nunique_partial [DecidableEq ι] [DecidableEq κ] [DecidableEq α] (cfg : Cfg) (hp : 2 ≤ cfg.nPartitions) (hmr : 1 ≤ cfg.minRow)
    (hmc : 1 ≤ cfg.minCol) (over : Bool) {le : Q → Q → Bool} (hle : TotalLe le)
    {col : KeyCol α Q} {draw : Nat → List (Option Q)} (hd : GoodDraws (rangeReq le [(col, draw)])) (hpos : col.pos = 0)
    {m : MFrame ι κ α} {df : Frame ι κ α} (hm : m.Represents df) (hone : df.ncols = 1) (dropna : Bool) :
    ∃ m', nuniqueRange cfg over le col draw dropna m = some m' ∧
      m'.Represents ⟨["__reduced__"], [0], [[Pandas.nunique col.isna dropna (df.column 0)]]⟩ := by
  obtain ⟨bins, hb, hF⟩ := applyRange_spec (β := Nat) (ι' := κ) (κ' := Nat) cfg hp hmr hmc over (rangeReq le [(col, draw)]) hle hd hm none [0]
    (by simp)
  have hk := isBins_keyParts hle hd hm.wf hb (fun r : ι × List α => r.2[0]?) (by
    intro r s _ _ h
    apply keyCells_sameRange
    simp only [rangeReq, keyCells, List.map_cons, List.map_nil, hpos, h])
  have hgood := hF (fun b => { index := b.columns, columns := [0], rows := b.cols.map fun c => [Pandas.nunique col.isna dropna c] }) (by
    intro b _ _
    refine ⟨⟨by simp [Frame.cols, Frame.ncols], ?_⟩, rfl⟩
    intro r hr
    simp only [List.mem_map] at hr
    obtain ⟨_, _, rfl⟩ := hr
    rfl)
  rcases hgood with ⟨h1, _⟩ | ⟨m1, h1, h2⟩
  · simp [rangeReq] at h1
  · unfold nuniqueRange
    rw [h1, Option.bind_some]
    obtain ⟨m', h3, h4⟩ := fullReduce0_spec cfg (by omega) hmr h2 (by simp [stackOf, Frame.ncols]) List.sum
    refine ⟨m', h3, ?_⟩
    have hcols : ∀ b ∈ bins, b.cols = [b.column 0] := by
      intro b hbm
      have : b.ncols = 1 := by rw [← hone]; unfold Frame.ncols; rw [(hk.frames b hbm).2]
      simp [Frame.cols, this]
    have hcol : ∀ b : Frame ι κ α, b.WF → b.column 0 = b.records.filterMap fun r => r.2[0]? := by
      intro b hb
      have : b.rows = b.records.map (·.2) := by
        conv => lhs; rw [← hb.ofRecords_records]
        rfl
      unfold Frame.column
      rw [this, List.filterMap_map]
      rfl
    have hsum : (bins.map fun b => Pandas.nunique col.isna dropna (b.column 0)).sum = Pandas.nunique col.isna dropna (df.column 0) := by
      have := (hk.perm (distinct_local fun a => !(dropna && col.isna a))).length_eq
      rw [List.length_flatten, List.map_map] at this
      unfold Pandas.nunique
      rw [hcol df hm.wf, ← this]
      congr 1
      apply List.map_congr_left
      intro b hbm
      simp only [Function.comp]
      rw [hcol b (hk.frames b hbm).1]
    have hfr : (stackOf [0] (fun b : Frame ι κ α => ({ index := b.columns, columns := [0], rows := b.cols.map fun c => [Pandas.nunique col.isna dropna c] } : Frame κ Nat Nat)) bins).reduceColumns unnamed List.sum
        = ⟨["__reduced__"], [0], [[Pandas.nunique col.isna dropna (df.column 0)]]⟩ := by
      simp only [stackOf, Frame.reduceColumns, Frame.cols, Frame.ncols, unnamed, Frame.mk.injEq, true_and]
      simp only [List.length_cons, List.length_nil, Nat.zero_add, List.range_one, List.map_cons, List.map_nil, List.cons.injEq, and_true]
      rw [← hsum]
      congr 1
      have hrows : (bins.map fun b => (b.cols.map fun c => [Pandas.nunique col.isna dropna c])).flatten =
          bins.map fun b => [Pandas.nunique col.isna dropna (b.column 0)] := by
        have : (bins.map fun b => (b.cols.map fun c => [Pandas.nunique col.isna dropna c])) =
            bins.map fun b => [[Pandas.nunique col.isna dropna (b.column 0)]] := by
          apply List.map_congr_left
          intro b hbm
          rw [hcols b hbm]; rfl
        rw [this]
        clear this h4 h2 h1 hsum hcols hk hF hb
        induction bins with
        | nil => rfl
        | cons b bs ih => simp [ih]
      have hrows' : (bins.map fun b => ((List.range b.columns.length).map b.column).map fun c => [Pandas.nunique col.isna dropna c]).flatten =
          bins.map fun b => [Pandas.nunique col.isna dropna (b.column 0)] := hrows
      rw [hrows']
      unfold Frame.column
      exact filterMap_singletons _ _
    rw [hfr] at h4
    exact h4

/-! ### examples and counterexamples -/

namespace C18Example

def le (a b : Int) : Bool := decide (a ≤ b)

theorem total : TotalLe le :=
  ⟨by intro a b c h1 h2; simp only [le, decide_eq_true_eq] at *; omega, by intro a b; simp only [le, decide_eq_true_eq]; omega⟩

/-- six rows, a key with ties and a missing value -/
def df : Frame Nat String (Option Int) :=
  { index := [10, 20, 30, 40, 50, 60], columns := ["k", "v"],
    rows := [[some 3, some 1], [none, some 2], [some 1, some 3], [some 3, some 4], [some 2, none], [some 1, some 6]] }

/-- in row blocks of 2, 0, 3 and 1 rows and two column blocks -/
def m : MFrame Nat String (Option Int) :=
  { parts := df.cut [2, 0, 3, 1] [1, 1], index := none, columns := none, rowLens := none, colWidths := none }

theorem represents : m.Represents df :=
  ⟨⟨by decide, by decide⟩, ⟨[2, 0, 3, 1], [1, 1], ⟨by decide, by decide, by decide, by decide⟩, rfl, Or.inl rfl, Or.inl rfl⟩,
    Or.inl rfl, Or.inl rfl⟩

def cfg : Cfg := ⟨3, 1, 1⟩

/-- the sampling found two pivots -/
def draw (_ : Nat) : List (Option Int) := [some 2, some 3]

theorem draws : ∀ n, 2 ≤ n → draw n ≠ [] ∧ Increasing le (draw n) := by
  intro n _
  exact ⟨by simp [draw], by unfold Increasing draw; decide⟩

example : ∃ m', sortByValues cfg false le Option.isNone id true false draw [(0, false), (1, true)] m = some m' ∧
    m'.Represents (df.sortValues le id false [(0, false), (1, true)]) :=
  C18_sort_values_partial cfg (by decide) (by decide) (by decide) false total (fun _ => rfl) true false draws represents 0 false
    [(1, true)] (by decide)

example : (df.sortValues le id false [(0, false), (1, true)]).index = [20, 10, 40, 50, 30, 60] := by decide
example : (df.sortValues le id true [(0, true)]).index = [30, 60, 50, 10, 40, 20] := by decide

/-- the pivots really divide the rows: three non-empty ranges -/
example : ((sortByValues cfg false le Option.isNone id true true draw [(0, true)] m).map fun r => r.parts.map fun b => b.map (·.index)) =
    some [[[30, 60]], [[50]], [[10, 40, 20]]] := by decide

def kcol : KeyCol (Option Int) Int := { pos := 0, isna := Option.isNone, conv := id, numeric := true, pivots := [] }

theorem goodDraws : GoodDraws (rangeReq le [(kcol, draw)]) := by
  refine ⟨by simp [rangeReq], ?_⟩
  intro x hx
  simp only [rangeReq, List.mem_singleton] at hx
  subst hx
  exact draws

example : ∃ m', groupbyRange cfg false le [(kcol, draw)] (valueGrouping le true) (sortKey kcol.conv kcol.pos)
      (fun _ l => [l.length]) ["size"] m = some m' ∧
    m'.Represents (Frame.ofRecords ["size"] (groupRecords (valueGrouping le true) (sortKey kcol.conv kcol.pos) (fun _ l => [l.length]) df.records)) :=
  C19_groupby_sorted_partial cfg (by decide) (by decide) (by decide) false total
    (by intro a b h1 h2; simp only [le, decide_eq_true_eq] at *; omega) goodDraws (fun _ => rfl) represents (by decide) true _ _
    (fun _ _ => rfl)

example : groupRecords (valueGrouping le true) (sortKey kcol.conv kcol.pos) (fun _ l => [l.length]) df.records =
    [(some 1, [2]), (some 2, [1]), (some 3, [2])] := by decide

example : (1 < [(kcol, draw)].length ∧ dropDuplicatesRange cfg false le [(kcol, draw)] .last m = none) ∨
    ∃ m' R, dropDuplicatesRange cfg false le [(kcol, draw)] .last m = some m' ∧ m'.Represents R ∧ R.columns = df.columns ∧
      R.records.Perm (dropDuplicates .last (keyCells [(kcol, draw)]) df.records) :=
  C19_drop_duplicates_partial cfg (by decide) (by decide) (by decide) false total goodDraws represents .last

example : (dropDuplicates .last (keyCells [(kcol, draw)]) df.records).map (·.1) = [20, 40, 50, 60] := by decide
example : (dropDuplicates .none (keyCells [(kcol, draw)]) df.records).map (·.1) = [20, 50] := by decide

/-- a single column -/
def df1 : Frame Nat String (Option Int) :=
  { index := [1, 2, 3, 4], columns := ["k"], rows := [[some 3], [none], [some 1], [some 3]] }
def m1 : MFrame Nat String (Option Int) :=
  { parts := df1.cut [2, 2] [1], index := none, columns := none, rowLens := none, colWidths := none }
theorem represents1 : m1.Represents df1 :=
  ⟨⟨by decide, by decide⟩, ⟨[2, 2], [1], ⟨by decide, by decide, by decide, by decide⟩, rfl, Or.inl rfl, Or.inl rfl⟩,
    Or.inl rfl, Or.inl rfl⟩

example : ∃ m', nuniqueRange cfg false le kcol draw true m1 = some m' ∧
    m'.Represents ⟨["__reduced__"], [0], [[Pandas.nunique kcol.isna true (df1.column 0)]]⟩ :=
  C19_nunique_partial cfg (by decide) (by decide) (by decide) false total goodDraws rfl represents1 (by decide) true

example : Pandas.nunique Option.isNone true (df1.column 0) = 2 := by decide

end C18Example

open C18Example in
/-- **C18, where it fails (1).** With `NPartitions` set to 1 after a frame in two row blocks was made no pivots are
    picked, and each row block is sorted by itself. -/
theorem C18_no_pivots_wrong :
    (sortByValues ⟨1, 32, 32⟩ false le Option.isNone id true true draw [(0, true)] m1).map (fun r => r.getIndex) = some [1, 2, 3, 4] ∧
    (df1.sortValues le id true [(0, true)]).index = [3, 1, 4, 2] := by decide

open C18Example in
/-- **C18, where it fails (2).** `sort_values("k", key=lambda s: s.fillna(0))`: the row with the missing value is put
    into the last range although its key is the smallest. -/
theorem C18_key_fills_wrong :
    (sortByValues cfg false le Option.isNone (fun a => some (a.getD 0)) true true draw [(0, true)] m1).map (fun r => r.getIndex) =
      some [3, 2, 1, 4] ∧
    (df1.sortValues le (fun a : Option Int => some (a.getD 0)) true [(0, true)]).index = [2, 3, 1, 4] := by decide

namespace C19Example
open C18Example

/-- two key columns with one pivot each -/
def ka : KeyCol (Option Int) Int := { pos := 0, isna := Option.isNone, conv := id, numeric := true, pivots := [] }
def kb : KeyCol (Option Int) Int := { pos := 1, isna := Option.isNone, conv := id, numeric := true, pivots := [] }
def cols : List (KeyCol (Option Int) Int × (Nat → List (Option Int))) := [(ka, fun _ => [some 5]), (kb, fun _ => [some 5])]

def df2 : Frame Nat String (Option Int) :=
  { index := [10, 20, 30, 40], columns := ["a", "b"], rows := [[some 1, some 9], [some 2, some 1], [some 6, some 1], [some 6, some 8]] }

def m2 (rl : List Nat) : MFrame Nat String (Option Int) :=
  { parts := df2.cut rl [2], index := none, columns := none, rowLens := none, colWidths := none }

theorem represents2 : (m2 [2, 2]).Represents df2 :=
  ⟨⟨by decide, by decide⟩, ⟨[2, 2], [2], ⟨by decide, by decide, by decide, by decide⟩, rfl, Or.inl rfl, Or.inl rfl⟩,
    Or.inl rfl, Or.inl rfl⟩

theorem goodDraws2 : GoodDraws (rangeReq le cols) := by
  refine ⟨by simp [rangeReq, cols], ?_⟩
  intro x hx n _
  simp only [rangeReq, cols, List.mem_cons, List.not_mem_nil, or_false] at hx
  rcases hx with rfl | rfl <;> exact ⟨by simp, by simp [Increasing]⟩

/-- the hypotheses hold with two keys and the call returns -/
example : ∃ m' R, groupbyRange ⟨4, 1, 1⟩ true le cols (pandasGrouping true true) (fun r => r.2)
      (fun _ l => [l.length]) ["size"] (m2 [2, 2]) = some m' ∧ m'.Represents R ∧ R.columns = ["size"] ∧
      R.records.Perm (groupRecords (pandasGrouping true true) (fun r => r.2) (fun _ l => [l.length]) df2.records) := by
  have := C19_groupby_partial ⟨4, 1, 1⟩ (by decide) (by decide) (by decide) true total goodDraws2 represents2 (pandasGrouping true true)
    (fun r => r.2) (by
      intro r s _ _ h
      apply keyCells_sameRange
      simp only [keyCells, h]) (fun _ l => [l.length]) ["size"] (fun _ _ => rfl)
  rcases this with ⟨_, h⟩ | h
  · exact absurd h (by decide)
  · exact h

end C19Example

open C18Example C19Example in
/-- **C19, where it fails (1).** Range partitioning by two columns raises when a row block has exactly one row. -/
theorem C19_single_row_crash :
    groupbyRange ⟨4, 1, 1⟩ true le cols (pandasGrouping true true) (fun r => r.2) (fun _ l => [l.length]) ["size"] (m2 [1, 3]) = none := by
  decide

open C18Example C19Example in
/-- **C19, where it fails (2).** `df.groupby(["a", "b"], sort=True)` done by range partitioning does not sort the groups: the
    ranges of the second column are nested in those of the first, which may hold several keys. -/
theorem C19_two_keys_unsorted :
    (groupbyRange ⟨4, 1, 1⟩ true le cols (pandasGrouping true true) (fun r => r.2) (fun _ l => [l.length]) ["size"] (m2 [2, 2])).map
      (fun r => r.getIndex) = some [[some 2, some 1], [some 1, some 9], [some 6, some 1], [some 6, some 8]] ∧
    (groupRecords (pandasGrouping true true) (fun r => r.2) (fun _ l => [l.length]) df2.records).map (·.1) =
      [[some 1, some 9], [some 2, some 1], [some 6, some 1], [some 6, some 8]] := by decide
