import Verif.Model.NumpyOps

/-! # Lemmas about the binary operations of arrays -/

variable {α δ : Type}

/-- element of a list of rows -/
def rowsAt (rows : List (List α)) (i j : Nat) : Option α := (rows[i]?).bind (·[j]?)

/-- a rectangle -/
def RectN (rows : List (List α)) (nr nc : Nat) : Prop := rows.length = nr ∧ ∀ r ∈ rows, r.length = nc

theorem npGridOf_rect (f : α → α → α) (nan : α) (nr nc : Nat) (fx fy : Nat → Nat → Option α) :
    RectN (npGridOf f nan nr nc fx fy) nr nc := by
  refine ⟨by simp [npGridOf], ?_⟩
  intro r hr
  simp only [npGridOf, List.mem_map] at hr
  obtain ⟨i, _, rfl⟩ := hr
  simp

theorem npGridOf_at (f : α → α → α) (nan : α) {nr nc : Nat} (fx fy : Nat → Nat → Option α) {i j : Nat}
    (hi : i < nr) (hj : j < nc) :
    rowsAt (npGridOf f nan nr nc fx fy) i j = some (f ((fx i j).getD nan) ((fy i j).getD nan)) := by
  simp [rowsAt, npGridOf, List.getElem?_map, List.getElem?_range hi, List.getElem?_range hj]

theorem RectN.map {rows : List (List α)} {nr nc : Nat} (h : RectN rows nr nc) (g : α → α) :
    RectN (rows.map (·.map g)) nr nc := by
  refine ⟨by simpa using h.1, ?_⟩
  intro r hr
  obtain ⟨q, hq, rfl⟩ := List.mem_map.1 hr
  rw [List.length_map]; exact h.2 q hq

theorem rowsAt_map (rows : List (List α)) (g : α → α) (i j : Nat) :
    rowsAt (rows.map (·.map g)) i j = (rowsAt rows i j).map g := by
  unfold rowsAt
  rw [List.getElem?_map]
  cases rows[i]? with
  | none => rfl
  | some r => simp [List.getElem?_map]

theorem RectN.mapIdx {rows : List (List α)} {nr nc : Nat} (h : RectN rows nr nc) (g : Nat → Nat → α → α) :
    RectN (rows.mapIdx fun i r => r.mapIdx fun j v => g i j v) nr nc := by
  refine ⟨by simpa using h.1, ?_⟩
  intro r hr
  obtain ⟨i, hi, rfl⟩ := List.mem_mapIdx.1 hr
  rw [List.length_mapIdx]; exact h.2 _ (List.getElem_mem hi)

theorem rowsAt_mapIdx (rows : List (List α)) (g : Nat → Nat → α → α) (i j : Nat) :
    rowsAt (rows.mapIdx fun i r => r.mapIdx fun j v => g i j v) i j = (rowsAt rows i j).map (g i j) := by
  unfold rowsAt
  rw [List.getElem?_mapIdx]
  cases rows[i]? with
  | none => rfl
  | some r => simp [List.getElem?_mapIdx]

theorem RectN.at_some {rows : List (List α)} {nr nc : Nat} (h : RectN rows nr nc) {i j : Nat} (hi : i < nr) (hj : j < nc) :
    ∃ v, rowsAt rows i j = some v := by
  have hi' : i < rows.length := by rw [h.1]; exact hi
  have hj' : j < (rows[i]).length := by rw [h.2 _ (List.getElem_mem hi')]; exact hj
  exact ⟨rows[i][j], by simp [rowsAt, List.getElem?_eq_getElem hi', List.getElem?_eq_getElem hj']⟩

theorem flatten_singles (rows : List (List α)) (h : ∀ r ∈ rows, r.length = 1) (j : Nat) :
    rows.flatten[j]? = rowsAt rows j 0 := by
  induction rows generalizing j with
  | nil => rfl
  | cons r rows ih =>
    have hr := h r (List.mem_cons_self)
    match r, hr with
    | [a], _ =>
      cases j with
      | zero => rfl
      | succ j =>
        rw [List.flatten_cons, List.singleton_append, List.getElem?_cons_succ, ih (fun q hq => h q (List.mem_cons_of_mem _ hq))]
        rfl

theorem flatten_singles_length (rows : List (List α)) (h : ∀ r ∈ rows, r.length = 1) :
    rows.flatten.length = rows.length := by
  induction rows with
  | nil => rfl
  | cons r rows ih =>
    have hr := h r (List.mem_cons_self)
    rw [List.flatten_cons, List.length_append, hr, ih (fun q hq => h q (List.mem_cons_of_mem _ hq)), List.length_cons]
    omega

theorem bpick_of_lt {n i : Nat} (h : i < n) : bpick n i = i := by
  unfold bpick; split <;> omega

theorem bdim_self (n : Nat) : bdim n n = some n := by simp [bdim]

theorem bdim_one_left (n : Nat) : bdim 1 n = some n := by
  unfold bdim; split
  · next h => rw [h]
  · simp

theorem bdim_one_right (n : Nat) : bdim n 1 = some n := by
  unfold bdim; by_cases h : n = 1
  · rw [if_pos h]
  · rw [if_neg h, if_neg h, if_pos rfl]

namespace NGrid

theorem rect {x : NGrid α} (h : x.WF) : RectN x.rows x.nr x.nc := ⟨h.1, h.2.1⟩

theorem val_isMat (x : NGrid α) : x.val.isMat = x.two := by
  unfold val; cases x.two <;> rfl

theorem val_wf {x : NGrid α} (h : x.WF) : x.val.WF := by
  unfold val; cases x.two
  · exact trivial
  · exact ⟨h.1, h.2.1⟩

theorem val_two {x : NGrid α} (ht : x.two = true) : x.val = .mat x.nr x.nc x.rows := by simp [val, ht]
theorem val_one {x : NGrid α} (ht : x.two = false) : x.val = .vec x.rows.flatten := by simp [val, ht]

theorem nrows_two {x : NGrid α} (ht : x.two = true) : x.val.nrows = x.nr := by rw [val_two ht]; rfl
theorem ncols_two {x : NGrid α} (ht : x.two = true) : x.val.ncols = x.nc := by rw [val_two ht]; rfl
theorem get_two {x : NGrid α} (ht : x.two = true) (i j : Nat) : x.val.get? i j = x.cell? i j := by rw [val_two ht]; rfl
theorem nrows_one {x : NGrid α} (ht : x.two = false) : x.val.nrows = 1 := by rw [val_one ht]; rfl
theorem ncols_one {x : NGrid α} (h : x.WF) (ht : x.two = false) : x.val.ncols = x.nr := by
  rw [val_one ht]
  show x.rows.flatten.length = x.nr
  rw [flatten_singles_length _ (fun r hr => (h.2.1 r hr).trans (h.2.2 ht)), h.1]
theorem get_one {x : NGrid α} (h : x.WF) (ht : x.two = false) (j : Nat) : x.val.get? 0 j = x.cell? j 0 := by
  rw [val_one ht]
  show (if 0 = 0 then x.rows.flatten[j]? else none) = _
  rw [if_pos rfl, flatten_singles _ (fun r hr => (h.2.1 r hr).trans (h.2.2 ht))]
  rfl

theorem mapCells_wf {x : NGrid α} (h : x.WF) (g : α → α) : (x.mapCells g).WF :=
  ⟨((rect h).map g).1, ((rect h).map g).2, h.2.2⟩

theorem cell_some {x : NGrid α} (h : x.WF) {i j : Nat} (hi : i < x.nr) (hj : j < x.nc) : ∃ v, x.cell? i j = some v :=
  (rect h).at_some hi hj

theorem mapCells_cell (x : NGrid α) (g : α → α) (i j : Nat) : (x.mapCells g).cell? i j = (x.cell? i j).map g :=
  rowsAt_map x.rows g i j

theorem mapCells_nrows (x : NGrid α) (g : α → α) : (x.mapCells g).val.nrows = x.val.nrows := by
  unfold val mapCells; dsimp only; cases x.two <;> rfl

theorem mapCells_ncols (x : NGrid α) (g : α → α) : (x.mapCells g).val.ncols = x.val.ncols := by
  unfold val mapCells; dsimp only; cases x.two
  · show (List.map _ x.rows).flatten.length = x.rows.flatten.length
    rw [← List.map_flatten, List.length_map]
  · rfl

theorem mapCells_get (x : NGrid α) (g : α → α) (i j : Nat) : (x.mapCells g).val.get? i j = (x.val.get? i j).map g := by
  cases hx : x.two
  · rw [val_one hx, val_one (x := x.mapCells g) hx]
    show (if i = 0 then (List.map _ x.rows).flatten[j]? else none) = (if i = 0 then x.rows.flatten[j]? else none).map g
    split
    · rw [← List.map_flatten, List.getElem?_map]
    · rfl
  · rw [val_two hx, val_two (x := x.mapCells g) hx]
    exact rowsAt_map x.rows g i j

end NGrid

open NGrid

/-- what is done to one element of the result -/
def repairCell (S : NpScalars α) (op : NpOp) (int : Bool) (c v : α) : α :=
  if int then
    match op with
    | .floordiv => if S.isZero c then S.zero else if S.isInf v then S.zero else v
    | .mod => if S.isNan v then S.zero else v
    | _ => v
  else v

def fixCell (T : NpTypes α δ) (dtype : Option δ) (v : α) : α :=
  match dtype with
  | none => v
  | some d => T.cast d v

theorem npFix_rect (T : NpTypes α δ) (dtype : Option δ) {rows : List (List α)} {nr nc : Nat} (h : RectN rows nr nc) :
    RectN (npFix T dtype rows) nr nc := by
  cases dtype with
  | none => exact h
  | some d => exact h.map _

theorem npFix_at (T : NpTypes α δ) (dtype : Option δ) (rows : List (List α)) (i j : Nat) :
    rowsAt (npFix T dtype rows) i j = (rowsAt rows i j).map (fixCell T dtype) := by
  cases dtype with
  | none =>
    show rowsAt rows i j = (rowsAt rows i j).map (fun v => v)
    simp
  | some d => exact rowsAt_map rows _ i j

theorem repair_rect (S : NpScalars α) (op : NpOp) (int : Bool) (c : NGrid α) {rows : List (List α)} {nr nc : Nat}
    (h : RectN rows nr nc) : RectN (op.repair S int c rows) nr nc := by
  unfold NpOp.repair
  cases int
  · exact h
  · simp only [if_true]
    split
    · exact h.mapIdx (fun i j v => match c.cell? i j with
        | some c => if S.isZero c then S.zero else if S.isInf v then S.zero else v
        | none => S.zero)
    · exact h.map _
    · exact h

theorem repair_at (S : NpScalars α) (op : NpOp) (int : Bool) (g : NGrid α) (rows : List (List α)) (i j : Nat) (c : α)
    (hc : (op = .floordiv ∧ int = true) → g.cell? i j = some c) :
    rowsAt (op.repair S int g rows) i j = (rowsAt rows i j).map (repairCell S op int c) := by
  unfold NpOp.repair
  cases int
  · show rowsAt rows i j = (rowsAt rows i j).map (fun v => v)
    simp
  · simp only [if_true]
    cases op <;> first
      | (show rowsAt rows i j = (rowsAt rows i j).map (fun v => v); simp; done)
      | (exact rowsAt_map rows _ i j)
      | (refine (rowsAt_mapIdx rows (fun i j v => match g.cell? i j with
          | some c => if S.isZero c then S.zero else if S.isInf v then S.zero else v
          | none => S.zero) i j).trans ?_
         rw [hc ⟨rfl, rfl⟩]; rfl)

/-- the element of the result from the elements of the operands -/
def cellFn (S : NpScalars α) (T : NpTypes α δ) (op : NpOp) (dtype : Option δ) (int : Bool) (a b : α) : α :=
  fixCell T dtype (repairCell S op int b (op.direct S a b))

/-- both have two dimensions, and different numbers of rows -/
def RowCase (x y : NGrid α) : Prop := x.two = true ∧ y.two = true ∧ x.nr ≠ y.nr

theorem exchanged_direct {S : NpScalars α} {T : NpTypes α δ} (L : S.Lawful T) {op : NpOp} {f : α → α → α} (h : op.exchanged S = some f)
    (int : Bool) (a b : α) : f b a = repairCell S op int b (op.direct S a b) := by
  unfold repairCell
  cases op <;> simp only [NpOp.exchanged, Option.some.injEq, reduceCtorEq] at h <;> subst h <;> cases int <;>
    simp only [NpOp.direct, if_true, Bool.false_eq_true, if_false] <;>
    first
    | rfl
    | exact L.add_comm b a
    | exact L.mul_comm b a
    | exact L.eq_comm b a
    | exact L.ne_comm b a
    | exact (L.gt_lt a b).symm
    | exact (L.ge_le a b).symm
    | exact L.gt_lt b a
    | exact L.ge_le b a

theorem npCompute_spec {S : NpScalars α} {T : NpTypes α δ} (L : S.Lawful T) {op : NpOp} {dtype : Option δ} {int : Bool}
    {x y r : NGrid α} (hx : x.WF) (hy : y.WF) (h : npCompute S T op dtype int x y = some r)
    (hrow : ¬ RowCase x y) (hfd : op = .floordiv → int = true → x.shape = y.shape) :
    r.WF ∧ Broadcasts (cellFn S T op dtype int) x.val y.val r.val := by
  unfold npCompute at h
  cases hp : npPreprocess x y with
  | none => rw [hp] at h; cases h
  | some t =>
    obtain ⟨ex, bc, ax⟩ := t
    rw [hp] at h
    dsimp only at h
    unfold npPreprocess at hp
    by_cases hd : x.two ≠ y.two
    · rw [if_pos hd] at hp
      dsimp only at hp
      · cases hx2 : x.two
        · -- one dimension, two dimensions: exchanged
          have hy2 : y.two = true := by cases hy2 : y.two <;> simp_all
          simp only [hx2, Bool.false_eq_true, if_false, Bool.not_false] at hp
          by_cases hdim : x.nr = y.nc
          case neg => rw [if_pos hdim] at hp; cases hp
          rw [if_neg (not_not_intro hdim)] at hp
          cases hp
          simp only [if_true] at h
          cases hf : op.exchanged S with
          | none => rw [hf] at h; cases h
          | some f =>
            rw [hf] at h
            simp only [qcBinary, if_true, hx.2.2 hx2, ne_eq, not_true_eq_false, if_false] at h
            cases h
            have hmax : max y.nc x.nr = y.nc := by omega
            rw [hmax]
            have hrect := npFix_rect T dtype (npGridOf_rect f S.nan y.nr y.nc y.cell? (fun _ j => x.cell? j 0))
            refine ⟨⟨hrect.1, hrect.2, fun h => by cases h⟩, ⟨?_, ?_, ?_, ?_, ?_⟩⟩
            · rw [val_isMat, val_isMat, val_isMat, hx2, hy2]; rfl
            · exact val_wf ⟨hrect.1, hrect.2, fun h => by cases h⟩
            · rw [nrows_one hx2, nrows_two hy2, bdim_one_left]; rfl
            · rw [ncols_one hx hx2, ncols_two hy2, hdim, bdim_self]; rfl
            · intro i hi j hj
              replace hi : i < y.nr := hi
              replace hj : j < y.nc := hj
              obtain ⟨b, hb⟩ := cell_some hy hi hj
              obtain ⟨a, ha⟩ := cell_some hx (i := j) (j := 0) (by omega) (by rw [hx.2.2 hx2]; omega)
              refine ⟨a, b, ?_, ?_, ?_⟩
              · rw [nrows_one hx2, ncols_one hx hx2]
                have h0 : bpick 1 i = 0 := rfl
                rw [h0, bpick_of_lt (by omega), get_one hx hx2, ha]
              · rw [nrows_two hy2, ncols_two hy2, bpick_of_lt hi, bpick_of_lt hj, get_two hy2, hb]
              · rw [get_two rfl]
                refine (npFix_at T dtype _ i j).trans ?_
                rw [npGridOf_at _ _ _ _ hi hj, hb, ha]
                simp only [Option.getD_some, Option.map_some, cellFn, exchanged_direct L hf int]
        · have hy2 : y.two = false := by cases hy2 : y.two <;> simp_all
          simp only [hx2, if_true, Bool.not_true] at hp
          by_cases hdim : y.nr = x.nc
          case neg => rw [if_pos hdim] at hp; cases hp
          rw [if_neg (not_not_intro hdim)] at hp
          cases hp
          rw [hx2] at h
          simp only [Bool.false_eq_true, if_false, qcBinary, if_true, hy.2.2 hy2, ne_eq, not_true_eq_false] at h
          cases h
          have hmax : max x.nc y.nr = x.nc := by omega
          rw [hmax]
          have hrect := npFix_rect T dtype (repair_rect S op int y
            (npGridOf_rect (op.direct S) S.nan x.nr x.nc x.cell? (fun _ j => y.cell? j 0)))
          refine ⟨⟨hrect.1, hrect.2, fun h => by cases h⟩, ⟨?_, ?_, ?_, ?_, ?_⟩⟩
          · rw [val_isMat, val_isMat, val_isMat, hx2, hy2]; rfl
          · exact val_wf ⟨hrect.1, hrect.2, fun h => by cases h⟩
          · rw [nrows_one hy2, nrows_two hx2, bdim_one_right]; rfl
          · rw [ncols_one hy hy2, ncols_two hx2, hdim, bdim_self]; rfl
          · intro i hi j hj
            replace hi : i < x.nr := hi
            replace hj : j < x.nc := hj
            obtain ⟨a, ha⟩ := cell_some hx hi hj
            obtain ⟨b, hb⟩ := cell_some hy (i := j) (j := 0) (by omega) (by rw [hy.2.2 hy2]; omega)
            refine ⟨a, b, ?_, ?_, ?_⟩
            · rw [nrows_two hx2, ncols_two hx2, bpick_of_lt hi, bpick_of_lt hj, get_two hx2, ha]
            · rw [nrows_one hy2, ncols_one hy hy2]
              have h0 : bpick 1 i = 0 := rfl
              rw [h0, bpick_of_lt (by omega), get_one hy hy2, hb]
            · rw [get_two rfl]
              refine (npFix_at T dtype _ i j).trans ?_
              rw [repair_at S op int y _ i j b, npGridOf_at _ _ _ _ hi hj, hb, ha]
              · rfl
              · intro hh
                have := hfd hh.1 hh.2
                simp [shape, hx2, hy2] at this
    · rw [if_neg hd] at hp
      have hd := Decidable.not_not.1 hd
      by_cases hs : x.shape = y.shape
      · rw [if_pos hs] at hp
        cases hp
        have hnr : x.nr = y.nr := by
          unfold shape at hs; rw [hd] at hs; cases hy2 : y.two <;> simp_all
        have hnc : x.nc = y.nc := by
          cases hy2 : y.two
          · rw [hx.2.2 (hd.trans hy2), hy.2.2 hy2]
          · unfold shape at hs; simp_all
        simp only [Bool.false_eq_true, if_false, qcBinary] at h
        cases h
        have h1 : max x.nr y.nr = x.nr := by omega
        have h2 : max x.nc y.nc = x.nc := by omega
        rw [h1, h2]
        have hrect := npFix_rect T dtype (repair_rect S op int y
          (npGridOf_rect (op.direct S) S.nan x.nr x.nc x.cell? y.cell?))
        have hwf : NGrid.WF ⟨x.two, x.nr, x.nc, npFix T dtype (op.repair S int y
          (npGridOf (op.direct S) S.nan x.nr x.nc x.cell? y.cell?))⟩ := ⟨hrect.1, hrect.2, fun h => hx.2.2 h⟩
        have key : ∀ i j, i < x.nr → j < x.nc → ∃ a b, x.cell? i j = some a ∧ y.cell? i j = some b ∧
            NGrid.cell? ⟨x.two, x.nr, x.nc, npFix T dtype (op.repair S int y
              (npGridOf (op.direct S) S.nan x.nr x.nc x.cell? y.cell?))⟩ i j = some (cellFn S T op dtype int a b) := by
          intro i j hi hj
          obtain ⟨a, ha⟩ := cell_some hx hi hj
          obtain ⟨b, hb⟩ := cell_some hy (i := i) (j := j) (by omega) (by omega)
          refine ⟨a, b, ha, hb, ?_⟩
          refine (npFix_at T dtype _ i j).trans ?_
          rw [repair_at S op int y _ i j b (fun _ => hb), npGridOf_at _ _ _ _ hi hj, hb, ha]
          rfl
        refine ⟨hwf, ⟨?_, val_wf hwf, ?_, ?_, ?_⟩⟩
        · rw [val_isMat, val_isMat, val_isMat, hd]; simp
        · cases hx2 : x.two
          · rw [nrows_one hx2, nrows_one (hd ▸ hx2), nrows_one rfl, bdim_self]
          · rw [nrows_two hx2, nrows_two (hd ▸ hx2), nrows_two rfl, hnr, bdim_self]
        · cases hx2 : x.two
          · rw [ncols_one hx hx2, ncols_one hy (hd ▸ hx2), ncols_one (hx2 ▸ hwf) rfl, ← hnr, bdim_self]
          · rw [ncols_two hx2, ncols_two (hd ▸ hx2), ncols_two rfl, hnc, bdim_self]
        · intro i hi j hj
          cases hx2 : x.two
          · replace hi := Nat.lt_of_lt_of_eq hi (nrows_one (x := NGrid.mk _ _ _ _) hx2)
            replace hj : j < x.nr := Nat.lt_of_lt_of_eq hj (ncols_one hwf hx2)
            have hi0 : i = 0 := by omega
            subst hi0
            obtain ⟨a, b, ha, hb, hr⟩ := key j 0 hj (by rw [hx.2.2 hx2]; omega)
            refine ⟨a, b, ?_, ?_, ?_⟩
            · rw [nrows_one hx2, ncols_one hx hx2, bpick_of_lt hj]
              exact (get_one hx hx2 j).trans ha
            · rw [nrows_one (hd ▸ hx2), ncols_one hy (hd ▸ hx2), ← hnr, bpick_of_lt hj]
              exact (get_one hy (hd ▸ hx2) j).trans hb
            · rw [hx2] at hwf hr
              exact (get_one hwf rfl j).trans hr
          · replace hi := Nat.lt_of_lt_of_eq hi (nrows_two (x := NGrid.mk _ _ _ _) hx2)
            replace hj := Nat.lt_of_lt_of_eq hj (ncols_two (x := NGrid.mk _ _ _ _) hx2)
            obtain ⟨a, b, ha, hb, hr⟩ := key i j hi hj
            refine ⟨a, b, ?_, ?_, ?_⟩
            · rw [nrows_two hx2, ncols_two hx2, bpick_of_lt hi, bpick_of_lt hj, get_two hx2, ha]
            · rw [nrows_two (hd ▸ hx2), ncols_two (hd ▸ hx2), ← hnr, ← hnc]
              rw [bpick_of_lt hi, bpick_of_lt hj, get_two (hd ▸ hx2), hb]
            · rw [hx2] at hr
              exact (get_two rfl i j).trans hr
      · rw [if_neg hs] at hp
        split at hp
        · rename_i hnr
          -- same number of rows; two dimensions
          have hx2 : x.two = true := by
            cases hx2 : x.two
            · exfalso
              apply hs
              simp [shape, hx2, ← hd, hnr]
            · rfl
          have hy2 : y.two = true := hd ▸ hx2
          split at hp
          · cases hp
            simp only [Bool.false_eq_true, if_false, qcBinary, if_true] at h
            split at h
            · cases h
            · rename_i hq
              split at hq
              · cases hq
              · rename_i hyc
                have hyc := Decidable.not_not.1 hyc
                cases hq
                cases h
                have h1 : max x.nr y.nr = x.nr := by omega
                rw [h1]
                have hrect := npFix_rect T dtype (repair_rect S op int y
                  (npGridOf_rect (op.direct S) S.nan x.nr x.nc x.cell? (fun i _ => y.cell? i 0)))
                have hwf : NGrid.WF ⟨true, x.nr, x.nc, npFix T dtype (op.repair S int y
                  (npGridOf (op.direct S) S.nan x.nr x.nc x.cell? (fun i _ => y.cell? i 0)))⟩ :=
                  ⟨hrect.1, hrect.2, fun h => by cases h⟩
                rw [hx2]
                refine ⟨hwf, ⟨?_, val_wf hwf, ?_, ?_, ?_⟩⟩
                · rw [val_isMat, val_isMat, val_isMat, hx2, hy2]; rfl
                · rw [nrows_two hx2, nrows_two hy2, nrows_two rfl, hnr, bdim_self]
                · rw [ncols_two hx2, ncols_two hy2, ncols_two rfl, hyc, bdim_one_right]
                · intro i hi j hj
                  replace hi : i < x.nr := hi
                  replace hj : j < x.nc := hj
                  obtain ⟨a, ha⟩ := cell_some hx hi hj
                  obtain ⟨b, hb⟩ := cell_some hy (i := i) (j := 0) (by omega) (by omega)
                  refine ⟨a, b, ?_, ?_, ?_⟩
                  · rw [nrows_two hx2, ncols_two hx2, bpick_of_lt hi, bpick_of_lt hj, get_two hx2, ha]
                  · rw [nrows_two hy2, ncols_two hy2, ← hnr, bpick_of_lt hi, hyc]
                    have h0 : bpick 1 j = 0 := rfl
                    rw [h0, get_two hy2, hb]
                  · rw [get_two rfl]
                    refine (npFix_at T dtype _ i j).trans ?_
                    rw [repair_at S op int y _ i j b, npGridOf_at _ _ _ _ hi hj, hb, ha]
                    · rfl
                    · intro hh
                      exact absurd (hfd hh.1 hh.2) hs
          · cases hp
        · rename_i hnr
          split at hp
          · cases hp
          · rename_i hx2
            have hx2 : x.two = true := by simpa using hx2
            exact absurd ⟨hx2, hd ▸ hx2, hnr⟩ hrow

/-- on converted elements the code computes what NumPy computes -/
theorem cellFn_cast {S : NpScalars α} {T : NpTypes α δ} (L : S.Lawful T) (op : NpOp) (dtype : Option δ) (d : δ)
    (hop : op.compares = false) (a b : α) :
    cellFn S T op dtype (T.isInt d) (T.cast d a) (T.cast d b) = S.expected T op dtype d a b := by
  have key : repairCell S op (T.isInt d) (T.cast d b) (op.direct S (T.cast d a) (T.cast d b))
      = S.meaning op (T.cast d a) (T.cast d b) := by
    unfold repairCell
    cases hi : T.isInt d <;> cases op <;> simp only [NpOp.direct, NpScalars.meaning, if_true, Bool.false_eq_true, if_false] <;>
      first
      | rfl
      | exact L.add_comm _ _
      | exact L.mul_comm _ _
      | exact L.fd_float d hi a b
      | exact L.mod_float d hi a b
      | cases hop
      | skip
    · cases hz : S.isZero (T.cast d b)
      · obtain ⟨e1, e2⟩ := L.fd_same d hi a b hz
        simp [e1, e2]
      · simp [L.fd_zero d hi a b hz]
    · cases hz : S.isZero (T.cast d b)
      · obtain ⟨e1, e2⟩ := L.mod_same d hi a b hz
        simp [e1, e2]
      · obtain ⟨e1, e2⟩ := L.mod_zero d hi a b hz
        simp [e1, e2]
  unfold cellFn NpScalars.expected
  rw [key, hop]
  cases dtype <;> rfl

theorem cellFn_compare (S : NpScalars α) (T : NpTypes α δ) (op : NpOp) (dtype : Option δ) (d : δ)
    (hop : op.compares = true) (a b : α) :
    cellFn S T op none false a b = S.expected T op dtype d a b := by
  unfold NpScalars.expected
  rw [hop]
  cases op <;> first | rfl | cases hop

theorem Broadcasts.of_mapCells {f g : α → α → α} {c : α → α} {x y : NGrid α} {r : NpVal α}
    (h : Broadcasts f (x.mapCells c).val (y.mapCells c).val r) (hfg : ∀ a b, f (c a) (c b) = g a b) :
    Broadcasts g x.val y.val r := by
  obtain ⟨h1, h2, h3, h4, h5⟩ := h
  rw [mapCells_nrows, mapCells_nrows] at h3
  rw [mapCells_ncols, mapCells_ncols] at h4
  refine ⟨?_, h2, h3, h4, ?_⟩
  · rw [h1, val_isMat, val_isMat, val_isMat, val_isMat]; rfl
  · intro i hi j hj
    obtain ⟨a, b, ha, hb, hr⟩ := h5 i hi j hj
    rw [mapCells_nrows, mapCells_ncols, mapCells_get] at ha hb
    cases hxa : x.val.get? (bpick x.val.nrows i) (bpick x.val.ncols j) with
    | none => rw [hxa] at ha; cases ha
    | some a' =>
      cases hyb : y.val.get? (bpick y.val.nrows i) (bpick y.val.ncols j) with
      | none => rw [hyb] at hb; cases hb
      | some b' =>
        rw [hxa] at ha; rw [hyb] at hb
        cases ha; cases hb
        exact ⟨a', b', rfl, rfl, by rw [hr, hfg]⟩
