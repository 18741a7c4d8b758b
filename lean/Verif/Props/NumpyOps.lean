import Verif.Lemmas.NumpyOps

/-!
# C75: an operation of two `modin.numpy` arrays is NumPy's, with broadcasting

`Broadcasts` and `Broadcastable` (Pandas/NumpyOps) say what NumPy does.
-/

open NGrid

variable {α δ : Type}

/-- **C75** If an operation of two arrays gives an array, then NumPy gives that array: the shape is the shape
that broadcasting gives, and every element is computed from the two elements that broadcasting
puts there, in the order of the operands.
Partial: not for two-dimensional operands with different numbers of rows (`C75_one_row`), and not for `//` of integers
between arrays of different shapes (`C75_floor_divide`). -/
theorem C75_result_partial (S : NpScalars α) (T : NpTypes α δ) (L : S.Lawful T) (op : NpOp) (dtype : Option δ) (x y : NArr α δ)
    (hx : x.grid.WF) (hy : y.grid.WF) (r : NGrid α) (h : (npBinary S T op dtype x y).result = some r)
    (hrow : ¬ (x.grid.two = true ∧ y.grid.two = true ∧ x.grid.nr ≠ y.grid.nr))
    (hfd : op = .floordiv → x.grid.shape = y.grid.shape) :
    Broadcasts (S.expected T op dtype (dtype.getD (T.common x.dt y.dt))) x.grid.val y.grid.val r.val := by
  unfold npBinary at h
  cases hop : op.compares
  · rw [hop] at h
    simp only [Bool.false_eq_true, if_false] at h
    have := (npCompute_spec L (mapCells_wf hx _) (mapCells_wf hy _) h hrow (fun e _ => hfd e)).2
    exact this.of_mapCells (fun a b => cellFn_cast L op dtype _ hop a b)
  · rw [hop] at h
    simp only [if_true] at h
    have := (npCompute_spec L hx hy h hrow (fun e _ => hfd e)).2
    have e : cellFn S T op none false = S.expected T op dtype (dtype.getD (T.common x.dt y.dt)) := by
      funext a b; exact cellFn_compare S T op dtype _ hop a b
    rwa [e] at this

/-- the shapes for which arrays can be combined -/
def NpSupported (op : NpOp) (x y : NGrid α) : Prop :=
  x.shape = y.shape
    ∨ (x.two = true ∧ y.two = false ∧ y.nr = x.nc)
    ∨ (x.two = false ∧ y.two = true ∧ x.nr = y.nc ∧ op ≠ .floordiv ∧ op ≠ .mod ∧ op ≠ .pow)
    ∨ (x.two = true ∧ y.two = true ∧ x.nr = y.nr ∧ y.nc = 1)

theorem npCompute_supported (S : NpScalars α) (T : NpTypes α δ) (op : NpOp) (dtype : Option δ) (int : Bool) {x y : NGrid α}
    (hx : x.WF) (hy : y.WF) (h : NpSupported op x y) : (npCompute S T op dtype int x y).isSome := by
  have same : x.shape = y.shape → npPreprocess x y = some (false, false, false) := by
    intro e
    have : x.two = y.two := by
      unfold shape at e
      cases hx : x.two <;> cases hy : y.two <;> simp_all
    unfold npPreprocess
    rw [if_neg (not_not_intro this), if_pos e]
  rcases h with h | ⟨h1, h2, h3⟩ | ⟨h1, h2, h3, h4, h5, h6⟩ | ⟨h1, h2, h3, h4⟩
  · simp [npCompute, same h, qcBinary]
  · have hp : npPreprocess x y = some (false, true, true) := by simp [npPreprocess, h1, h2, h3]
    simp [npCompute, hp, qcBinary, hy.2.2 h2]
  · have hp : npPreprocess x y = some (true, true, true) := by simp [npPreprocess, h1, h2, h3]
    have hf : ∃ f, op.exchanged S = some f := by
      cases op <;> first | exact ⟨_, rfl⟩ | exact absurd rfl h4 | exact absurd rfl h5 | exact absurd rfl h6
    obtain ⟨f, hf⟩ := hf
    simp [npCompute, hp, qcBinary, hx.2.2 h1, hf]
  · by_cases hs : x.shape = y.shape
    · simp [npCompute, same hs, qcBinary]
    · have hp : npPreprocess x y = some (false, true, false) := by
        unfold npPreprocess
        rw [if_neg (by rw [h1, h2]; simp), if_neg hs, if_pos h3, if_pos (Or.inr h4)]
      simp [npCompute, hp, qcBinary, h4]

/-- **C75** Arrays of the same shape, an array with two dimensions and a row of as many elements in either order, and
an array and a column of as many rows can be combined.
Partial: NumPy combines more (`C75_column_left`, `C75_length_one`, `C75_column_and_row`). -/
theorem C75_supported_partial (S : NpScalars α) (T : NpTypes α δ) (op : NpOp) (dtype : Option δ) (x y : NArr α δ)
    (hx : x.grid.WF) (hy : y.grid.WF) (h : NpSupported op x.grid y.grid) :
    (npBinary S T op dtype x y).result.isSome := by
  unfold npBinary
  cases hop : op.compares
  · simp only [Bool.false_eq_true, if_false]
    exact npCompute_supported S T op dtype _ (mapCells_wf hx _) (mapCells_wf hy _) h
  · simp only [if_true]
    exact npCompute_supported S T op none false hx hy h

/-- **C75** Shapes that NumPy refuses are refused: an operation of two arrays never makes up a result for
shapes that do not go together. -/
theorem C75_refused (S : NpScalars α) (T : NpTypes α δ) (op : NpOp) (dtype : Option δ) (x y : NArr α δ)
    (hx : x.grid.WF) (hy : y.grid.WF) (h : ¬ Broadcastable x.grid.val y.grid.val) :
    (npBinary S T op dtype x y).result = none := by
  have key : ∀ (dt : Option δ) (int : Bool) (x y : NGrid α), x.WF → y.WF → ¬ Broadcastable x.val y.val →
      npCompute S T op dt int x y = none := by
    intro dt int x y hx hy h
    have hp : npPreprocess x y = none := by
      unfold npPreprocess
      by_cases hd : x.two ≠ y.two
      · rw [if_pos hd]
        dsimp only
        refine if_pos ?_
        intro e
        apply h
        unfold Broadcastable
        cases hx2 : x.two
        · have hy2 : y.two = true := by cases hy2 : y.two <;> simp_all
          rw [nrows_one hx2, nrows_two hy2, ncols_one hx hx2, ncols_two hy2, bdim_one_left]
          simp only [hx2, Bool.false_eq_true, if_false] at e
          rw [e, bdim_self]; exact ⟨rfl, rfl⟩
        · have hy2 : y.two = false := by cases hy2 : y.two <;> simp_all
          rw [nrows_one hy2, nrows_two hx2, ncols_one hy hy2, ncols_two hx2, bdim_one_right]
          simp only [hx2, if_true] at e
          rw [e, bdim_self]; exact ⟨rfl, rfl⟩
      · rw [if_neg hd]
        have hd := Decidable.not_not.1 hd
        unfold Broadcastable at h
        cases hx2 : x.two
        · have hy2 : y.two = false := hd ▸ hx2
          rw [nrows_one hy2, nrows_one hx2, ncols_one hx hx2, ncols_one hy hy2, bdim_self] at h
          have hne : x.nr ≠ y.nr := by
            intro e; apply h; rw [e, bdim_self]; exact ⟨rfl, rfl⟩
          rw [if_neg (by simp [shape, hx2, hy2, hne]), if_neg hne]
          rfl
        · have hy2 : y.two = true := hd ▸ hx2
          rw [nrows_two hy2, nrows_two hx2, ncols_two hx2, ncols_two hy2] at h
          have hs : ¬ x.shape = y.shape := by
            intro e
            simp [shape, hx2, hy2] at e
            apply h
            rw [e.1, e.2, bdim_self, bdim_self]; exact ⟨rfl, rfl⟩
          rw [if_neg hs]
          by_cases h1 : x.nr = y.nr
          · rw [if_pos h1]
            refine if_neg ?_
            rintro (e | e)
            · apply h; rw [h1, e, bdim_self, bdim_one_left]; exact ⟨rfl, rfl⟩
            · apply h; rw [h1, e, bdim_self, bdim_one_right]; exact ⟨rfl, rfl⟩
          · rw [if_neg h1]
            simp only [Bool.not_true, Bool.false_eq_true, if_false]
            by_cases h2 : x.nc = y.nc
            · rw [if_pos h2]
              refine if_neg ?_
              rintro (e | e)
              · apply h; rw [h2, e, bdim_self, bdim_one_left]; exact ⟨rfl, rfl⟩
              · apply h; rw [h2, e, bdim_self, bdim_one_right]; exact ⟨rfl, rfl⟩
            · rw [if_neg h2]
    simp [npCompute, hp]
  unfold npBinary
  cases hop : op.compares
  · simp only [Bool.false_eq_true, if_false]
    refine key dtype _ _ _ (mapCells_wf hx _) (mapCells_wf hy _) ?_
    unfold Broadcastable
    show ¬ ((bdim (x.grid.mapCells _).val.nrows (y.grid.mapCells _).val.nrows).isSome = true
      ∧ (bdim (x.grid.mapCells _).val.ncols (y.grid.mapCells _).val.ncols).isSome = true)
    rw [mapCells_nrows, mapCells_nrows, mapCells_ncols, mapCells_ncols]
    exact h
  · simp only [if_true]
    exact key none false _ _ hx hy h

/-- the elements are values of the array's type -/
def NArr.Typed (T : NpTypes α δ) (x : NArr α δ) : Prop := ∀ r ∈ x.grid.rows, ∀ v ∈ r, T.cast x.dt v = v

theorem mapCells_fixed {x : NGrid α} {c : α → α} (h : ∀ r ∈ x.rows, ∀ v ∈ r, c v = v) : x.mapCells c = x := by
  obtain ⟨two, nr, nc, rows⟩ := x
  unfold mapCells
  have : rows.map (·.map c) = rows := by
    conv => rhs; rw [← List.map_id rows]
    apply List.map_congr_left
    intro r hr
    conv => rhs; rw [id, ← List.map_id r]
    exact List.map_congr_left (fun v hv => h r hr v hv)
  simp only [this]

/-- **C75** Comparisons leave both operands as they are; so do the other operations if every element survives the
conversion to the type that is computed in.
Partial: other operands are changed for good (`C75_operand_changes`). -/
theorem C75_operands_partial (S : NpScalars α) (T : NpTypes α δ) (op : NpOp) (dtype : Option δ) (x y : NArr α δ) :
    (op.compares = true → (npBinary S T op dtype x y).left = x ∧ (npBinary S T op dtype x y).right = y)
    ∧ ((∀ r ∈ x.grid.rows, ∀ v ∈ r, T.cast (dtype.getD (T.common x.dt y.dt)) v = v) →
        (npBinary S T op dtype x y).left.grid = x.grid)
    ∧ ((∀ r ∈ y.grid.rows, ∀ v ∈ r, T.cast (dtype.getD (T.common x.dt y.dt)) v = v) →
        (npBinary S T op dtype x y).right.grid = y.grid) := by
  unfold npBinary
  cases hop : op.compares
  · refine ⟨fun h => (by cases h), fun h => ?_, fun h => ?_⟩
    · exact mapCells_fixed h
    · exact mapCells_fixed h
  · exact ⟨fun _ => ⟨rfl, rfl⟩, fun _ => rfl, fun _ => rfl⟩

/-- **C75** An operation with a scalar: the shape stays, every element is NumPy's, and the array is left as it
is.  (`dtype=` is not given; for `//` and `%` the scalar is a value of the array's type.) -/
theorem C75_scalar (S : NpScalars α) (T : NpTypes α δ) (L : S.Lawful T) (op : NpOp) (x : NArr α δ) (s : α)
    (ht : x.Typed T) (hs : op = .floordiv ∨ op = .mod → T.cast x.dt s = s) :
    (npScalar S T op none x s).2 = x
    ∧ (npScalar S T op none x s).1.shape = x.grid.shape
    ∧ ∀ i j, (npScalar S T op none x s).1.cell? i j = (x.grid.cell? i j).map (fun a => S.meaning op a s) := by
  have hfix : x.astype T x.dt = x := by
    unfold NArr.astype
    obtain ⟨g, d⟩ := x
    rw [mapCells_fixed ht]
  have hcell : ∀ i j v, x.grid.cell? i j = some v → T.cast x.dt v = v := by
    intro i j v h
    unfold cell? at h
    cases hr : x.grid.rows[i]? with
    | none => rw [hr] at h; cases h
    | some r =>
      rw [hr] at h
      exact ht r (List.mem_of_getElem? hr) v (List.mem_of_getElem? h)
  by_cases hf : op = .floordiv
  · subst hf
    have hsc := hs (Or.inl rfl)
    refine ⟨rfl, ?_, ?_⟩
    · unfold npScalar; dsimp only [Option.getD_none]
      split <;> rfl
    · intro i j
      unfold npScalar
      dsimp only [Option.getD_none, npFix]
      split
      · rename_i hz
        rw [Bool.and_eq_true] at hz
        refine (rowsAt_mapIdx _ (fun i j v => match x.grid.cell? i j with
          | some c => if S.isZero c then S.zero else if S.isInf v then S.zero else v
          | none => S.zero) i j).trans ?_
        have : rowsAt (x.grid.mapCells fun a => S.pdFloordiv a s).rows i j = (x.grid.cell? i j).map fun a => S.pdFloordiv a s :=
          mapCells_cell x.grid _ i j
        rw [this]
        cases hc : x.grid.cell? i j with
        | none => rfl
        | some a =>
          have e := hcell i j a hc
          have hz1 : S.isZero (T.cast x.dt s) = true := by rw [hsc]; exact hz.1
          have h0 := L.fd_zero x.dt hz.2 a s hz1
          rw [e, hsc] at h0
          have hinf := L.fd_inf x.dt hz.2 a s hz1
          rw [e, hsc] at hinf
          simp only [Option.map_some, NpScalars.meaning, h0, Option.some.injEq]
          cases hza : S.isZero a
          · rw [hza] at hinf
            simp [hinf rfl]
          · simp
      · rename_i hz
        refine (mapCells_cell x.grid _ i j).trans ?_
        cases hc : x.grid.cell? i j with
        | none => rfl
        | some a =>
          have e := hcell i j a hc
          simp only [Option.map_some, NpScalars.meaning, Option.some.injEq]
          cases hi : T.isInt x.dt
          · have := L.fd_float x.dt hi a s
            rwa [e, hsc] at this
          · have hz0 : S.isZero (T.cast x.dt s) = false := by
              rw [hsc]; cases h : S.isZero s
              · rfl
              · exact absurd (by rw [h, hi]; rfl) hz
            have := (L.fd_same x.dt hi a s hz0).1
            rwa [e, hsc] at this
  · by_cases hm : op = .mod
    · subst hm
      have hsc := hs (Or.inr rfl)
      have hg : x.grid.mapCells (T.cast x.dt) = x.grid := mapCells_fixed ht
      refine ⟨rfl, ?_, ?_⟩
      · unfold npScalar; dsimp only [Option.getD_none]
        split <;> rfl
      · intro i j
        unfold npScalar
        dsimp only [Option.getD_none, npFix]
        rw [hg]
        split
        · rename_i hz
          rw [Bool.and_eq_true] at hz
          refine (mapCells_cell _ _ i j).trans ?_
          rw [mapCells_cell]
          cases hc : x.grid.cell? i j with
          | none => rfl
          | some a =>
            have e := hcell i j a hc
            obtain ⟨h0, h1⟩ := L.mod_zero x.dt hz.2 a s (by rw [hsc]; exact hz.1)
            rw [e, hsc] at h0 h1
            simp [NpScalars.meaning, h0, h1]
        · rename_i hz
          refine (mapCells_cell x.grid _ i j).trans ?_
          cases hc : x.grid.cell? i j with
          | none => rfl
          | some a =>
            have e := hcell i j a hc
            simp only [Option.map_some, NpScalars.meaning, Option.some.injEq]
            cases hi : T.isInt x.dt
            · have := L.mod_float x.dt hi a s
              rwa [e, hsc] at this
            · have hz0 : S.isZero (T.cast x.dt s) = false := by
                rw [hsc]; cases h : S.isZero s
                · rfl
                · exact absurd (by rw [h, hi]; rfl) hz
              have := (L.mod_same x.dt hi a s hz0).1
              rwa [e, hsc] at this
    · have hdir : ∀ a b, op.direct S a b = S.meaning op a b := by
        intro a b
        cases op <;> first
          | rfl
          | exact L.add_comm _ _
          | exact L.mul_comm _ _
          | exact absurd rfl hf
          | exact absurd rfl hm
      have hgen : npScalar S T op none x s
          = if op.compares then (x.grid.mapCells fun a => op.direct S a s, x)
            else ({ (x.astype T x.dt).grid with rows := ((x.astype T x.dt).grid.mapCells fun a => op.direct S a s).rows }, x.astype T x.dt) := by
        cases op <;> first | rfl | exact absurd rfl hf | exact absurd rfl hm
      have hgen2 : npScalar S T op none x s = (x.grid.mapCells fun a => op.direct S a s, x) := by
        rw [hgen, hfix]
        split <;> rfl
      rw [hgen2]
      refine ⟨rfl, rfl, ?_⟩
      intro i j
      refine (mapCells_cell x.grid _ i j).trans ?_
      simp only [hdir]

/-! ## A concrete case: integers, floats (large integers lose their last bit), infinity and nan -/

inductive NV where
  | int (n : Int)
  | flt (n : Int)
  | inf
  | nan
  deriving Repr, DecidableEq

namespace NV

def lift (f : Int → Int → Int) : NV → NV → NV
  | int a, int b => int (f a b)
  | int a, flt b => flt (f a b)
  | flt a, int b => flt (f a b)
  | flt a, flt b => flt (f a b)
  | nan, _ => nan
  | _, nan => nan
  | _, _ => inf

def cmp (p : Int → Int → Bool) : NV → NV → NV
  | int a, int b | int a, flt b | flt a, int b | flt a, flt b => int (if p a b then 1 else 0)
  | _, _ => int 0

def fd (zero : NV) : NV → NV → NV
  | int a, int b => if b = 0 then zero else int (a.fdiv b)
  | int a, flt b | flt a, int b | flt a, flt b => if b = 0 then inf else flt (a.fdiv b)
  | _, _ => nan

def md (zero : NV) : NV → NV → NV
  | int a, int b => if b = 0 then zero else int (a.fmod b)
  | int a, flt b | flt a, int b | flt a, flt b => if b = 0 then nan else flt (a.fmod b)
  | _, _ => nan

/-- a float holds 53 bits -/
def round (n : Int) : Int := if n.natAbs ≤ 9007199254740992 then n else n / 2 * 2

def scalars : NpScalars NV where
  add := lift (· + ·)
  sub := lift (· - ·)
  mul := lift (· * ·)
  truediv := fd inf
  floordiv := fd (int 0)
  mod := md (int 0)
  pow := lift (fun a b => a ^ b.toNat)
  gt := cmp (fun a b => decide (b < a))
  ge := cmp (fun a b => decide (b ≤ a))
  lt := cmp (fun a b => decide (a < b))
  le := cmp (fun a b => decide (a ≤ b))
  eq := cmp (fun a b => a == b)
  ne := cmp (fun a b => a != b)
  pdFloordiv := fd inf
  pdMod := md nan
  nan := nan
  zero := int 0
  isNan := fun v => v == nan
  isInf := fun v => v == inf
  isZero := fun v => v == int 0 || v == flt 0

/-- `true` is the integer type -/
def types : NpTypes NV Bool where
  common := fun a b => a && b
  cast := fun d v => match d, v with
    | true, int n => int n
    | true, flt n => int n
    | true, _ => int 0
    | false, int n => flt (round n)
    | false, v => v
  isInt := fun d => d

theorem cast_int (v : NV) : ∃ n, types.cast true v = int n := by cases v <;> exact ⟨_, rfl⟩

theorem cast_flt (v : NV) : (∃ n, types.cast false v = flt n) ∨ types.cast false v = inf ∨ types.cast false v = nan := by
  cases v
  · exact Or.inl ⟨_, rfl⟩
  · exact Or.inl ⟨_, rfl⟩
  · exact Or.inr (Or.inl rfl)
  · exact Or.inr (Or.inr rfl)

theorem cmp_comm (p : Int → Int → Bool) (h : ∀ a b, p a b = p b a) (x y : NV) : cmp p x y = cmp p y x := by
  cases x <;> cases y <;> first | rfl | exact congrArg (fun t : Bool => int (if t then 1 else 0)) (h _ _)

theorem lawful : scalars.Lawful types where
  add_comm a b := by cases a <;> cases b <;> simp [scalars, lift, Int.add_comm]
  mul_comm a b := by cases a <;> cases b <;> simp [scalars, lift, Int.mul_comm]
  eq_comm := cmp_comm _ (fun _ _ => BEq.comm)
  ne_comm := cmp_comm _ (fun _ _ => congrArg not BEq.comm)
  gt_lt a b := by cases a <;> cases b <;> rfl
  ge_le a b := by cases a <;> cases b <;> rfl
  fd_zero d hd u v hz := by
    cases d
    · cases hd
    obtain ⟨m, hm⟩ := cast_int u; obtain ⟨n, hn⟩ := cast_int v
    rw [hn] at hz
    rw [hm, hn]
    simp [scalars] at hz
    simp [scalars, fd, hz]
  fd_inf d hd u v hz hu := by
    cases d
    · cases hd
    obtain ⟨m, hm⟩ := cast_int u; obtain ⟨n, hn⟩ := cast_int v
    rw [hn] at hz
    rw [hm, hn]
    simp [scalars] at hz
    simp [scalars, fd, hz]
  fd_same d hd u v hz := by
    cases d
    · cases hd
    obtain ⟨m, hm⟩ := cast_int u; obtain ⟨n, hn⟩ := cast_int v
    rw [hn] at hz
    rw [hm, hn]
    simp [scalars] at hz
    simp [scalars, fd, hz]
  mod_zero d hd u v hz := by
    cases d
    · cases hd
    obtain ⟨m, hm⟩ := cast_int u; obtain ⟨n, hn⟩ := cast_int v
    rw [hn] at hz
    rw [hm, hn]
    simp [scalars] at hz
    simp [scalars, md, hz]
  mod_same d hd u v hz := by
    cases d
    · cases hd
    obtain ⟨m, hm⟩ := cast_int u; obtain ⟨n, hn⟩ := cast_int v
    rw [hn] at hz
    rw [hm, hn]
    simp [scalars] at hz
    simp [scalars, md, hz]
  fd_float d hd u v := by
    cases d
    · rcases cast_flt u with ⟨m, hm⟩ | hm | hm <;> rcases cast_flt v with ⟨n, hn⟩ | hn | hn <;> rw [hm, hn] <;> rfl
    · cases hd
  mod_float d hd u v := by
    cases d
    · rcases cast_flt u with ⟨m, hm⟩ | hm | hm <;> rcases cast_flt v with ⟨n, hn⟩ | hn | hn <;> rw [hm, hn] <;> rfl
    · cases hd

/-- an integer array with two dimensions -/
def mat (rows : List (List Int)) : NArr NV Bool :=
  ⟨⟨true, rows.length, (rows.headD []).length, rows.map (·.map int)⟩, true⟩

/-- an integer array with one dimension -/
def vec (v : List Int) : NArr NV Bool := ⟨⟨false, v.length, 1, v.map fun n => [int n]⟩, true⟩

end NV

open NV

/-- the result of `x op y`, as NumPy array -/
def npShow (op : NpOp) (x y : NArr NV Bool) : Option (NpVal NV) := (npBinary scalars types op none x y).result.map NGrid.val

/-- `[10, 20] - [[1, 2], [3, 4]]` meets the hypotheses of `C75_result_partial` and `C75_supported_partial`; the operands are exchanged
and the result is NumPy's -/
example : npShow .sub (vec [10, 20]) (mat [[1, 2], [3, 4]]) = some (.mat 2 2 [[int 9, int 18], [int 7, int 16]])
    ∧ (mat [[1, 2], [3, 4]]).grid.WF ∧ (vec [10, 20]).grid.WF
    ∧ NpSupported .sub (vec [10, 20]).grid (mat [[1, 2], [3, 4]]).grid := by
  refine ⟨by decide +kernel, ⟨rfl, by decide, by decide⟩, ⟨rfl, by decide, by decide⟩, Or.inr (Or.inr (Or.inl ⟨rfl, rfl, rfl, by decide, by decide, by decide⟩))⟩

/-- `[[7, 8], [9, 10]] // [[2, 0], [3, 0]]`: NumPy's zero for a division by zero -/
example : npShow .floordiv (mat [[7, 8], [9, 10]]) (mat [[2, 0], [3, 0]]) = some (.mat 2 2 [[int 3, int 0], [int 3, int 0]]) := by
  decide +kernel

/-- `[[1, 2], [3, 4]] - [[10], [20]]` -/
example : npShow .sub (mat [[1, 2], [3, 4]]) (mat [[10], [20]]) = some (.mat 2 2 [[int (-9), int (-8)], [int (-17), int (-16)]]) := by
  decide +kernel

/-- `[7, 8] // 0`, `5 - [7, 8]` meet the hypotheses of `C75_scalar` -/
example : (npScalar scalars types .floordiv none (vec [7, 8]) (int 0)).1.val = .vec [int 0, int 0]
    ∧ (npScalar scalars types .rsub none (vec [7, 8]) (int 5)).1.val = .vec [int (-2), int (-3)]
    ∧ (vec [7, 8]).Typed types := by
  refine ⟨by decide +kernel, by decide +kernel, ?_⟩
  intro r hr v hv
  simp [vec] at hr
  rcases hr with rfl | rfl <;> simp at hv <;> subst hv <;> rfl

/-- shapes `(2,)` and `(2, 3)` do not go together -/
example : ¬ Broadcastable (vec [1, 2]).grid.val (mat [[1, 2, 3], [4, 5, 6]]).grid.val := by unfold Broadcastable; decide

/-- the operands of `[1, 2] + [3, 4]` are not changed: the hypotheses of `C75_operands_partial` -/
example : ∀ r ∈ (vec [1, 2]).grid.rows, ∀ v ∈ r, types.cast (types.common (vec [1, 2]).dt (vec [3, 4]).dt) v = v := by
  intro r hr v hv
  simp [vec] at hr
  rcases hr with rfl | rfl <;> simp at hv <;> subst hv <;> rfl

/-! ## Where the code is not NumPy -/

/-- **C75 fails** for a row with two dimensions: `[[1, 2]] + [[10, 20], [30, 40]]` gives `nan` in the second row,
NumPy `[31, 42]`. -/
theorem C75_one_row :
    npShow .add (mat [[1, 2]]) (mat [[10, 20], [30, 40]]) = some (.mat 2 2 [[int 11, int 22], [nan, nan]])
    ∧ Broadcasts scalars.add (mat [[1, 2]]).grid.val (mat [[10, 20], [30, 40]]).grid.val
        (.mat 2 2 [[int 11, int 22], [int 31, int 42]]) := by
  refine ⟨by decide +kernel, ⟨rfl, ⟨rfl, by decide⟩, rfl, rfl, ?_⟩⟩
  intro i hi j hj
  replace hi : i < 2 := hi
  replace hj : j < 2 := hj
  have hi' : i = 0 ∨ i = 1 := by omega
  have hj' : j = 0 ∨ j = 1 := by omega
  rcases hi' with rfl | rfl <;> rcases hj' with rfl | rfl <;> exact ⟨_, _, rfl, rfl, rfl⟩

/-- **C75 fails** for `//` of integer arrays of different shapes: `[[4, 6], [8, 10]] // [2, 2]` is `[[2, 0], [4, 0]]`, since
positions that the divisor does not have are filled with zero. -/
theorem C75_floor_divide :
    npShow .floordiv (mat [[4, 6], [8, 10]]) (vec [2, 2]) = some (.mat 2 2 [[int 2, int 0], [int 4, int 0]])
    ∧ Broadcasts scalars.floordiv (mat [[4, 6], [8, 10]]).grid.val (vec [2, 2]).grid.val
        (.mat 2 2 [[int 2, int 3], [int 4, int 5]]) := by
  refine ⟨by decide +kernel, ⟨rfl, ⟨rfl, by decide⟩, rfl, rfl, ?_⟩⟩
  intro i hi j hj
  replace hi : i < 2 := hi
  replace hj : j < 2 := hj
  have hi' : i = 0 ∨ i = 1 := by omega
  have hj' : j = 0 ∨ j = 1 := by omega
  rcases hi' with rfl | rfl <;> rcases hj' with rfl | rfl <;> exact ⟨_, _, rfl, rfl, rfl⟩

/-- A column on the left, `[[1], [2]] + [[10, 20], [30, 40]]`, raises an `AssertionError`, though NumPy combines the two. -/
theorem C75_column_left :
    npShow .add (mat [[1], [2]]) (mat [[10, 20], [30, 40]]) = none
    ∧ Broadcastable (mat [[1], [2]]).grid.val (mat [[10, 20], [30, 40]]).grid.val := by
  unfold Broadcastable; decide +kernel

/-- An array with one element, `[1] + [10, 20, 30]`, raises an `IndexError`, though NumPy combines the two. -/
theorem C75_length_one :
    npShow .add (vec [1]) (vec [10, 20, 30]) = none
    ∧ Broadcastable (vec [1]).grid.val (vec [10, 20, 30]).grid.val := by
  unfold Broadcastable; decide +kernel

/-- A column and a row, `[[1], [2]] + [10, 20, 30]` and `[[1], [2]] + [[10, 20, 30]]`, raise a `ValueError`. -/
theorem C75_column_and_row :
    npShow .add (mat [[1], [2]]) (vec [10, 20, 30]) = none
    ∧ npShow .add (mat [[1], [2]]) (mat [[10, 20, 30]]) = none
    ∧ Broadcastable (mat [[1], [2]]).grid.val (vec [10, 20, 30]).grid.val
    ∧ Broadcastable (mat [[1], [2]]).grid.val (mat [[10, 20, 30]]).grid.val := by
  unfold Broadcastable; decide +kernel

/-- **C75 fails** for the operands: after `x + y`, where `x` is `[2**53 + 1]` and `y` the float array `[0.0]`, `x` itself is
`[2**53]`: its elements have been converted to floats for good. -/
theorem C75_operand_changes :
    (vec [9007199254740993]).grid.val = .vec [int 9007199254740993]
    ∧ (npBinary scalars types .add none (vec [9007199254740993]) ⟨⟨false, 1, 1, [[flt 0]]⟩, false⟩).left.grid.val
        = .vec [flt 9007199254740992] := by decide +kernel
