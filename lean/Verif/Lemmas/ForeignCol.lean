import Verif.Model.ForeignCol
import Verif.Lemmas.Interchange
/-
Lemmas about reading foreign columns.
-/

variable {α β : Type}

theorem map_range_add (a b : Nat) (g : Nat → β) :
    (List.range (a + b)).map g = (List.range a).map g ++ (List.range b).map fun i => g (a + i) := by
  rw [List.range_add, List.map_append, List.map_map]; rfl

theorem flatMap_range_bytes (h : Nat → Nat → β) (q : Nat) :
    (List.range q).flatMap (fun i => (List.range 8).map (h i)) = (List.range (8 * q)).map fun k => h (k / 8) (k % 8) := by
  induction q with
  | zero => rfl
  | succ q ih =>
    rw [List.range_succ (n := q), List.flatMap_append, ih, Nat.mul_succ, map_range_add]
    congr 1
    simp only [List.flatMap_cons, List.flatMap_nil, List.append_nil]
    apply List.map_congr_left
    intro j hj
    rw [List.mem_range] at hj
    rw [show (8 * q + j) / 8 = q by omega, show (8 * q + j) % 8 = j by omega]

theorem mapM_getElem_map (l : List β) (q : Nat) (h : q + 1 ≤ l.length ∨ q = 0) (d : β) :
    (List.range q).mapM (fun i => l[i + 1]?) = some ((List.range q).map fun i => (l[i + 1]?).getD d) := by
  have := mapM_map_some (fun i => l[i + 1]?) id (fun i => (l[i + 1]?).getD d) (List.range q) ?_
  · simpa using this
  intro i hi
  rw [List.mem_range] at hi
  rw [id, List.getElem?_eq_getElem (by omega)]
  rfl

/-- When the array is neither empty nor too short, and the bits after the last whole byte come from its last byte, or there are none. -/
def BitsOk (f size len : Nat) : Prop :=
  1 ≤ len ∧ (f + size + 7) / 8 ≤ len ∧ ((f + size) % 8 = 0 ∨ f + size ≤ 8 ∨ len = (f + size + 7) / 8)

instance (f size len : Nat) : Decidable (BitsOk f size len) := by unfold BitsOk; infer_instance

theorem bitmaskToBool_spec (bm : List Nat) (f size : Nat) (hf : f < 8) (h : BitsOk f size bm.length) :
    bitmaskToBool bm size f = some ((List.range size).map fun i => ((bm[(f + i) / 8]?).getD 0).testBit ((f + i) % 8)) := by
  obtain ⟨h1, h2, h3⟩ := h
  unfold bitmaskToBool
  rw [Nat.div_eq_of_lt hf, Nat.mod_eq_of_lt hf]
  simp only [List.drop_zero]
  rw [List.getElem?_eq_getElem (by omega : 0 < bm.length), Option.bind_some, mapM_getElem_map _ _ (by omega) 0, Option.bind_some]
  congr 1
  have hsz : size = (min (8 - f) size + 8 * ((size - min (8 - f) size) / 8)) +
      (size - (min (8 - f) size + 8 * ((size - min (8 - f) size) / 8))) := by omega
  conv => rhs; rw [hsz]
  rw [map_range_add, map_range_add]
  congr 1
  · congr 1
    · apply List.map_congr_left
      intro j hj
      rw [List.mem_range] at hj
      rw [show (f + j) / 8 = 0 by omega, show (f + j) % 8 = j + f by omega, List.getElem?_eq_getElem (by omega : 0 < bm.length)]
      rfl
    · rw [List.flatMap_map, flatMap_range_bytes (fun i j => ((bm[i + 1]?).getD 0).testBit j)]
      apply List.map_congr_left
      intro k hk
      rw [List.mem_range] at hk
      rw [show (f + (min (8 - f) size + k)) / 8 = k / 8 + 1 by omega, show (f + (min (8 - f) size + k)) % 8 = k % 8 by omega]
  · apply List.map_congr_left
    intro j hj
    rw [List.mem_range] at hj
    have hlen : bm.length = (f + size + 7) / 8 := by omega
    rw [if_pos (by omega), List.getLastD_eq_getLast?, List.getLast?_eq_getElem?]
    rw [show (f + (min (8 - f) size + 8 * ((size - min (8 - f) size) / 8) + j)) / 8 = bm.length - 1 by omega,
      show (f + (min (8 - f) size + 8 * ((size - min (8 - f) size) / 8) + j)) % 8 = j by omega]

theorem readBits_spec (b : Buf Nat) (offset size : Nat) (h : BitsOk (offset % 8) size b.len) :
    b.readBits offset size = some ((List.range size).map fun i => b.bit (offset + i)) := by
  unfold Buf.readBits
  rw [bitmaskToBool_spec _ _ _ (Nat.mod_lt _ (by decide)) (by rw [List.length_map, List.length_range]; exact h)]
  congr 1
  apply List.map_congr_left
  intro i hi
  rw [List.mem_range] at hi
  obtain ⟨h1, h2, h3⟩ := h
  unfold Buf.bit
  rw [List.getElem?_map, List.getElem?_range (by omega)]
  simp only [Option.map_some, Option.getD_some]
  rw [show offset / 8 + (offset % 8 + i) / 8 = (offset + i) / 8 by omega, show (offset % 8 + i) % 8 = (offset + i) % 8 by omega]

theorem mapM_congr_mem {A B : Type} {f g : A → Option B} {l : List A} (h : ∀ x ∈ l, f x = g x) : l.mapM f = l.mapM g := by
  induction l with
  | nil => rfl
  | cons x xs ih =>
    rw [List.mapM_cons, List.mapM_cons, h x (List.mem_cons_self ..), ih fun y hy => h y (List.mem_cons_of_mem _ hy)]

theorem zipWith_map_range (n : Nat) (f : α → Bool → β) (g : Nat → α) (h : Nat → Bool) :
    List.zipWith f ((List.range n).map g) ((List.range n).map h) = (List.range n).map fun i => f (g i) (h i) := by
  rw [List.zipWith_map]
  apply List.ext_getElem?
  intro i
  rw [List.getElem?_zipWith, List.getElem?_map]
  cases (List.range n)[i]? <;> rfl

/-! ### Columns of numbers -/

/-- the array of the data has as many elements as the column -/
def DataBuf.Exact (offset size : Nat) : DataBuf α → Prop
  | .elems b => b.len = size
  | .bits b => BitsOk (offset % 8) size b.len

/-- the mask has as many elements as the column; a byte mask with 1 for missing values has the dtype `bool` -/
def NullDesc.Exact (offset size : Nat) : NullDesc α → Prop
  | .bitmask b _ => BitsOk (offset % 8) size b.len
  | .bytemask b isBool nullIsOne => b.len = size ∧ (nullIsOne = true → isBool = true)
  | _ => True

theorem dataRead_spec (tt ff : α) (offset size : Nat) (d : DataBuf α) (h : d.Exact offset size) :
    d.read tt ff offset size = some ((List.range size).map fun i => d.at tt ff (offset + i)) := by
  cases d with
  | elems b => cases h; rfl
  | bits b =>
    rw [DataBuf.read, readBits_spec b offset size h, Option.map_some, List.map_map]
    rfl

theorem positions_spec (tt ff : α) (c : ForeignCol α) (h : c.null.Exact c.offset c.size) :
    (c.null.positions c.offset c.size ((List.range c.size).map fun i => c.data.at tt ff (c.offset + i)) = some none ∧
      ∀ i, c.null.isNull (c.data.at tt ff (c.offset + i)) (c.offset + i) = false) ∨
    c.null.positions c.offset c.size ((List.range c.size).map fun i => c.data.at tt ff (c.offset + i)) =
      some (some (.bools ((List.range c.size).map fun i => c.null.isNull (c.data.at tt ff (c.offset + i)) (c.offset + i)))) := by
  obtain ⟨offset, size, data, null⟩ := c
  cases null with
  | nonNullable => exact Or.inl ⟨rfl, fun _ => rfl⟩
  | useNan => exact Or.inl ⟨rfl, fun _ => rfl⟩
  | sentinel is => right; simp only [NullDesc.positions, List.map_map]; rfl
  | bitmask b one =>
    right
    simp only [NullDesc.positions]
    rw [readBits_spec b offset size h, Option.map_some]
    cases one with
    | true => simp [NullDesc.isNull]
    | false => simp [NullDesc.isNull]
  | bytemask b isBool one =>
    right
    obtain ⟨hl, hb⟩ := h
    simp only at hl hb
    cases one with
    | true =>
      rw [hb rfl]
      simp only [NullDesc.positions, if_true, Buf.read, List.map_map, hl]
      congr 3
      apply List.map_congr_left
      intro i _
      simp [NullDesc.isNull]
    | false =>
      simp only [NullDesc.positions, Buf.read, List.map_map, hl]
      rw [if_neg (by simp)]
      congr 3
      apply List.map_congr_left
      intro i _
      by_cases hz : b.mem (offset + i) = 0 <;> simp [NullDesc.isNull, bne, hz]

theorem setNulls_spec (kind : NoneInto) (toFloat : α → α) (nan ff : α) (n : Nat) (g : Nat → α) (h : Nat → Bool)
    (hk : kind = .missing ∨ (kind = .typeError ∧ ∀ i, i < n → h i = false → toFloat (g i) = g i) ∨ ∀ i, i < n → h i = false) :
    setNulls kind toFloat nan ff ((List.range n).map g) (some (.bools ((List.range n).map h))) =
      some ((List.range n).map fun i => if h i then nan else g i) := by
  rw [setNulls]
  by_cases ha : NullPos.any (.bools ((List.range n).map h)) = true
  · rw [if_pos ha]
    rcases hk with rfl | ⟨rfl, ht⟩ | hn
    · simp only [assignNone, assignAt, List.length_map, if_true]
      rw [zipWith_map_range]
    · simp only [assignNone, assignAt, List.length_map, if_true, List.map_map]
      rw [zipWith_map_range]
      congr 1
      apply List.map_congr_left
      intro i hi
      rw [List.mem_range] at hi
      cases hh : h i with
      | true => rfl
      | false => simp only [Function.comp]; exact ht i hi hh
    · simp only [NullPos.any, List.any_map, List.any_eq_true, List.mem_range] at ha
      obtain ⟨i, hi, hc⟩ := ha
      rw [Function.comp, hn i hi] at hc
      exact absurd hc (by simp)
  · rw [if_neg ha]
    congr 1
    apply List.map_congr_left
    intro i hi
    rw [if_neg]
    intro hc
    apply ha
    simp only [NullPos.any, List.any_map, List.any_eq_true]
    exact ⟨i, hi, hc⟩

theorem foreignRead_spec (kind : NoneInto) (toFloat : α → α) (nan tt ff : α) (c : ForeignCol α)
    (hd : c.data.Exact c.offset c.size) (hn : c.null.Exact c.offset c.size)
    (hk : kind = .missing ∨
      (kind = .typeError ∧ ∀ i, i < c.size → c.null.isNull (c.data.at tt ff (c.offset + i)) (c.offset + i) = false →
        toFloat (c.data.at tt ff (c.offset + i)) = c.data.at tt ff (c.offset + i)) ∨
      ∀ i, i < c.size → c.null.isNull (c.data.at tt ff (c.offset + i)) (c.offset + i) = false) :
    c.read kind toFloat nan tt ff = some (c.cells nan tt ff) := by
  unfold ForeignCol.read
  rw [dataRead_spec tt ff _ _ _ hd, Option.bind_some]
  rcases positions_spec tt ff c hn with ⟨hp, hf⟩ | hp
  · rw [hp, Option.bind_some, setNulls]
    congr 1
    apply List.map_congr_left
    intro i _
    rw [hf i]; rfl
  · rw [hp, Option.bind_some]
    exact setNulls_spec kind toFloat nan ff c.size _ _ hk

theorem foldl_set_length (ns : List Nat) (v : α) (data : List α) : (ns.foldl (fun d n => d.set n v) data).length = data.length := by
  induction ns generalizing data with
  | nil => rfl
  | cons n ns ih => rw [List.foldl_cons, ih, List.length_set]

theorem assignAt_length (data : List α) (v : α) (p : NullPos) (r : List α) (h : assignAt data v p = some r) : r.length = data.length := by
  cases p with
  | bools bs =>
    rw [assignAt] at h
    split at h
    · next hl => cases h; rw [List.length_zipWith, hl, Nat.min_self]
    · cases h
  | ints ns =>
    rw [assignAt] at h
    split at h
    · cases h
      exact foldl_set_length ns v data
    · cases h

theorem setNulls_length (kind : NoneInto) (toFloat : α → α) (nan ff : α) (data : List α) (p : Option NullPos) (r : List α)
    (h : setNulls kind toFloat nan ff data p = some r) : r.length = data.length := by
  cases p with
  | none => cases h; rfl
  | some p =>
    rw [setNulls] at h
    split at h
    · cases kind with
      | missing => exact assignAt_length _ _ _ _ h
      | typeError => exact (assignAt_length _ _ _ _ h).trans (List.length_map _)
      | false => exact assignAt_length _ _ _ _ h
    · cases h; rfl

theorem foreignRead_length (kind : NoneInto) (toFloat : α → α) (nan tt ff : α) (c : ForeignCol α) (b : Buf α) (hb : c.data = .elems b)
    (r : List α) (h : c.read kind toFloat nan tt ff = some r) : r.length = b.len := by
  unfold ForeignCol.read at h
  rw [hb, DataBuf.read, Option.bind_some] at h
  obtain ⟨p, _, h⟩ := Option.bind_eq_some_iff.1 h
  rw [setNulls_length _ _ _ _ _ _ _ h, Buf.read, List.length_map, List.length_range]

theorem setNulls_nothing (kind : NoneInto) (toFloat : α → α) (nan ff : α) (data : List α) (bs : List Bool) (h : ∀ b ∈ bs, b = false) :
    setNulls kind toFloat nan ff data (some (.bools bs)) = some data := by
  rw [setNulls, if_neg]
  simp only [NullPos.any, List.any_eq_true, not_exists, not_and]
  intro b hb
  rw [h b hb]; simp

theorem memAfter_spec (kind : NoneInto) (toFloat : α → α) (nan tt ff : α) (c : ForeignCol α) (b : Buf α) (hb : c.data = .elems b)
    (hl : b.len = c.size) (hn : c.null.Exact c.offset c.size)
    (hk : kind = .typeError ∨ ∀ i, i < c.size → c.null.isNull (b.mem (c.offset + i)) (c.offset + i) = false) :
    c.memAfter kind toFloat nan tt ff b = some b.mem := by
  have hread : b.read c.offset = (List.range c.size).map fun i => c.data.at tt ff (c.offset + i) := by rw [hb, Buf.read, hl]; rfl
  have hsame : ∀ data, data = b.read c.offset →
      (fun j => if j < c.offset then b.mem j else (data[j - c.offset]?).getD (b.mem j)) = b.mem := by
    intro data hd
    funext j
    split
    · rfl
    · next hj =>
      rw [hd, Buf.read, List.getElem?_map]
      by_cases hlt : j - c.offset < b.len
      · rw [List.getElem?_range hlt]
        simp only [Option.map_some, Option.getD_some]
        congr 1; omega
      · rw [List.getElem?_eq_none (by rw [List.length_range]; omega)]; rfl
  unfold ForeignCol.memAfter
  rcases hk with rfl | hk
  · rw [hread]
    rcases positions_spec tt ff c hn with ⟨hp, _⟩ | hp
    · rw [hp, Option.bind_some, setNulls]; rfl
    · rw [hp, Option.bind_some, setNulls]
      by_cases ha : NullPos.any (.bools ((List.range c.size).map fun i =>
          c.null.isNull (c.data.at tt ff (c.offset + i)) (c.offset + i))) = true
      · rw [if_pos ha]; simp [assignNone, assignAt]
      · rw [if_neg ha]; rfl
  · have hset : ∃ p, c.null.positions c.offset c.size (b.read c.offset) = some p ∧
        setNulls kind toFloat nan ff (b.read c.offset) p = some (b.read c.offset) := by
      rw [hread]
      rcases positions_spec tt ff c hn with ⟨hp, _⟩ | hp
      · exact ⟨_, hp, rfl⟩
      · refine ⟨_, hp, setNulls_nothing _ _ _ _ _ _ ?_⟩
        intro x hx
        obtain ⟨i, hi, rfl⟩ := List.mem_map.1 hx
        rw [List.mem_range] at hi
        rw [hb]; exact hk i hi
    obtain ⟨p, hp, hs⟩ := hset
    rw [hp, Option.bind_some, hs, Option.map_some]
    congr 1
    cases kind with
    | typeError => rfl
    | missing => exact hsame _ rfl
    | false => exact hsame _ rfl

/-! ### Columns of strings -/

theorem read_between (d : Buf Nat) (a b : Nat) (h : b ≤ d.len) : pySlice (d.read 0) a b = d.between a b := by
  apply List.ext_getElem?
  intro i
  unfold pySlice Buf.read Buf.between
  by_cases hi : i < b - a
  · simp [List.getElem?_take, List.getElem?_drop, hi, List.getElem?_range, show a + i < d.len by omega, show a + i < b by omega]
  · rw [List.getElem?_eq_none, List.getElem?_eq_none]
    · simp; omega
    · simp; omega

/-- the mask covers the column -/
def NullDesc.Covers (offset size : Nat) : NullDesc α → Prop
  | .nonNullable => True
  | .bitmask b _ => BitsOk (offset % 8) size b.len
  | .bytemask b _ _ => size ≤ b.len
  | _ => False

theorem foreignStr_spec (u : Utf8 α) (nan : α) (c : ForeignStr α) (hn : c.null.Covers c.offset c.size) (ho : c.size + 1 ≤ c.offs.len)
    (hd : ∀ i, i < c.size → c.offs.mem (c.offset + i + 1) ≤ c.bytes.len) : c.read u nan = c.cells u nan := by
  have hstr : c.null.forStrings = true := by
    revert hn; cases c.null <;> simp [NullDesc.Covers, NullDesc.forStrings]
  have hpos : ∃ p, c.null.positions c.offset c.size [] = some p ∧
      ∀ i, i < c.size → NullPos.marked i p = some (c.null.isNull nan (c.offset + i)) := by
    revert hn hstr
    cases c.null with
    | nonNullable => intro _ _; exact ⟨_, rfl, fun _ _ => rfl⟩
    | useNan => intro h; exact h.elim
    | sentinel is => intro h; exact h.elim
    | bitmask b one =>
      intro h _
      rw [NullDesc.positions, readBits_spec b _ _ h, Option.map_some]
      refine ⟨_, rfl, fun i hi => ?_⟩
      cases one with
      | true => simp [NullPos.marked, List.getElem?_range, hi, NullDesc.isNull]
      | false =>
        simp only [NullPos.marked, NullDesc.isNull]
        rw [if_neg (by simp), List.map_map, List.getElem?_map, List.getElem?_range hi]
        simp
    | bytemask b isBool one =>
      intro h _
      have h : c.size ≤ b.len := h
      cases one <;> cases isBool <;>
        refine ⟨_, rfl, fun i hi => ?_⟩ <;>
        simp [NullPos.marked, Buf.read, List.getElem?_range (show i < b.len by omega), NullDesc.isNull]
      all_goals (by_cases hz : b.mem (c.offset + i) = 0 <;> simp [hz, bne])
  obtain ⟨p, hp, hm⟩ := hpos
  unfold ForeignStr.read ForeignStr.cells
  rw [if_pos hstr, hp, Option.bind_some]
  apply mapM_congr_mem
  intro i hi
  rw [List.mem_range] at hi
  rw [hm i hi, Option.bind_some]
  split
  · rfl
  · rw [Buf.read, List.getElem?_map, List.getElem?_map, List.getElem?_range (by omega), List.getElem?_range (by omega)]
    simp only [Option.map_some, Option.bind_some]
    rw [read_between _ _ _ (by have := hd i hi; rwa [Nat.add_assoc] at this)]
    rfl
