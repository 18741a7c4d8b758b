import Verif.Lemmas.ForeignCol
/-
C70: the columns another library hands over through the interchange protocol.
-/

variable {α : Type}

/-- C70, columns of numbers, booleans and dates: the array that is read is what the column holds, its missing values included, however
    they are marked.
    Asked for: the array made from the data buffer has the size of the column (`DataBuf.Exact`), so has the mask (`NullDesc.Exact`, where a
    bit mask may be longer if the column ends with a byte); `data[mask] = None` makes a missing value, or the numbers can be converted to
    floats, or nothing is missing.
    What is missing for the full property: `C70_sliced`, `C70_padded_mask`, `C70_uint8_mask`, `C70_missing_boolean`, `C70_empty_mask`. -/
theorem C70_foreign_column_partial (kind : NoneInto) (toFloat : α → α) (nan tt ff : α) (c : ForeignCol α)
    (hd : c.data.Exact c.offset c.size) (hn : c.null.Exact c.offset c.size)
    (hk : kind = .missing ∨
      (kind = .typeError ∧ ∀ i, i < c.size → c.null.isNull (c.data.at tt ff (c.offset + i)) (c.offset + i) = false →
        toFloat (c.data.at tt ff (c.offset + i)) = c.data.at tt ff (c.offset + i)) ∨
      ∀ i, i < c.size → c.null.isNull (c.data.at tt ff (c.offset + i)) (c.offset + i) = false) :
    c.read kind toFloat nan tt ff = some (c.cells nan tt ff) :=
  foreignRead_spec kind toFloat nan tt ff c hd hn hk

/-- eleven integers, the first and the tenth missing according to a bit mask of two bytes -/
def elevenInts : ForeignCol Int :=
  ForeignCol.mk 0 11 (.elems (Buf.mk (fun i => 10 * i) 11)) (.bitmask (Buf.mk (fun i => if i = 0 then 254 else if i = 1 then 5 else 77) 2) false)

example : elevenInts.read .typeError id (-1) 1 0 = some (elevenInts.cells (-1) 1 0) :=
  C70_foreign_column_partial .typeError id (-1) 1 0 elevenInts rfl (by unfold elevenInts; exact (by decide : BitsOk 0 11 2))
    (Or.inr (Or.inl ⟨rfl, fun _ _ _ => rfl⟩))

example : elevenInts.cells (-1) 1 0 = [-1, 10, 20, 30, 40, 50, 60, 70, 80, -1, 100] := by decide +kernel

/-- nine booleans of one bit that begin with the third bit of their buffer -/
def nineBits : ForeignCol Int :=
  ForeignCol.mk 2 9 (.bits (Buf.mk (fun i => if i = 0 then 0b10110111 else if i = 1 then 0b110 else 255) 2)) .nonNullable

example : nineBits.read .false id (-1) 1 0 = some (nineBits.cells (-1) 1 0) :=
  C70_foreign_column_partial .false id (-1) 1 0 nineBits (by unfold nineBits; exact (by decide : BitsOk 2 9 2)) trivial
    (Or.inr (Or.inr fun _ _ => rfl))

example : nineBits.cells (-1) 1 0 = [1, 0, 1, 1, 0, 1, 0, 1, 1] := by decide +kernel

/-- C70 fails for every slice: when the data buffer holds more elements than the column (the column begins further on or ends earlier),
    whatever is read is not what the column holds — it is as long as the buffer. -/
theorem C70_sliced (kind : NoneInto) (toFloat : α → α) (nan tt ff : α) (c : ForeignCol α) (b : Buf α) (hb : c.data = .elems b)
    (hl : c.size < b.len) (r : List α) (h : c.read kind toFloat nan tt ff = some r) :
    r.length = b.len ∧ r ≠ c.cells nan tt ff := by
  have hr := foreignRead_length kind toFloat nan tt ff c b hb r h
  refine ⟨hr, fun he => ?_⟩
  rw [he, ForeignCol.cells, List.length_map, List.length_range] at hr
  omega

/-- three numbers out of five, from the second on: five are read, the last one (77) from memory that does not belong to the buffer -/
def sliced : ForeignCol Int := ForeignCol.mk 1 3 (.elems (Buf.mk (fun i => if i < 5 then i else 77) 5)) .nonNullable

example : sliced.read .missing id (-1) 1 0 = some [1, 2, 3, 4, 77] ∧ sliced.cells (-1) 1 0 = [1, 2, 3] := by decide +kernel

/-- C70 fails for a bit mask with room at its end: the ninth value is there, its bit is read from the last byte of the buffer. -/
theorem C70_padded_mask : ∃ c : ForeignCol Int, c.data.Exact c.offset c.size ∧
    c.read .missing id (-1) 1 0 = some [0, 1, 2, 3, 4, 5, 6, 7, -1] ∧ c.cells (-1) 1 0 = [0, 1, 2, 3, 4, 5, 6, 7, 8] :=
  ⟨ForeignCol.mk 0 9 (.elems (Buf.mk (fun i => i) 9)) (.bitmask (Buf.mk (fun i => if i = 0 then 255 else if i = 1 then 1 else 0) 3) false),
    rfl, by decide +kernel, by decide +kernel⟩

/-- C70 fails for a byte mask of the dtype `uint8` with 1 for a missing value: its zeros and ones are taken for positions. -/
theorem C70_uint8_mask : ∃ c : ForeignCol Int, c.data.Exact c.offset c.size ∧
    c.read .missing id (-1) 1 0 = some [-1, -1, 7] ∧ c.cells (-1) 1 0 = [5, 6, -1] :=
  ⟨ForeignCol.mk 0 3 (.elems (Buf.mk (fun i => 5 + i) 3)) (.bytemask (Buf.mk (fun i => if i = 2 then 1 else 0) 3) false true),
    rfl, by decide +kernel, by decide +kernel⟩

/-- C70 fails for booleans: a missing one becomes `False`. -/
theorem C70_missing_boolean : ∃ c : ForeignCol Int, c.data.Exact c.offset c.size ∧ c.null.Exact c.offset c.size ∧
    c.read .false id (-1) 1 0 = some [1, 0, 1] ∧ c.cells (-1) 1 0 = [1, -1, 1] :=
  ⟨ForeignCol.mk 0 3 (.elems (Buf.mk (fun _ => 1) 3)) (.bytemask (Buf.mk (fun i => if i = 1 then 0 else 1) 3) true false),
    rfl, ⟨rfl, by decide⟩, by decide +kernel, by decide +kernel⟩

/-- C70 fails for a column of no elements with a bit mask of no bytes: it raises. -/
theorem C70_empty_mask : ∃ c : ForeignCol Int, c.data.Exact c.offset c.size ∧
    c.read .missing id (-1) 1 0 = none ∧ c.cells (-1) 1 0 = [] :=
  ⟨ForeignCol.mk 0 0 (.elems (Buf.mk (fun i => i) 0)) (.bitmask (Buf.mk (fun _ => 0) 0) false), rfl, by decide +kernel, by decide +kernel⟩

/-- C70, columns of strings: the strings that are read are those of the column, from whatever place of the buffers it begins.
    Asked for: the mask covers the column (`NullDesc.Covers`), the table of offsets has an entry more than the column and stays within the
    bytes. -/
theorem C70_foreign_strings (u : Utf8 α) (nan : α) (c : ForeignStr α) (hn : c.null.Covers c.offset c.size) (ho : c.size + 1 ≤ c.offs.len)
    (hd : ∀ i, i < c.size → c.offs.mem (c.offset + i + 1) ≤ c.bytes.len) : c.read u nan = c.cells u nan :=
  foreignStr_spec u nan c hn ho hd

/-- strings for examples: the bytes of a string are its only byte, 0 is a missing value -/
def oneByte : Utf8 Nat where
  enc a := if a = 0 then none else some [a]
  dec b := match b with | [a] => some a | _ => none
  dec_enc := by intro a b h; by_cases ha : a = 0 <;> simp [ha] at h; rw [← h]

/-- two strings out of four, from the second on; the second of them is missing -/
def twoStrings : ForeignStr Nat :=
  ForeignStr.mk 1 2 (Buf.mk (fun i => 65 + i) 4) (Buf.mk (fun i => i) 5) (.bytemask (Buf.mk (fun i => if i = 2 then 1 else 0) 4) false true)

example : twoStrings.read oneByte 0 = twoStrings.cells oneByte 0 :=
  C70_foreign_strings oneByte 0 twoStrings (by unfold twoStrings; exact (by decide : 2 ≤ 4)) (by decide) (by decide)

example : twoStrings.cells oneByte 0 = some [66, 0] := by decide +kernel

/-- C70, the other library's memory: it is as before when the column holds integers, or nothing is missing.  Asked for as above. -/
theorem C70_memory_partial (kind : NoneInto) (toFloat : α → α) (nan tt ff : α) (c : ForeignCol α) (b : Buf α) (hb : c.data = .elems b)
    (hl : b.len = c.size) (hn : c.null.Exact c.offset c.size)
    (hk : kind = .typeError ∨ ∀ i, i < c.size → c.null.isNull (b.mem (c.offset + i)) (c.offset + i) = false) :
    c.memAfter kind toFloat nan tt ff b = some b.mem :=
  memAfter_spec kind toFloat nan tt ff c b hb hl hn hk

example : elevenInts.memAfter .typeError id (-1) 1 0 (Buf.mk (fun i => 10 * i) 11) = some (fun i : Nat => (10 * i : Int)) :=
  C70_memory_partial .typeError id (-1) 1 0 elevenInts _ rfl rfl (by unfold elevenInts; exact (by decide : BitsOk 0 11 2)) (Or.inl rfl)

/-- C70 fails for floats and dates: the missing values are written into the memory of the other library. -/
theorem C70_memory_written : ∃ (c : ForeignCol Int) (b : Buf Int), c.data = .elems b ∧ b.len = c.size ∧ c.null.Exact c.offset c.size ∧
    (c.memAfter .missing id (-1) 1 0 b).map (fun g => (g 1, b.mem 1)) = some (-1, 6) :=
  ⟨ForeignCol.mk 0 3 (.elems (Buf.mk (fun i => 5 + i) 3)) (.bytemask (Buf.mk (fun i => if i = 1 then 0 else 1) 3) true false),
    Buf.mk (fun i => 5 + i) 3, rfl, rfl, ⟨rfl, by decide⟩, by decide +kernel⟩
