import Verif.Model.Text
import Verif.Lemmas.Sort
/-
Lemmas about cutting text files.
-/

variable {B S : Type}

section cut
variable (step : S → B → S) (fin : S → B → Bool)

theorem glue_flatten (b : B) (rs : List (List B)) : (glue b rs).flatten = b :: rs.flatten := by
  cases rs <;> simp [glue]

theorem glue_ne (b : B) (rs : List (List B)) : glue b rs ≠ [] := by
  cases rs <;> simp [glue]

theorem cutWith_flatten (s : S) (bs : List B) : (cutWith step fin s bs).flatten = bs := by
  induction bs generalizing s with
  | nil => rfl
  | cons b bs ih =>
    unfold cutWith
    split
    · simp [ih]
    · rw [glue_flatten, ih]

theorem cutWith_eq_nil (s : S) (bs : List B) : cutWith step fin s bs = [] ↔ bs = [] := by
  cases bs with
  | nil => simp [cutWith]
  | cons b bs =>
    unfold cutWith
    split <;> simp [glue_ne]

/-- no record is empty -/
theorem cutWith_ne (s : S) (bs : List B) : ∀ r ∈ cutWith step fin s bs, r ≠ [] := by
  induction bs generalizing s with
  | nil => intro r hr; cases hr
  | cons b bs ih =>
    intro r hr
    unfold cutWith at hr
    split at hr
    · rcases List.mem_cons.1 hr with rfl | hr
      · simp
      · exact ih _ r hr
    · cases hc : cutWith step fin (step s b) bs with
      | nil => rw [hc] at hr; simp [glue] at hr; simp [hr]
      | cons x xs =>
        rw [hc] at hr
        simp only [glue, List.mem_cons] at hr
        rcases hr with rfl | hr
        · simp
        · exact ih _ r (by rw [hc]; simp [hr])

/-- the automaton's state after a string -/
def runWith (s : S) (bs : List B) : S := bs.foldl step s

theorem cutWith_cons (s : S) (b : B) (bs : List B) : cutWith step fin s (b :: bs) =
    if fin s b then [b] :: cutWith step fin (step s b) bs else glue b (cutWith step fin (step s b) bs) := rfl

/-- cutting the first records again gives them back -/
theorem cutWith_take (s : S) (bs : List B) (k : Nat) :
    cutWith step fin s ((cutWith step fin s bs).take k).flatten = (cutWith step fin s bs).take k := by
  induction bs generalizing s k with
  | nil => simp [cutWith]
  | cons b bs ih =>
    cases k with
    | zero => simp [cutWith]
    | succ k =>
      rw [cutWith_cons]
      split
      · rename_i h
        simp only [List.take_succ_cons, List.flatten_cons, List.singleton_append]
        rw [cutWith_cons, if_pos h, ih]
      · rename_i h
        have h1 := ih (step s b) (k + 1)
        cases hc : cutWith step fin (step s b) bs with
        | nil =>
          simp only [glue, List.take_succ_cons, List.take_nil, List.flatten_cons, List.flatten_nil, List.append_nil]
          rw [cutWith_cons, if_neg h]
          rfl
        | cons r rs =>
          rw [hc] at h1
          simp only [glue, List.take_succ_cons, List.flatten_cons, List.cons_append] at h1 ⊢
          rw [cutWith_cons, if_neg h, h1]
          rfl

/-- what follows the first records is cut as a file of its own -/
theorem cutWith_drop {s0 : S} (hreset : ∀ s b, fin s b = true → step s b = s0) (s : S) (bs : List B) (k : Nat) (hk : 1 ≤ k ∨ s = s0) :
    cutWith step fin s0 ((cutWith step fin s bs).drop k).flatten = (cutWith step fin s bs).drop k := by
  induction bs generalizing s k with
  | nil => simp [cutWith]
  | cons b bs ih =>
    cases k with
    | zero =>
      rcases hk with hk | rfl
      · omega
      · simp only [List.drop_zero, cutWith_flatten]
    | succ k =>
      rw [cutWith_cons]
      split
      · rename_i h
        simp only [List.drop_succ_cons]
        exact ih _ k (Or.inr (hreset s b h))
      · have h1 := ih (step s b) (k + 1) (Or.inl (by omega))
        cases hc : cutWith step fin (step s b) bs with
        | nil => simp [glue, cutWith]
        | cons r rs =>
          rw [hc] at h1
          simp only [glue, List.drop_succ_cons] at h1 ⊢
          exact h1

/-- reading on from any point to the end of the record in which it lies stops at the end of a record -/
theorem cutWith_offset (s : S) (chunk rest : List B) :
    ∃ j, chunk ++ ((cutWith step fin (runWith step s chunk) rest).take 1).flatten
      = ((cutWith step fin s (chunk ++ rest)).take j).flatten ∧ (chunk ++ rest ≠ [] → 1 ≤ j) := by
  induction chunk generalizing s with
  | nil => exact ⟨1, by simp [runWith], by simp⟩
  | cons b chunk ih =>
    obtain ⟨j, h1, h2⟩ := ih (step s b)
    have hrun : runWith step s (b :: chunk) = runWith step (step s b) chunk := rfl
    rw [hrun, List.cons_append, List.cons_append]
    rw [cutWith_cons]
    split
    · exact ⟨j + 1, by simp [h1], by simp⟩
    · cases hc : cutWith step fin (step s b) (chunk ++ rest) with
      | nil =>
        rw [cutWith_eq_nil] at hc
        refine ⟨1, ?_, by simp⟩
        obtain ⟨rfl, rfl⟩ := List.append_eq_nil_iff.1 hc
        simp [glue, cutWith]
      | cons r rs =>
        have hne : chunk ++ rest ≠ [] := by
          intro h0
          rw [h0] at hc
          simp [cutWith] at hc
        have hj := h2 hne
        refine ⟨j, ?_, fun _ => hj⟩
        rw [hc] at h1
        obtain ⟨j', rfl⟩ : ∃ j', j = j' + 1 := ⟨j - 1, by omega⟩
        simp only [glue, List.take_succ_cons, List.flatten_cons, List.cons_append] at h1 ⊢
        rw [h1]

end cut

/-! ### records by quote parity -/

variable [DecidableEq B]

/-- parity of quotes: is the reader outside quotes? -/
def Dialect.pstep (d : Dialect B) (o : Bool) (b : B) : Bool := if d.quoting && b = d.quote then !o else o

def Dialect.pfin (d : Dialect B) (o : Bool) (b : B) : Bool := b = d.nl && o

/-- the records of a file as Modin counts them -/
def Dialect.precords (d : Dialect B) (o : Bool) (bs : List B) : List (List B) := cutWith d.pstep d.pfin o bs

theorem pstep_run (d : Dialect B) (o : Bool) (bs : List B) :
    runWith d.pstep o bs = if d.quoting && bs.count d.quote % 2 != 0 then !o else o := by
  induction bs generalizing o with
  | nil => simp [runWith]
  | cons b bs ih =>
    have : runWith d.pstep o (b :: bs) = runWith d.pstep (d.pstep o b) bs := rfl
    rw [this, ih]
    unfold Dialect.pstep
    rw [List.count_cons]
    cases hq : d.quoting
    · simp
    · by_cases hb : b = d.quote
      · subst hb
        have : (List.count d.quote bs % 2 = 0 ↔ ¬ (List.count d.quote bs + 1) % 2 = 0) := by omega
        by_cases h2 : List.count d.quote bs % 2 = 0
        · have h3 := this.1 h2; simp [h2, h3]
        · have h3 : (List.count d.quote bs + 1) % 2 = 0 := by omega
          simp [h2, h3]
      · simp [hb]

/-- reading a physical line: either it closes a record, or the record goes on -/
theorem precords_line (d : Dialect B) (hd : d.Ok) (o : Bool) (body rest : List B) (hb : d.nl ∉ body) :
    d.precords o (body ++ d.nl :: rest) =
      if runWith d.pstep o body then (body ++ [d.nl]) :: d.precords true rest
      else match d.precords false rest with
        | [] => [body ++ [d.nl]]
        | r :: rs => (body ++ d.nl :: r) :: rs := by
  induction body generalizing o with
  | nil =>
    simp only [List.nil_append, runWith, List.foldl_nil]
    unfold Dialect.precords
    conv => lhs; unfold cutWith
    have hp : d.pstep o d.nl = o := by
      unfold Dialect.pstep
      rw [if_neg]
      simp only [Bool.and_eq_true, decide_eq_true_eq, not_and]
      exact fun _ h => hd.2.2 h.symm
    rw [hp]
    cases o
    · simp only [Dialect.pfin, decide_true, Bool.and_false, Bool.false_eq_true, ↓reduceIte]
      cases cutWith d.pstep d.pfin false rest <;> rfl
    · simp [Dialect.pfin]
  | cons b body ih =>
    have hbn : b ≠ d.nl := by intro h; exact hb (by simp [h])
    have := ih (d.pstep o b) (by intro h; exact hb (by simp [h]))
    have hr : runWith d.pstep o (b :: body) = runWith d.pstep (d.pstep o b) body := rfl
    unfold Dialect.precords at this ⊢
    rw [List.cons_append]
    conv => lhs; unfold cutWith
    rw [if_neg (by simp [Dialect.pfin, hbn]), this, hr]
    split
    · rfl
    · split <;> rfl

theorem precords_last (d : Dialect B) (o : Bool) (body : List B) (hb : d.nl ∉ body) (hne : body ≠ []) :
    d.precords o body = [body] := by
  induction body generalizing o with
  | nil => exact absurd rfl hne
  | cons b body ih =>
    have hbn : b ≠ d.nl := by intro h; exact hb (by simp [h])
    unfold Dialect.precords
    unfold cutWith
    rw [if_neg (by simp [Dialect.pfin, hbn])]
    cases body with
    | nil => rfl
    | cons c body =>
      have := ih (d.pstep o b) (by intro h; exact hb (by simp [h])) (by simp)
      unfold Dialect.precords at this
      rw [this]; rfl

/-- the physical lines of a text: each line but the last ends with the newline, which occurs nowhere else -/
theorem splitLines_cases (nl : B) (bs : List B) :
    (bs = [] ∧ splitLines nl bs = []) ∨ (bs ≠ [] ∧ nl ∉ bs ∧ splitLines nl bs = [bs]) ∨
    ∃ body rest, nl ∉ body ∧ bs = body ++ nl :: rest ∧ splitLines nl bs = (body ++ [nl]) :: splitLines nl rest := by
  induction bs with
  | nil => exact Or.inl ⟨rfl, rfl⟩
  | cons b bs ih =>
    right
    by_cases hb : b = nl
    · right
      refine ⟨[], bs, by simp, by simp [hb], ?_⟩
      unfold splitLines
      conv => lhs; unfold cutWith
      simp [hb]
    · have hcut : splitLines nl (b :: bs) = glue b (splitLines nl bs) := by
        unfold splitLines
        conv => lhs; unfold cutWith
        simp [hb]
      rcases ih with ⟨rfl, h⟩ | ⟨h1, h2, h3⟩ | ⟨body, rest, h1, h2, h3⟩
      · left
        refine ⟨by simp, by simpa using fun h => hb h.symm, ?_⟩
        rw [hcut, h]; rfl
      · left
        refine ⟨by simp, ?_, by rw [hcut, h3]; rfl⟩
        simp only [List.mem_cons, not_or]
        exact ⟨fun h => hb h.symm, h2⟩
      · right
        refine ⟨b :: body, rest, ?_, by simp [h2], by rw [hcut, h3]; rfl⟩
        simp only [List.mem_cons, not_or]
        exact ⟨fun h => hb h.symm, h1⟩

/-- what the loop of `_read_rows` consumes: `n` records (or all there are) -/
theorem rowsLoop_spec (d : Dialect B) (hd : d.Ok) (n : Nat) (hn : 1 ≤ n) (len : Nat) :
    ∀ (bs : List B), bs.length ≤ len → ∀ (o : Bool) (rows used : Nat), rows < n →
    let r := rowsLoop d.quote d.quoting n o rows used (splitLines d.nl bs)
    r.2.2 = used + ((d.precords o bs).take (n - rows)).flatten.length ∧
    (bs ≠ [] ∨ o = true → (if r.1 then r.2.1 else r.2.1 + 1) = rows + min (n - rows) (d.precords o bs).length) := by
  induction len with
  | zero =>
    intro bs hbs o rows used hr
    have : bs = [] := List.eq_nil_of_length_eq_zero (by omega)
    subst this
    simp only [splitLines, cutWith, rowsLoop, Dialect.precords]
    refine ⟨by simp, ?_⟩
    rintro (h | h)
    · exact absurd rfl h
    · simp [h]
  | succ len ih =>
    intro bs hbs o rows used hr
    have line : ∀ (l : List B), (if d.quoting && l.count d.quote % 2 != 0 then !o else o) = runWith d.pstep o l :=
      fun l => (pstep_run d o l).symm
    rcases splitLines_cases d.nl bs with ⟨rfl, h⟩ | ⟨h1, h2, h3⟩ | ⟨body, rest, h1, h2, h3⟩
    · simp only [h, rowsLoop, Dialect.precords, cutWith]
      refine ⟨by simp, ?_⟩
      rintro (h | h)
      · exact absurd rfl h
      · simp [h]
    · rw [h3, precords_last d o bs h2 h1]
      simp only [rowsLoop, line]
      obtain ⟨k, hk⟩ : ∃ k, n - rows = k + 1 := ⟨n - rows - 1, by omega⟩
      rw [hk]
      cases runWith d.pstep o bs
      · simp
      · simp only [↓reduceIte]
        split <;> simp <;> omega
    · rw [h3]
      subst h2
      have hlen : rest.length ≤ len := by simp at hbs; omega
      have hnl : runWith d.pstep o (body ++ [d.nl]) = runWith d.pstep o body := by
        unfold runWith
        rw [List.foldl_append]
        simp only [List.foldl_cons, List.foldl_nil]
        unfold Dialect.pstep
        rw [if_neg]
        simp only [Bool.and_eq_true, decide_eq_true_eq, not_and]
        exact fun _ h => hd.2.2 h.symm
      rw [precords_line d hd o body rest h1]
      simp only [rowsLoop, line, hnl]
      obtain ⟨k, hk⟩ : ∃ k, n - rows = k + 1 := ⟨n - rows - 1, by omega⟩
      rw [hk]
      cases ho : runWith d.pstep o body
      · simp only [Bool.false_eq_true, ↓reduceIte]
        obtain ⟨g1, g2⟩ := ih rest hlen false rows (used + (body ++ [d.nl]).length) hr
        rw [hk] at g1 g2
        cases hp : d.precords false rest with
        | nil =>
          have : rest = [] := (cutWith_eq_nil _ _ _ _).1 hp
          subst this
          simp only [splitLines, cutWith, rowsLoop]
          simp
        | cons r rs =>
          rw [hp] at g1 g2
          have hne : rest ≠ [] := by
            intro h0; subst h0; simp [Dialect.precords, cutWith] at hp
          refine ⟨?_, fun _ => ?_⟩
          · rw [g1]
            simp only [List.take_succ_cons, List.flatten_cons, List.length_append, List.length_cons]
            simp; omega
          · rw [g2 (Or.inl hne)]
            simp
      · simp only [↓reduceIte]
        split
        · rename_i hge
          have hk0 : k = 0 := by omega
          subst hk0
          refine ⟨by simp, fun _ => ?_⟩
          simp
        · rename_i hlt
          obtain ⟨g1, g2⟩ := ih rest hlen true (rows + 1) (used + (body ++ [d.nl]).length) (by omega)
          have hk' : n - (rows + 1) = k := by omega
          rw [hk'] at g1 g2
          refine ⟨?_, fun _ => ?_⟩
          · rw [g1]
            simp only [List.take_succ_cons, List.flatten_cons, List.length_append]
            omega
          · rw [g2 (Or.inr rfl)]
            simp only [List.length_cons]
            omega

/-- `_read_rows` moves over `n` records -/
theorem readRows_spec (d : Dialect B) (hd : d.Ok) (file : List B) (n : Nat) (o : Bool) (pos : Nat) (hn : 1 ≤ n) :
    (readRows d file n o pos).2.2 = pos + ((d.precords o (file.drop pos)).take n).flatten.length ∧
    (file.drop pos ≠ [] ∨ o = true → (readRows d file n o pos).2.1 = min n (d.precords o (file.drop pos)).length) := by
  have := rowsLoop_spec d hd n hn _ (file.drop pos) (Nat.le_refl _) o 0 0 (by omega)
  unfold readRows
  rw [if_neg (by omega)]
  simp only at this ⊢
  refine ⟨by rw [this.1]; simp, fun h => ?_⟩
  have h2 := this.2 h
  simp only [Nat.zero_add, Nat.sub_zero] at h2
  exact h2

/-! ### ranges -/

omit [DecidableEq B] in
/-- complete records in front of another text -/
theorem cutWith_append (step : S → B → S) (fin : S → B → Bool) {s0 : S} (hreset : ∀ s b, fin s b = true → step s b = s0) (s : S)
    (bs ys : List B) (k : Nat) (hk : k < (cutWith step fin s bs).length) (h0 : 1 ≤ k ∨ s = s0) :
    cutWith step fin s (((cutWith step fin s bs).take k).flatten ++ ys) = (cutWith step fin s bs).take k ++ cutWith step fin s0 ys := by
  induction bs generalizing s k with
  | nil => simp [cutWith] at hk
  | cons b bs ih =>
    cases k with
    | zero =>
      rcases h0 with h0 | rfl
      · omega
      · simp
    | succ k =>
      rw [cutWith_cons] at hk ⊢
      split at hk
      · rename_i h
        rw [if_pos h]
        simp only [List.take_succ_cons, List.flatten_cons, List.singleton_append, List.cons_append, List.nil_append]
        rw [cutWith_cons, if_pos h, ih (step s b) k (by simpa using hk) (Or.inr (hreset s b h))]
      · rename_i h
        rw [if_neg h]
        cases hc : cutWith step fin (step s b) bs with
        | nil => rw [hc] at hk; simp [glue] at hk
        | cons r rs =>
          have h1 := ih (step s b) (k + 1) (by rw [hc] at hk ⊢; simpa [glue] using hk) (Or.inl (by omega))
          rw [hc] at h1
          simp only [glue, List.take_succ_cons, List.flatten_cons, List.cons_append] at h1 ⊢
          rw [cutWith_cons, if_neg h, h1]
          rfl

theorem preset (d : Dialect B) (hd : d.Ok) : ∀ s b, d.pfin s b = true → d.pstep s b = true := by
  intro s b h
  simp only [Dialect.pfin, Bool.and_eq_true, decide_eq_true_eq] at h
  unfold Dialect.pstep
  rw [if_neg]
  · exact h.2
  · simp only [Bool.and_eq_true, decide_eq_true_eq, not_and]
    intro _ hb
    exact hd.2.2 (by rw [← hb, h.1])

theorem treset (d : Dialect B) (hd : d.Ok) : ∀ s b, d.ends s b = true → d.step s b = .start := by
  intro s b h
  simp only [Dialect.ends, Bool.and_eq_true, decide_eq_true_eq, bne_iff_ne, ne_eq] at h
  obtain ⟨rfl, h2⟩ := h
  cases s
  · simp only [Dialect.step]
    rw [if_neg (by intro h; exact hd.2.2 h.2.symm)]; simp
  · simp [Dialect.step]
  · exact absurd rfl h2
  · simp only [Dialect.step]
    rw [if_neg (fun h => hd.2.2 h.symm)]; simp

/-- not inside quotes -/
def Tok.outside : Tok → Bool
  | .quoted => false
  | _ => true

theorem records_parity (d : Dialect B) (bs : List B) : ∀ s, d.Clean s bs → (s = .quoted ∨ s = .quoteInQuoted → d.quoting = true) →
    cutWith d.step d.ends s bs = d.precords s.outside bs := by
  induction bs with
  | nil => intro s _ _; rfl
  | cons b bs ih =>
    intro s hc hq
    unfold Dialect.precords
    rw [cutWith_cons, cutWith_cons]
    have e1 : d.pstep s.outside b = (d.step s b).outside := by
      have c := hc.1
      cases s <;> simp only [Dialect.pstep, Dialect.step, Tok.outside]
      · by_cases h1 : d.quoting = true ∧ b = d.quote
        · simp [h1.1, h1.2]
        · rw [if_neg (by simpa using h1), if_neg h1]
          by_cases h2 : b = d.delim ∨ b = d.nl <;> simp [h2]
      · rw [if_neg (by simpa using fun h => c h rfl)]
        by_cases h2 : b = d.delim ∨ b = d.nl <;> simp [h2]
      · have := hq (Or.inl rfl)
        by_cases hb : b = d.quote <;> simp [this, hb]
      · have := hq (Or.inr rfl)
        by_cases hb : b = d.quote
        · simp [this, hb]
        · rw [if_neg (by simp [hb]), if_neg hb]
          by_cases h2 : b = d.delim ∨ b = d.nl <;> simp [h2]
    have e2 : d.ends s b = d.pfin s.outside b := by
      unfold Dialect.ends Dialect.pfin Tok.outside
      cases s <;> simp
    have hq' : d.step s b = .quoted ∨ d.step s b = .quoteInQuoted → d.quoting = true := by
      intro h
      cases s <;> simp only [Dialect.step] at h
      · by_cases h1 : d.quoting = true ∧ b = d.quote
        · exact h1.1
        · rw [if_neg h1] at h
          split at h <;> simp at h
      · split at h <;> simp at h
      · exact hq (Or.inl rfl)
      · exact hq (Or.inr rfl)
    have := ih (d.step s b) hc.2 hq'
    unfold Dialect.precords at this
    rw [e1, ← e2, this]

theorem records_eq (d : Dialect B) (file : List B) (hc : d.Clean .start file) : d.records file = d.precords true file := by
  unfold Dialect.records
  rw [records_parity d file .start hc (by simp)]
  rfl

/-! ### positions between records -/

/-- from `pos` on the file consists of the records from number `k` on -/
def AtRecord (d : Dialect B) (file : List B) (pos k : Nat) : Prop :=
  file.drop pos = ((d.precords true file).drop k).flatten

theorem atRecord_zero (d : Dialect B) (file : List B) : AtRecord d file 0 0 := by
  simp [AtRecord, Dialect.precords, cutWith_flatten]

theorem atRecord_precords (d : Dialect B) (hd : d.Ok) {file : List B} {pos k : Nat} (h : AtRecord d file pos k) :
    d.precords true (file.drop pos) = (d.precords true file).drop k := by
  unfold AtRecord at h
  rw [h]
  exact cutWith_drop _ _ (preset d hd) true file k (Or.inr rfl)

omit [DecidableEq B] in
theorem drop_append_len {file xs rest : List B} {pos : Nat} (h : file.drop pos = xs ++ rest) :
    file.drop (pos + xs.length) = rest ∧ pySlice file pos (pos + xs.length) = xs := by
  constructor
  · rw [← List.drop_drop, h]; simp
  · unfold pySlice
    rw [h]
    simp

theorem readRows_at (d : Dialect B) (hd : d.Ok) {file : List B} {pos k : Nat} (h : AtRecord d file pos k) (n : Nat) (hn : 1 ≤ n) :
    AtRecord d file (readRows d file n true pos).2.2 (k + n) ∧
    pySlice file pos (readRows d file n true pos).2.2 = (((d.precords true file).drop k).take n).flatten ∧
    (readRows d file n true pos).2.1 = min n ((d.precords true file).length - k) ∧
    (pos < file.length → pos < (readRows d file n true pos).2.2) := by
  obtain ⟨h1, h2⟩ := readRows_spec d hd file n true pos hn
  rw [atRecord_precords d hd h] at h1 h2
  have hsplit : file.drop pos = (((d.precords true file).drop k).take n).flatten ++ (((d.precords true file).drop k).drop n).flatten := by
    rw [← List.flatten_append, List.take_append_drop]; exact h
  obtain ⟨g1, g2⟩ := drop_append_len hsplit
  refine ⟨?_, by rw [h1]; exact g2, by rw [h2 (Or.inr rfl), List.length_drop], ?_⟩
  · unfold AtRecord
    rw [h1, g1, List.drop_drop]
  · intro hp
    rw [h1]
    have hne : file.drop pos ≠ [] := by simpa using hp
    have : (d.precords true file).drop k ≠ [] := by
      intro h0
      unfold AtRecord at h
      rw [h, h0] at hne
      exact hne rfl
    cases hr : (d.precords true file).drop k with
    | nil => exact absurd hr this
    | cons r rs =>
      have hrne : r ≠ [] := cutWith_ne _ _ _ _ r (by
        have : r ∈ (d.precords true file).drop k := by rw [hr]; simp
        exact List.mem_of_mem_drop this)
      obtain ⟨m, rfl⟩ : ∃ m, n = m + 1 := ⟨n - 1, by omega⟩
      simp only [List.take_succ_cons, List.flatten_cons, List.length_append]
      have := List.length_pos_iff.2 hrne
      omega

theorem skipRows_at (d : Dialect B) (hd : d.Ok) {file : List B} {pos k : Nat} (h : AtRecord d file pos k) (n : Nat) :
    AtRecord d file (skipRows d file n pos) (k + n) := by
  unfold skipRows
  split
  · rename_i h0; rw [h0]; exact h
  · exact (readRows_at d hd h n (by omega)).1

theorem offsetPos_at (d : Dialect B) (hd : d.Ok) {file : List B} {pos k : Nat} (h : AtRecord d file pos k) (size : Nat) (hs : 1 ≤ size)
    (hp : pos < file.length) :
    ∃ j, 1 ≤ j ∧ AtRecord d file (offsetPos d file size pos) (k + j) ∧
      pySlice file pos (offsetPos d file size pos) = (((d.precords true file).drop k).take j).flatten ∧ pos < offsetPos d file size pos := by
  have hne : file.drop pos ≠ [] := by simpa using hp
  have hpr := atRecord_precords d hd h
  obtain ⟨j, e1, e2⟩ := cutWith_offset d.pstep d.pfin true ((file.drop pos).take size) ((file.drop pos).drop size)
  rw [List.take_append_drop] at e1 e2
  have hcl : 1 ≤ ((file.drop pos).take size).length := by
    rw [List.length_take, List.length_drop]; omega
  have hsplit : file.drop pos = (((d.precords true file).drop k).take j).flatten ++ (((d.precords true file).drop k).drop j).flatten := by
    rw [← List.flatten_append, List.take_append_drop]; exact h
  have he : ((file.drop pos).take size ++ ((cutWith d.pstep d.pfin (runWith d.pstep true ((file.drop pos).take size))
      ((file.drop pos).drop size)).take 1).flatten) = (((d.precords true file).drop k).take j).flatten := by
    rw [e1, ← hpr]; rfl
  refine ⟨j, e2 hne, ?_⟩
  obtain ⟨g1, g2⟩ := drop_append_len hsplit
  -- the position reached, unless it is past the end of the file
  have pos_eq : offsetPos d file size pos = pos + (((d.precords true file).drop k).take j).flatten.length ∨
      ((((d.precords true file).drop k).drop j).flatten = [] ∧ file.length ≤ offsetPos d file size pos) := by
    unfold offsetPos
    by_cases hq : d.quoting = true
    · left
      rw [if_pos hq]
      simp only
      rw [(readRows_spec d hd file 1 _ _ (Nat.le_refl 1)).1]
      have hdrop : file.drop (pos + ((file.drop pos).take size).length) = (file.drop pos).drop size := by
        rw [← List.drop_drop, List.length_take]
        by_cases hle : size ≤ (file.drop pos).length
        · rw [Nat.min_eq_left hle]
        · rw [Nat.min_eq_right (by omega), List.drop_length, List.drop_eq_nil_of_le (by omega)]
      have ho : decide (((file.drop pos).take size).count d.quote % 2 = 0) = runWith d.pstep true ((file.drop pos).take size) := by
        rw [pstep_run, hq]
        by_cases h2 : ((file.drop pos).take size).count d.quote % 2 = 0
        · simp [h2]
        · have h3 : ((file.drop pos).take size).count d.quote % 2 = 1 := by omega
          simp [h3]
      rw [hdrop, ho, ← he, List.length_append]
      unfold Dialect.precords
      omega
    · rw [if_neg hq]
      rw [(readRows_spec d hd file 1 _ _ (Nat.le_refl 1)).1]
      have ho : runWith d.pstep true ((file.drop pos).take size) = true := by
        rw [pstep_run]; simp [hq]
      rw [ho] at he
      rw [← List.drop_drop]
      by_cases hle : size ≤ (file.drop pos).length
      · left
        rw [← he, List.length_append, List.length_take, Nat.min_eq_left hle]
        unfold Dialect.precords
        omega
      · right
        refine ⟨?_, ?_⟩
        · have h1 : (file.drop pos).drop size = [] := List.drop_eq_nil_of_le (by omega)
          have h2 : (file.drop pos).take size = file.drop pos := List.take_of_length_le (by omega)
          rw [h1, h2] at he
          simp only [cutWith, List.take_nil, List.flatten_nil, List.append_nil] at he
          rw [← he] at hsplit
          exact List.self_eq_append_right.1 hsplit
        · simp only [List.length_drop] at hle
          omega
  have hge : pos < pos + (((d.precords true file).drop k).take j).flatten.length := by
    rw [← he, List.length_append]; omega
  rcases pos_eq with hpe | ⟨hpe, hle⟩
  · refine ⟨?_, ?_, ?_⟩
    · unfold AtRecord; rw [hpe, g1, List.drop_drop]
    · rw [hpe]; exact g2
    · rw [hpe]; exact hge
  · refine ⟨?_, ?_, by omega⟩
    · unfold AtRecord
      rw [List.drop_eq_nil_of_le hle, ← List.drop_drop, hpe]
    · unfold pySlice
      rw [List.take_of_length_le (by rw [List.length_drop]; omega), hsplit, hpe, List.append_nil]

/-! ### the two loops -/

theorem atRecord_end (d : Dialect B) {file : List B} {pos k : Nat} (h : AtRecord d file pos k) (hp : file.length ≤ pos) :
    (d.precords true file).drop k = [] := by
  unfold AtRecord at h
  rw [List.drop_eq_nil_of_le hp] at h
  have h1 := List.flatten_eq_nil_iff.1 h.symm
  cases hr : (d.precords true file).drop k with
  | nil => rfl
  | cons r rs =>
    have hm : r ∈ (d.precords true file).drop k := by rw [hr]; simp
    exact absurd (h1 r hm) (cutWith_ne _ _ _ _ r (List.mem_of_mem_drop hm))

theorem byteLoop_spec (d : Dialect B) (hd : d.Ok) (file : List B) (size : Nat) (hs : 1 ≤ size) (fuel : Nat) :
    ∀ pos k, AtRecord d file pos k → file.length < pos + fuel →
    ∃ gs : List (List (List B)), gs.flatten = (d.precords true file).drop k ∧
      (byteLoop d file size fuel pos).map (fun r => pySlice file r.1 r.2) = gs.map List.flatten ∧
      (∀ g ∈ gs, ∃ a j, g = ((d.precords true file).drop a).take j) ∧
      Tiles (file.length ≤ ·) pos (byteLoop d file size fuel pos) := by
  induction fuel with
  | zero =>
    intro pos k h hf
    exact ⟨[], by simp [atRecord_end d h (by omega)], rfl, by simp, by simp only [byteLoop, Tiles]; omega⟩
  | succ fuel ih =>
    intro pos k h hf
    unfold byteLoop
    split
    · rename_i hp
      obtain ⟨j, hj, h1, h2, h3⟩ := offsetPos_at d hd h size hs hp
      obtain ⟨gs, e1, e2, e3, e4⟩ := ih _ _ h1 (by omega)
      refine ⟨((d.precords true file).drop k).take j :: gs, ?_, ?_, ?_, ?_⟩
      · rw [List.flatten_cons, e1, ← List.drop_drop, List.take_append_drop]
      · rw [List.map_cons, List.map_cons, e2, h2]
      · intro g hg
        rcases List.mem_cons.1 hg with rfl | hg
        · exact ⟨k, j, rfl⟩
        · exact e3 g hg
      · exact ⟨rfl, h3, e4⟩
    · rename_i hp
      exact ⟨[], by simp [atRecord_end d h (by omega)], rfl, by simp, by simp only [Tiles]; omega⟩

theorem rowLoop_spec (d : Dialect B) (hd : d.Ok) (file : List B) (nrows : Nat) (fuel : Nat) :
    ∀ size counter pos k, 1 ≤ size → AtRecord d file pos k → file.length < pos + fuel →
    ∃ gs : List (List (List B)), gs.flatten = ((d.precords true file).drop k).take (nrows - counter) ∧
      (rowLoop d file nrows fuel size counter pos).map (fun r => pySlice file r.1 r.2) = gs.map List.flatten ∧
      (∀ g ∈ gs, ∃ a j, g = ((d.precords true file).drop a).take j) ∧
      Tiles (fun _ => True) pos (rowLoop d file nrows fuel size counter pos) := by
  induction fuel with
  | zero =>
    intro size counter pos k hs h hf
    exact ⟨[], by simp [atRecord_end d h (by omega)], rfl, by simp, trivial⟩
  | succ fuel ih =>
    intro size counter pos k hs h hf
    unfold rowLoop
    split
    · rename_i hp
      simp only
      obtain ⟨sz, hsz⟩ : ∃ sz, sz = if counter + size > nrows then nrows - counter else size := ⟨_, rfl⟩
      rw [← hsz]
      have hsz1 : 1 ≤ sz ∧ sz ≤ nrows - counter := by rw [hsz]; split <;> omega
      obtain ⟨h1, h2, h3, h4⟩ := readRows_at d hd h sz hsz1.1
      obtain ⟨gs, e1, e2, e3, e4⟩ := ih sz (counter + (readRows d file sz true pos).2.1) _ _ hsz1.1 h1 (by have := h4 hp.1; omega)
      refine ⟨((d.precords true file).drop k).take sz :: gs, ?_, ?_, ?_, ?_⟩
      · rw [List.flatten_cons, e1, h3, ← List.drop_drop]
        by_cases hle : sz ≤ (d.precords true file).length - k
        · rw [Nat.min_eq_left hle]
          have : nrows - counter = sz + (nrows - (counter + sz)) := by omega
          rw [this, List.take_add]
        · rw [List.drop_eq_nil_of_le (as := (d.precords true file).drop k) (by rw [List.length_drop]; omega)]
          rw [List.take_nil, List.append_nil, List.take_of_length_le (by rw [List.length_drop]; omega),
            List.take_of_length_le (by rw [List.length_drop]; omega)]
      · rw [List.map_cons, List.map_cons, e2, h2]
      · intro g hg
        rcases List.mem_cons.1 hg with rfl | hg
        · exact ⟨k, sz, rfl⟩
        · exact e3 g hg
      · exact ⟨rfl, h4 hp.1, e4⟩
    · rename_i hp
      refine ⟨[], ?_, rfl, by simp, trivial⟩
      by_cases h0 : pos < file.length
      · have : nrows - counter = 0 := by omega
        simp [this]
      · simp [atRecord_end d h (by omega)]
