import Verif.Lemmas.TextRead
/-
C23-C25: reading delimited text files in parallel.

The specification (Verif/Pandas/Text.lean) is pandas' tokenizer, which cuts a byte string into records, and
`pandasCsv`, which drops lines by number, then blank lines, then the header, and keeps `nrows` rows. Rows are identified
by their records.
-/

variable {B : Type} [DecidableEq B]

/-! ## C23 -/

/-- For every byte string, number of partitions, header size and number of lines to skip: the byte ranges handed to the
    workers are nonempty and consecutive and end at the end of the file, so nothing after the starting offset is lost or
    read twice (what lies before it are the skipped lines and the header: `C23_cut_between_records_partial`). -/
theorem C23_ranges_cover (d : Dialect B) (hd : d.Ok) (file : List B) (np skip h : Nat) :
    ∃ start, (skip + h = 0 → start = 0) ∧ Tiles (file.length ≤ ·) start (partitionedFile d file np none skip h 0) ∧
      (partitionedFile d file np none skip h 0).flatMap (fun r => pySlice file r.1 r.2) = file.drop start := by
  have hat := skipRows_at d hd (skipRows_at d hd (atRecord_zero d file) skip) h
  obtain ⟨gs, e1, e2, _, e4⟩ := partitionLoop_spec d hd file np none (by simp) _ _ 0 hat
  refine ⟨skipRows d file h (skipRows d file skip 0), ?_, ?_, ?_⟩
  · intro h0
    obtain ⟨rfl, rfl⟩ : skip = 0 ∧ h = 0 := by omega
    rfl
  · have mono : ∀ (p q : Nat → Prop) rs pos, (∀ e, p e → q e) → Tiles p pos rs → Tiles q pos rs := by
      intro p q rs
      induction rs with
      | nil => intro pos h; exact h pos
      | cons r rs ih => intro pos h ht; exact ⟨ht.1, ht.2.1, ih _ h ht.2.2⟩
    exact mono _ _ _ _ (fun e h => h rfl) e4
  · rw [hat, List.flatMap_def]
    unfold partitionedFile
    simp only [ne_eq, not_true_eq_false, if_false, List.nil_append]
    have e1' : gs.flatten = (d.precords true file).drop (0 + skip + h) := e1
    rw [e2, ← e1', ← List.flatten_flatten]

/-- If no quote character stands inside an unquoted field, the ranges are cut only between records: each is the text of a
    run of complete records, and together, in order, they hold exactly the records after the skipped lines and the header.
    With `quoting=csv.QUOTE_NONE` this needs no condition.  (Missing: quote characters inside unquoted fields, see
    `C23_stray_quote_wrong`.) -/
theorem C23_cut_between_records_partial (d : Dialect B) (hd : d.Ok) (file : List B) (hc : d.Clean .start file) (np skip h : Nat) :
    ∃ gs : List (List (List B)), gs.flatten = (d.records file).drop (skip + h) ∧
      (partitionedFile d file np none skip h 0).map (fun r => pySlice file r.1 r.2) = gs.map List.flatten ∧
      ∀ g ∈ gs, d.records g.flatten = g := by
  obtain ⟨gs, e1, e2, e3⟩ := partitionedFile_spec d hd file np none skip h 0 (by simp)
  rw [← records_eq d file hc] at e1 e3
  refine ⟨gs, ?_, e2, ?_⟩
  · rw [e1]
    simp only [List.take_zero, List.nil_append, wanted, Nat.add_zero]
    rw [Nat.add_comm]
  · intro g hg
    obtain ⟨a, j, rfl⟩ := e3 g hg
    exact records_group d hd file a j

theorem C23_cut_between_records_unquoted (d : Dialect B) (hd : d.Ok) (hq : d.quoting = false) (file : List B) (np skip h : Nat) :
    ∃ gs : List (List (List B)), gs.flatten = (d.records file).drop (skip + h) ∧
      (partitionedFile d file np none skip h 0).map (fun r => pySlice file r.1 r.2) = gs.map List.flatten ∧
      ∀ g ∈ gs, d.records g.flatten = g := by
  refine C23_cut_between_records_partial d hd file ?_ np skip h
  suffices ∀ s, d.Clean s file from this _
  induction file with
  | nil => intro s; exact trivial
  | cons b bs ih => intro s; exact ⟨fun h => by rw [hq] at h; simp at h, ih _⟩

/-- `read_csv` of a file gives pandas' rows for every number of partitions, if no quote stands inside an unquoted field
    and the header lines are plain, nonblank lines (blank lines in the data are allowed).  Missing: see
    `C23_stray_quote_wrong`, `C23_quoted_header_wrong`, `C23_leading_blank_wrong`. -/
theorem C23_read_csv_partial (d : Dialect B) (hd : d.Ok) (blank : List B → Bool) (np h : Nat) (file : List B)
    (hc : d.Clean .start file)
    (hhdr : (splitLines d.nl file).take h = (d.records file).take h) (hnb : ∀ r ∈ (d.records file).take h, blank r = false) :
    readCsv d blank np h .none none file = some (pandasCsv d blank h .none none file) :=
  readCsv_plain d hd blank np h file hc ⟨hhdr, hnb⟩

/-! Bytes are numbers here: 0 the delimiter, 1 the quote, 2 the newline, the others are letters and digits. -/

def csvDialect : Dialect Nat := { delim := 0, quote := 1, nl := 2, quoting := true }

def csvBlank (r : List Nat) : Bool := r == [2]

/-- `a,b⏎ 3,"x⏎y"⏎ ⏎ "p""q",4⏎ 5,6` -/
def csvFile : List Nat := [3, 0, 4, 2, 13, 0, 1, 11, 2, 12, 1, 2, 2, 1, 15, 1, 1, 16, 1, 0, 14, 2, 5, 0, 6]

example : csvDialect.Ok ∧ csvDialect.Clean .start csvFile ∧
    (splitLines csvDialect.nl csvFile).take 1 = (csvDialect.records csvFile).take 1 ∧
    (∀ r ∈ (csvDialect.records csvFile).take 1, csvBlank r = false) ∧
    partitionedFile csvDialect csvFile 3 none 0 1 0 = [(4, 13), (13, 22), (22, 25)] ∧
    (csvDialect.records csvFile).length = 5 ∧
    readCsv csvDialect csvBlank 3 1 .none none csvFile =
      some [[13, 0, 1, 11, 2, 12, 1, 2], [1, 15, 1, 1, 16, 1, 0, 14, 2], [5, 0, 6]] := by
  decide

/-- the hypotheses of `C23_cut_between_records_unquoted` -/
example : ({ csvDialect with quoting := false } : Dialect Nat).Ok ∧
    (({ csvDialect with quoting := false } : Dialect Nat).records csvFile).length = 6 := by
  decide

/-- A quote inside an unquoted field (`5" x,1⏎ "a⏎b",2⏎`: pandas takes it literally) makes Modin cut inside the quoted
    field that follows: three rows instead of two. -/
theorem C23_stray_quote_wrong :
    let file := [13, 1, 11, 0, 14, 2, 1, 3, 2, 4, 1, 0, 15, 2]
    readCsv csvDialect csvBlank 2 0 .none none file ≠ some (pandasCsv csvDialect csvBlank 0 .none none file) ∧
    (csvDialect.records file).length = 2 ∧ partitionedFile csvDialect file 2 none 0 0 0 = [(0, 9), (9, 14)] := by
  decide

/-- A header with a newline in a quoted name (`"a⏎b",c⏎ 3,4⏎ 5,6⏎`): the parts are read with the first physical line as
    the header, whose quote is not closed, so no row is read. -/
theorem C23_quoted_header_wrong :
    let file := [1, 3, 2, 4, 1, 0, 5, 2, 13, 0, 14, 2, 15, 0, 16, 2]
    readCsv csvDialect csvBlank 2 1 .none none file = some [] ∧
    pandasCsv csvDialect csvBlank 1 .none none file = [[13, 0, 14, 2], [15, 0, 16, 2]] := by
  decide

/-- A blank line before the header (`⏎ a⏎ 3⏎ 4⏎ 5⏎ 6⏎`): every part but the first loses its first row. -/
theorem C23_leading_blank_wrong :
    let file := [2, 9, 2, 13, 2, 14, 2, 15, 2, 16, 2]
    readCsv csvDialect csvBlank 3 1 .none none file = some [[13, 2], [15, 2]] ∧
    pandasCsv csvDialect csvBlank 1 .none none file = [[13, 2], [14, 2], [15, 2], [16, 2]] := by
  decide

/-! ## C24 -/

/-- `nrows = n` for `n ≥ 1`: exactly pandas' first `n` rows, for every number of partitions, in files without blank lines.
    Missing: `n = 0` (`C24_nrows_zero_wrong`), blank lines (`C24_blank_lines_wrong`). -/
theorem C24_nrows_partial (d : Dialect B) (hd : d.Ok) (blank : List B → Bool) (np h n : Nat) (hn : n ≠ 0) (file : List B)
    (hc : d.Clean .start file) (hb : ∀ r ∈ d.records file, blank r = false)
    (hhdr : (splitLines d.nl file).take h = (d.records file).take h) :
    readCsv d blank np h .none (some n) file = some (((d.records file).drop h).take n) := by
  rw [readCsv_spec d hd blank np h .none (some n) file hc hb (by simpa using hn) (fun _ => hhdr) trivial,
    pandasCsv_clean d blank h .none (some n) file hb, keepFrom_none Skip.none.skips _ _ (fun _ _ _ => rfl)]

/-- `a⏎ 3⏎ 4⏎ "5⏎5"⏎ 6⏎` -/
def csvRows : List Nat := [9, 2, 13, 2, 14, 2, 1, 15, 2, 15, 1, 2, 16, 2]

example : csvDialect.Clean .start csvRows ∧ (∀ r ∈ csvDialect.records csvRows, csvBlank r = false) ∧
    (splitLines csvDialect.nl csvRows).take 1 = (csvDialect.records csvRows).take 1 ∧
    partitionedFile csvDialect csvRows 1 (some 3) 0 1 0 = [(2, 12)] ∧
    readCsv csvDialect csvBlank 2 1 .none (some 3) csvRows = some [[13, 2], [14, 2], [1, 15, 2, 15, 1, 2]] := by
  decide

/-- `nrows=0` reads the whole file. -/
theorem C24_nrows_zero_wrong :
    readCsv csvDialect csvBlank 2 1 .none (some 0) csvRows = readCsv csvDialect csvBlank 2 1 .none none csvRows ∧
    readCsv csvDialect csvBlank 2 1 .none (some 0) csvRows ≠ some (pandasCsv csvDialect csvBlank 1 .none (some 0) csvRows) := by
  decide

/-- Blank lines count as rows: `a⏎ 3⏎ ⏎ 4⏎` with `nrows=2` gives one row. -/
theorem C24_blank_lines_wrong :
    let file := [9, 2, 13, 2, 2, 14, 2]
    readCsv csvDialect csvBlank 1 1 .none (some 2) file = some [[13, 2]] ∧
    pandasCsv csvDialect csvBlank 1 .none (some 2) file = [[13, 2], [14, 2]] := by
  decide

/-- The rows in front of a skipped run are returned even beyond `nrows`: `nrows=1, skiprows=[3, 4]`. -/
theorem C24_skipped_run_wrong :
    let file := [9, 2, 13, 2, 14, 2, 15, 2, 16, 2, 17, 2]
    readCsv csvDialect csvBlank 1 1 (.list [3, 4]) (some 1) file = some [[13, 2], [14, 2]] ∧
    pandasCsv csvDialect csvBlank 1 (.list [3, 4]) (some 1) file = [[13, 2]] := by
  decide

/-! ## C25 -/

/-- `skiprows` as a number, a list or a predicate, alone or with `nrows ≥ 1`: pandas' rows, for every number of partitions,
    in files without blank lines and without quotes inside unquoted fields.  If neither `skiprows` nor `names` is given the
    header must consist of plain lines.  For a list of consecutive numbers with `nrows`, the rows before the run must not
    already exceed `nrows`.  For other lists, the numbers must be line numbers of the file, and the first data line must not
    be the first one skipped.  Missing: `C25_first_data_line_wrong`, `C25_out_of_range_wrong`, `C25_blank_lines_wrong`,
    `C24_skipped_run_wrong`. -/
theorem C25_skiprows_partial (d : Dialect B) (hd : d.Ok) (blank : List B → Bool) (np h : Nat) (skip : Skip) (nrows : Option Nat)
    (file : List B) (hc : d.Clean .start file) (hb : ∀ r ∈ d.records file, blank r = false) (h0 : nrows ≠ some 0)
    (hhdr : usesInferredNames skip = false → (splitLines d.nl file).take h = (d.records file).take h)
    (hrun : ∀ ls n, skip = .list ls → nrows = some n → isRun (npSort ls) = true → ls = [] ∨ ∃ x ∈ ls, x ≤ h + n)
    (hlist : ∀ ls, skip = .list ls → isRun (npSort ls) = false →
      (∀ x ∈ ls, x < (d.records file).length) ∧ (h = 0 ∨ h ∉ ls ∨ ∃ x ∈ ls, x < h)) :
    readCsv d blank np h skip nrows file = some (pandasCsv d blank h skip nrows file) := by
  refine readCsv_spec d hd blank np h skip nrows file hc hb h0 hhdr ?_
  cases skip with
  | list ls =>
    simp only [SkipOk]
    split
    · rename_i hr
      exact fun k hk => hrun ls k rfl hk hr
    · rename_i hr
      exact hlist ls rfl (by simpa using hr)
  | _ => trivial

example : csvDialect.Clean .start csvRows ∧ (∀ r ∈ csvDialect.records csvRows, csvBlank r = false) ∧
    isRun (npSort [4, 2]) = false ∧ (∀ x ∈ [4, 2], x < (csvDialect.records csvRows).length) ∧ 1 ∉ [4, 2] ∧
    readCsv csvDialect csvBlank 3 1 (.list [4, 2]) none csvRows = some [[13, 2], [1, 15, 2, 15, 1, 2]] ∧
    isRun (npSort [3, 2]) = true ∧
    readCsv csvDialect csvBlank 3 1 (.list [3, 2]) (some 2) csvRows = some [[13, 2], [16, 2]] ∧
    readCsv csvDialect csvBlank 3 1 (.int 2) none csvRows = some [[1, 15, 2, 15, 1, 2], [16, 2]] ∧
    readCsv csvDialect csvBlank 3 1 (.pred fun i => i % 2 == 1) (some 1) csvRows = some [[14, 2]] := by
  decide

/-- `skiprows=[1, 3]` with a header: the numbers are not shifted by the header when the first one is the first data line, so
    the lines 2 and 4 are dropped instead. -/
theorem C25_first_data_line_wrong :
    readCsv csvDialect csvBlank 2 1 (.list [1, 3]) none csvRows = some [[13, 2], [1, 15, 2, 15, 1, 2]] ∧
    pandasCsv csvDialect csvBlank 1 (.list [1, 3]) none csvRows = [[14, 2], [16, 2]] := by
  decide

/-- A line number beyond the end of the file raises, where pandas ignores it. -/
theorem C25_out_of_range_wrong :
    readCsv csvDialect csvBlank 2 1 (.list [2, 7]) none csvRows = none ∧
    pandasCsv csvDialect csvBlank 1 (.list [2, 7]) none csvRows = [[13, 2], [1, 15, 2, 15, 1, 2], [16, 2]] := by
  decide

/-- Blank lines have no number for Modin: `a⏎ 3⏎ ⏎ 4⏎ 5⏎ 6⏎` with `skiprows=[3, 5]`. -/
theorem C25_blank_lines_wrong :
    let file := [9, 2, 13, 2, 2, 14, 2, 15, 2, 16, 2, 17, 2]
    readCsv csvDialect csvBlank 2 1 (.list [3, 5]) none file = some [[13, 2], [14, 2], [16, 2]] ∧
    pandasCsv csvDialect csvBlank 1 (.list [3, 5]) none file = [[13, 2], [15, 2], [17, 2]] := by
  decide
