import Verif.Lemmas.ToCsv
import Verif.Lemmas.Duplicated
/-
C53: what `to_csv` leaves in the file does not depend on the order in which the workers come to write.
-/

variable {ι κ α β : Type}

theorem keepNonzero_le {τ : Type} (xs : List τ) (l : List Nat) : (keepNonzero xs l).length ≤ xs.length := by
  induction xs generalizing l with
  | nil => simp [keepNonzero]
  | cons x xs ih =>
    cases l with
    | nil => simp [keepNonzero]
    | cons n ns =>
      have := ih ns
      simp only [keepNonzero]
      split <;> simp only [List.length_cons] <;> omega

theorem filterEmpties_le (m : MFrame ι κ α) : (filterEmpties m).parts.length ≤ m.parts.length := by
  unfold filterEmpties
  split
  · split
    · exact Nat.le_refl _
    · simp only [List.length_map]
      exact keepNonzero_le _ _
  · exact Nat.le_refl _

theorem propagate_le {m m1 : LFrame ι κ α} {a b : Bool} (h : m.propagate a b = some m1) : m1.parts.length ≤ m.parts.length := by
  unfold LFrame.propagate at h
  simp only at h
  split at h
  · rw [Option.map_eq_some_iff] at h
    obtain ⟨g, h1, h2⟩ := h
    have hlen := (mapM_length h1)
    have := filterEmpties_le m.toMFrame
    rw [← h2]
    simp only [List.length_zip] at hlen
    simp only
    omega
  · cases h

/-- the job of `to_csv` for a frame that is shown as `df` -/
theorem toCsv_job [DecidableEq ι] [DecidableEq κ] {m : LFrame ι κ α} {df : Frame ι κ α} (h : m.Shows df)
    (text : Bool → Frame ι κ α → Option (List β)) (header : Bool) (mode : OpenMode) (slots : Nat) (holds : Bool)
    (old : Option (List β)) :
    ∃ rl cw job s, df.IsCut rl cw ∧ m.toCsv text header mode slots holds old = some (job, s) ∧
      job = ⟨(bandsOf rl df).mapIdx fun i b => text (if i ≠ 0 then false else header) b, mode, slots, holds⟩ ∧
      CsvInv job old s 0 ∧ (∀ p ∈ s.phases, p = .pending) := by
  obtain ⟨m1, p1, p2, p3, p4, _, _⟩ := propagate_shows h true true (Or.inl h.getIndex) (Or.inl h.getColumns)
  have hr := shows_represents p2 (by simp [p3]) (by simp [p4])
  obtain ⟨rl, cw, hc, hp, _, _⟩ := hr.blocks
  have hb := mapM_hcat_cut h.wf hc
  have hle := propagate_le p1
  refine ⟨rl, cw, _, csvInit ⟨(bandsOf rl df).mapIdx fun i b => text (if i ≠ 0 then false else header) b, mode, slots, holds⟩
      (m.parts.length + 1) old, hc, ?_, rfl, ?_, ?_⟩
  · unfold LFrame.toCsv
    rw [p1, Option.bind_some, hp, hb]
    rfl
  · apply csvInv_init
    have hb' := mapM_length hb
    rw [← hp] at hb'
    simp only [List.length_mapIdx]
    omega
  · intro p hp
    simp only [csvInit, List.mem_map] at hp
    obtain ⟨_, _, rfl⟩ := hp
    rfl

/-- **C53** (partial).  A frame that is shown as `df` is written in mode `mode` to a file that held `old`; `head` and
    `line` are the texts of the header and of a row.  Then, whatever the engine does and whichever workers die where
    (`es`), no more than five steps are made for each worker, and:

    * at every moment the file is untouched, or holds a beginning of what pandas would have written, behind the old
      content in mode `a`: never a hole, never a row out of order;
    * when all workers are done it holds exactly what pandas would have written;
    * if no worker dies, no worker fails, and the run can go on until all workers are done: it never blocks
      (`hslots`: a waiting task leaves its place to others, or there is a place for each).

    Missing: mode `x` with an existing file or with several row partitions (`C53_exclusive_mode_fails`), texts that are
    not made row by row (`C53_dates_wrong`), frames without blocks (`C53_no_rows_no_file`), compressed files
    (`C53_compressed_not_recognised`). -/
theorem C53_to_csv_partial [DecidableEq ι] [DecidableEq κ] (head : List κ → List β) (line : List κ → ι → List α → List β)
    (header : Bool) (mode : OpenMode) (slots : Nat) (holds : Bool) (old : Option (List β)) (m : LFrame ι κ α)
    (df : Frame ι κ α) (h : m.Shows df) :
    ∃ job s0, m.toCsv (fun hd b => some (csvText head line hd b)) header mode slots holds old = some (job, s0) ∧
      ∀ es s, csvRun job s0 es = some s →
        es.length ≤ 5 * s.phases.length ∧
        (s.file = old ∨ ∃ u w, s.file = some u ∧ writtenFile mode old (csvText head line header df) = some w ∧
          u <+: w ∧ (mode = .a → old.getD [] <+: u)) ∧
        ((∀ p ∈ s.phases, p = .done) → s.file = writtenFile mode old (csvText head line header df)) ∧
        ((mode = .x → old = none ∧ s.phases.length ≤ 1) → (∀ i k, .crash i k ∉ es) →
          .failed ∉ s.phases ∧
          ((holds = false ∧ 1 ≤ slots) ∨ s.phases.length ≤ slots →
            (∀ p ∈ s.phases, p = .done) ∨ ∃ e s', (∀ i k, e ≠ CsvEvent.crash i k) ∧ csvStep job s e = some s')) := by
  obtain ⟨rl, cw, job, s0, hc, e1, ejob, hinv, hpend⟩ := toCsv_job h (fun hd b => some (csvText head line hd b)) header mode
    slots holds old
  refine ⟨job, s0, e1, ?_⟩
  intro es s hrun
  obtain ⟨t, _, hi⟩ := csvInv_run es hinv hrun
  have hlen := csvRun_length es hrun
  have hmode : job.mode = mode := by rw [ejob]
  have hslot : job.slots = slots := by rw [ejob]
  have hhold : job.holds = holds := by rw [ejob]
  have htexts : ∀ x ∈ job.texts, x.isSome := by
    rw [ejob]
    intro x hx
    simp only [List.mem_mapIdx] at hx
    obtain ⟨_, _, rfl⟩ := hx
    rfl
  have hfull : csvFilled job old job.texts.length = csvBase mode old ++ csvText head line header df := by
    unfold csvFilled
    rw [List.take_length, hmode, ejob]
    congr 1
    exact texts_flatten head line header h.wf hc
  have hne : job.texts.length ≠ 0 := by
    rw [ejob]
    simp only [List.length_mapIdx]
    intro h0
    exact bandsOf_ne hc.rl_ne df (List.length_eq_zero_iff.mp h0)
  -- in mode `x` an old file is never touched
  have hx : mode = .x → ∀ o, old = some o → s.file = old ∧ ¬ ∀ p ∈ s.phases, p = .done := by
    intro hm o ho
    have key : ∀ (es : List CsvEvent) (s s' : CsvState β), CsvInv job old s 0 ∧ (∀ p ∈ s.phases, p ≠ .done) ∧ s.file = old ∧
        s.phases[0]? ≠ some .opened ∧ s.phases[0]? ≠ some .written → csvRun job s es = some s' →
        s'.file = old ∧ ∀ p ∈ s'.phases, p ≠ .done := by
      intro es
      induction es with
      | nil => intro s s' ⟨_, a, b, _, _⟩ hr; cases hr; exact ⟨b, a⟩
      | cons e es ih =>
        intro s s' ⟨i0, a, b, c, d⟩ hr
        simp only [csvRun, Option.bind_eq_some_iff] at hr
        obtain ⟨s1, h1, h2⟩ := hr
        have hset : ∀ (i : Nat) (p : CsvPhase), p ≠ .done → ∀ q ∈ s.phases.set i p, q ≠ .done := by
          intro i p hp q hq
          rcases List.mem_or_eq_of_mem_set hq with h | h
          · exact a q h
          · rw [h]; exact hp
        have hset0 : ∀ (i : Nat) (p q : CsvPhase), p ≠ q → s.phases[0]? ≠ some q → (s.phases.set i p)[0]? ≠ some q := by
          intro i p q hp hq
          rw [List.getElem?_set]
          split
          · split
            · simpa using hp
            · simp
          · exact hq
        have hmove : ∀ (i : Nat) (p : CsvPhase), (p = .running ∨ p = .waiting ∨ p = .failed) → s1 = s.setPhase i p →
            ∀ t', CsvInv job old s1 t' → s'.file = old ∧ ∀ p ∈ s'.phases, p ≠ .done := by
          intro i p hp hs1 t' hi'
          have ht' : t' = 0 := by
            apply Nat.eq_zero_of_not_pos
            intro hpos
            have := hi'.before 0 hpos
            rw [hs1] at this
            have hmem := List.mem_of_getElem? this
            refine hset i p ?_ _ hmem rfl
            rcases hp with rfl | rfl | rfl <;> decide
          subst ht'
          refine ih s1 s' ⟨hi', ?_, ?_, ?_, ?_⟩ h2
          · rw [hs1]; exact hset i p (by rcases hp with rfl | rfl | rfl <;> decide)
          · rw [hs1]; exact b
          · rw [hs1]; exact hset0 i p _ (by rcases hp with rfl | rfl | rfl <;> decide) c
          · rw [hs1]; exact hset0 i p _ (by rcases hp with rfl | rfl | rfl <;> decide) d
        obtain ⟨t', _, hi'⟩ := csvInv_step i0 e h1
        cases e with
        | start i =>
          simp only [csvStep] at h1
          split at h1
          · cases h1; exact hmove i _ (Or.inl rfl) rfl t' hi'
          · cases h1
        | buffer i =>
          simp only [csvStep] at h1
          split at h1
          · cases h1; exact hmove i _ (by split <;> simp) rfl t' hi'
          · cases h1
        | enter i =>
          simp only [csvStep] at h1
          split at h1
          · rename_i hcnd
            obtain ⟨rfl, hfile⟩ := csv_enter_turn i0 hcnd
            split at h1
            · rename_i f hf
              rw [hfile, hmode, hm, ho] at hf
              simp [workerMode, csvTurnFile, openFile] at hf
            · cases h1; exact hmove 0 _ (Or.inr (Or.inr rfl)) rfl t' hi'
          · cases h1
        | write i =>
          simp only [csvStep] at h1
          split at h1
          · rename_i hcnd
            have := csv_turn_of_opened i0 (Or.inl hcnd)
            subst this
            exact absurd hcnd c
          · cases h1
        | send i =>
          simp only [csvStep] at h1
          split at h1
          · rename_i hcnd
            have := csv_turn_of_opened i0 (Or.inr hcnd)
            subst this
            exact absurd hcnd d
          · cases h1
        | crash i k =>
          simp only [csvStep] at h1
          split at h1
          · rename_i hcnd
            have := csv_turn_of_opened i0 (Or.inl hcnd)
            subst this
            exact absurd hcnd c
          · cases h1; exact hmove i _ (Or.inr (Or.inr rfl)) rfl t' hi'
          · cases h1; exact hmove i _ (Or.inr (Or.inr rfl)) rfl t' hi'
          · cases h1; exact hmove i _ (Or.inr (Or.inr rfl)) rfl t' hi'
          · cases h1; exact hmove i _ (Or.inr (Or.inr rfl)) rfl t' hi'
          · cases h1
    have hpl : 0 < s0.phases.length := by rw [hinv.plen]; omega
    have h0 : s0.phases[0]? = some .pending := by
      rw [List.getElem?_eq_getElem hpl, hpend _ (List.getElem_mem hpl)]
    have hf0 : s0.file = old := by
      have := hinv.turn
      rw [h0] at this
      simpa [csvTurn, csvTurnFile] using this
    obtain ⟨k1, k2⟩ := key es s0 s ⟨hinv, fun p hp => by rw [hpend p hp]; decide, hf0, by rw [h0]; simp, by rw [h0]; simp⟩ hrun
    refine ⟨k1, fun hall => ?_⟩
    have hsl : 0 < s.phases.length := by rw [hlen.1]; exact hpl
    exact k2 _ (List.getElem_mem hsl) (hall _ (List.getElem_mem hsl))
  refine ⟨?_, ?_, ?_, ?_⟩
  · have := rank_le s.phases
    omega
  · by_cases hm : mode = .x ∧ ∃ o, old = some o
    · obtain ⟨hm, o, ho⟩ := hm
      exact Or.inl (hx hm o ho).1
    · rcases csv_file_prefix hi with hf | ⟨u, hf, hu1, hu2⟩
      · exact Or.inl hf
      · rw [hfull] at hu2
        rw [hmode] at hu1
        refine Or.inr ⟨u, _, hf, ?_, hu2, ?_⟩
        · cases mode with
          | w => rfl
          | a => rfl
          | x =>
            cases old with
            | none => rfl
            | some o => exact absurd ⟨rfl, o, rfl⟩ hm
        · rintro rfl
          exact hu1
  · intro hall
    have hfin := csv_all_done hi hall
    rw [hfin, csvTurnFile, if_neg hne, hfull]
    cases mode with
    | w => rfl
    | a => rfl
    | x =>
      cases ho : old with
      | none => rfl
      | some o => exact absurd hall (hx rfl o ho).2
  · intro hxm hcrash
    have hnf : .failed ∉ s.phases := by
      refine csvRun_no_fail htexts ?_ es hcrash hinv hrun ?_
      · rw [hmode, ← hi.plen]; exact hxm
      · intro hmem
        have := hpend _ hmem
        cases this
    refine ⟨hnf, fun hsl => ?_⟩
    by_cases hall : ∀ p ∈ s.phases, p = .done
    · exact Or.inl hall
    · right
      apply csv_progress hi _ hnf
      · apply Classical.byContradiction
        intro hno
        apply hall
        intro p hp
        apply Classical.byContradiction
        intro hpd
        exact hno ⟨p, hp, hpd⟩
      · rw [hslot, hhold, ← hi.plen]; exact hsl

/-- **C53, failure.**  For any texts (also when `df.to_csv` raises for a partition) and any run from the start: once
    worker `i` has failed, no later worker ever finishes; what is in the file then is the old content or a beginning of
    the texts of the partitions. -/
theorem C53_failure_stops_later_workers (job : CsvJob β) (old : Option (List β)) (count : Nat) (hcount : job.texts.length < count)
    (es es' : List CsvEvent) (s s' : CsvState β) (h1 : csvRun job (csvInit job count old) es = some s)
    (i : Nat) (hf : s.phases[i]? = some .failed) (h2 : csvRun job s es' = some s') :
    (∀ j, i ≤ j → s'.phases[j]? ≠ some .done) ∧
    (s'.file = old ∨ ∃ u, s'.file = some u ∧ u <+: csvBase job.mode old ++ (job.texts.map (·.getD [])).flatten) := by
  obtain ⟨t, _, hi⟩ := csvInv_run es (csvInv_init job old hcount) h1
  obtain ⟨t', _, hi'⟩ := csvInv_run es' hi h2
  have hf' := csvRun_failed es' h2 hf
  constructor
  · intro j hj hd
    have hti : t' ≤ i := by
      apply Nat.le_of_not_lt
      intro hlt
      rw [hi'.before i hlt] at hf'
      cases hf'
    rcases Nat.lt_or_eq_of_le (Nat.le_trans hti hj) with hlt | heq
    · exact (hi'.after j hlt).2.2 hd
    · have := hi'.turn
      rw [heq, hd] at this
      exact this
  · rcases csv_file_prefix hi' with hf | ⟨u, a, b, c⟩
    · exact Or.inl hf
    · refine Or.inr ⟨u, a, ?_⟩
      unfold csvFilled at c
      rwa [List.take_length] at c

/-! ### when the parallel version is used -/

/-- **C53, encodings.**  The names of the encodings that begin a text with a mark (Python's aliases of utf-16 and utf-32),
    in whatever case, are left to pandas. -/
theorem C53_marked_encodings_left_to_pandas (k : CsvArgs) (e : List Char) (he : k.encoding = some e)
    (hm : e.map Char.toLower ∈ ["utf-16", "utf16", "utf_16", "u16", "utf-32", "utf32", "utf_32", "u32"].map String.toList) :
    csvSupported k = false := by
  unfold csvSupported
  split
  · rfl
  · split
    · rfl
    · rw [he]
      simp only [List.map_cons, List.map_nil, List.mem_cons, List.not_mem_nil, or_false] at hm
      have : ((isIn "u".toList (e.map Char.toLower) || isIn "utf".toList (e.map Char.toLower)) &&
          (isIn "16".toList (e.map Char.toLower) || isIn "32".toList (e.map Char.toLower))) = true := by
        rcases hm with h | h | h | h | h | h | h | h <;> rw [h] <;> decide
      simp only [this, ↓reduceIte]

/-- **C53, compression** (partial).  When the parallel version is used, a name in small letters that ends neither with
    `.tar` nor with `.zst` is not one for which pandas would compress. -/
theorem C53_uncompressed_partial (k : CsvArgs) (path : List Char) (hp : k.path = some path) (hs : csvSupported k = true)
    (hlow : path.map Char.toLower = path) (h1 : ".tar".toList.isSuffixOf path = false)
    (h2 : ".zst".toList.isSuffixOf path = false) : inferredCompressed path = false := by
  have hno : ¬ ([".gz", ".bz2", ".zip", ".xz"].map String.toList).any (·.isSuffixOf path) = true := by
    intro hany
    revert hs
    unfold csvSupported
    rw [hp]
    simp only [hany, ↓reduceIte]
    (repeat' split) <;> simp
  have hext : ∀ e ∈ [".gz", ".bz2", ".zip", ".xz"].map String.toList, e.isSuffixOf path = false := by
    intro e he
    rw [Bool.eq_false_iff]
    intro hsuf
    exact hno (List.any_eq_true.mpr ⟨e, he, hsuf⟩)
  have hlong : ∀ e a : List Char, e.isSuffixOf path = false → (a ++ e).isSuffixOf path = false := by
    intro e a he
    rw [Bool.eq_false_iff] at he ⊢
    intro hc
    apply he
    rw [List.isSuffixOf_iff_suffix] at hc ⊢
    exact List.IsSuffix.trans (List.suffix_append _ _) hc
  have e1 := hext ".gz".toList (by decide)
  have e2 := hext ".bz2".toList (by decide)
  have e3 := hext ".zip".toList (by decide)
  have e4 := hext ".xz".toList (by decide)
  unfold inferredCompressed compressedExtensions
  rw [hlow, List.any_eq_false]
  intro e he
  simp only [List.map_cons, List.map_nil, List.mem_cons, List.not_mem_nil, or_false] at he
  rw [Bool.not_eq_true]
  rcases he with rfl | rfl | rfl | rfl | rfl | rfl | rfl | rfl | rfl
  · exact h1
  · exact hlong _ ".tar".toList e1
  · exact hlong _ ".tar".toList e2
  · exact hlong _ ".tar".toList e4
  · exact e1
  · exact e2
  · exact e3
  · exact e4
  · exact h2

/-! ### cases and witnesses -/

namespace ToCsvDemo

/-- three rows -/
def df : Frame Int String Int := { index := [7, 8, 9], columns := ["a"], rows := [[1], [2], [3]] }

/-- in row partitions of 2 and 1 rows -/
def m : LFrame Int String Int :=
  { parts := df.cut [2, 1] [1], index := some df.index, columns := none, rowLens := some [2, 1], colWidths := none,
    defIndex := false, defColumns := false }

theorem m_shows : m.Shows df :=
  represents_shows ⟨⟨rfl, by decide⟩, ⟨[2, 1], [1], ⟨by decide, by decide, by decide, by decide⟩, rfl, Or.inr rfl, Or.inl rfl⟩,
    Or.inr rfl, Or.inl rfl⟩

/-- header: 0; a line: the label, then the cells -/
def text (hd : Bool) (b : Frame Int String Int) : Option (List Int) :=
  some (csvText (fun _ => [0]) (fun _ i r => i :: r) hd b)

/-- the hypotheses of `C53_to_csv_partial` are met: worker 1 starts first -/
example : ((m.toCsv text true .w 1 false (some [5, 5])).bind fun x => csvRun x.1 x.2
    [.start 1, .buffer 1, .start 0, .buffer 0, .enter 0, .write 0, .send 0, .enter 1, .write 1, .send 1]) =
    some ⟨some [0, 7, 1, 8, 2, 9, 3], [true, true, true], [.done, .done]⟩ := by decide +kernel

/-- worker 0 dies in the middle of its write: worker 1 cannot go on -/
example : ((m.toCsv text true .w 2 false none).bind fun x => csvRun x.1 x.2
    [.start 1, .buffer 1, .start 0, .buffer 0, .enter 0, .crash 0 2]) =
    some ⟨some [0, 7], [true, false, false], [.failed, .waiting]⟩ := by decide +kernel

/-- **C53 is false for mode `x`**: with two row partitions the second worker opens the file, which the first has made, in
    mode `x` and fails; the file holds the rows of the first. -/
theorem C53_exclusive_mode_fails :
    ((m.toCsv text true .x 2 false none).bind fun x => csvRun x.1 x.2
      [.start 0, .buffer 0, .enter 0, .write 0, .send 0, .start 1, .buffer 1, .enter 1]) =
      some ⟨some [0, 7, 1, 8, 2], [true, true, false], [.done, .failed]⟩ ∧
    (text true df).bind (writtenFile .x none) = some [0, 7, 1, 8, 2, 9, 3] := by
  constructor <;> decide +kernel

/-- a frame without rows, as `from_pandas` makes it: no blocks -/
def none' : LFrame Int String Int :=
  { parts := [], index := some [], columns := some ["a"], rowLens := some [], colWidths := some [1],
    defIndex := false, defColumns := false }

/-- **C53 is false for a frame without rows**: there is no worker, so that no file is made and an old one keeps its
    content; pandas writes the header. -/
theorem C53_no_rows_no_file :
    fromPandas ⟨2, 1, 1⟩ ({ index := [], columns := ["a"], rows := [] } : Frame Int String Int) = some none'.toMFrame ∧
    ((none'.toCsv text true .w 2 false (some [5])).map fun x => (x.2.file, x.2.phases)) = some (some [5], []) ∧
    (text true ({ index := [], columns := ["a"], rows := [] } : Frame Int String Int)).bind (writtenFile .w (some [5])) =
      some [0] := by
  refine ⟨?_, ?_, ?_⟩ <;> decide +kernel

/-- times, written without the time of day if all are at midnight, as pandas does for a column of times: a cell is minutes
    since the first day -/
def dateText (hd : Bool) (b : Frame Int String Int) : Option (List Int) :=
  some ((if hd then [0] else []) ++ (b.rows.map fun r =>
    if b.rows.all (fun r => r.all (· % 1440 == 0)) then r.map (· / 1440) else r.flatMap fun x => [x / 1440, x % 1440]).flatten)

def times : Frame Int String Int := { index := [7, 8, 9], columns := ["a"], rows := [[1440], [2880], [4321]] }

/-- **C53 is false for a text that is not made row by row**: the first two times are at midnight and are written as dates,
    as they are alone in their partition; pandas writes the time of day in all rows. -/
theorem C53_dates_wrong :
    ((({ m with parts := times.cut [2, 1] [1] } : LFrame Int String Int).toCsv dateText false .w 2 false none).bind fun x =>
      csvRun x.1 x.2 [.start 0, .buffer 0, .enter 0, .write 0, .send 0, .start 1, .buffer 1, .enter 1, .write 1, .send 1]) =
      some ⟨some [1, 2, 3, 1], [true, true, true], [.done, .done]⟩ ∧
    (dateText false times).bind (writtenFile .w none) = some [1, 0, 2, 0, 3, 1] := by
  constructor <;> decide +kernel

/-- **C53 would be false if a waiting task kept its place**: with one place, worker 1 is started first and waits for
    worker 0, which never starts. -/
theorem C53_held_places_block :
    ((m.toCsv text true .w 1 true none).bind fun x => csvRun x.1 x.2 [.start 1, .buffer 1]) =
      some ⟨none, [true, false, false], [.pending, .waiting]⟩ ∧
    ∀ job, (m.toCsv text true .w 1 true none).map (·.1) = some job → ∀ e, (∀ i k, e ≠ CsvEvent.crash i k) →
      csvStep job (⟨none, [true, false, false], [.pending, .waiting]⟩ : CsvState Int) e = none := by
  constructor
  · decide +kernel
  · intro job hj e hne
    have hj' : job.holds = true ∧ job.slots = 1 := by
      have : (m.toCsv text true .w 1 true none).map (fun x => (x.1.holds, x.1.slots)) = some (true, 1) := by decide +kernel
      rw [Option.map_eq_some_iff] at hj this
      obtain ⟨x, x1, rfl⟩ := hj
      obtain ⟨y, y1, y2⟩ := this
      rw [x1] at y1
      cases y1
      simpa using y2
    cases e with
    | start i =>
      simp only [csvStep, hj'.1, hj'.2]
      rw [if_neg]
      rintro ⟨_, h2⟩
      simp [CsvPhase.busy] at h2
    | buffer i =>
      simp only [csvStep]
      rw [if_neg]
      rcases i with _ | _ | i <;> simp
    | enter i =>
      simp only [csvStep]
      rw [if_neg]
      rcases i with _ | _ | i <;> simp
    | write i =>
      simp only [csvStep]
      rw [if_neg]
      rcases i with _ | _ | i <;> simp
    | send i =>
      simp only [csvStep]
      rw [if_neg]
      rcases i with _ | _ | i <;> simp
    | crash i k => exact absurd rfl (hne i k)

/-- the hypotheses of `C53_marked_encodings_left_to_pandas` and `C53_uncompressed_partial` are met -/
example : csvSupported ⟨some "a.csv".toList, "w".toList, some "UTF-16".toList, some "infer".toList⟩ = false ∧
    csvSupported ⟨some "a.csv".toList, "w".toList, some "utf-8".toList, some "infer".toList⟩ = true := by decide +kernel

/-- **C53 is false for `.zst`, `.tar` and names in capitals**: pandas would write one compressed file; the parallel version
    is used, in which every worker compresses its own rows. -/
theorem C53_compressed_not_recognised :
    ∀ p ∈ ["a.csv.zst", "a.csv.tar", "a.csv.ZIP"].map String.toList,
      csvSupported ⟨some p, "w".toList, none, some "infer".toList⟩ = true ∧ inferredCompressed p = true := by decide +kernel

end ToCsvDemo
