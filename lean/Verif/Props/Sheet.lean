import Verif.Lemmas.Sheet
import Verif.Props.Readers
/-
C86: `read_excel` and `read_json(lines=True)` read every row once, whatever the number of partitions.
-/

variable {ι κ α : Type}

/-! ### `read_json(lines=True)` -/

theorem byteLoop_starts {B : Type} [DecidableEq B] (d : Dialect B) (file : List B) (size fuel : Nat) :
    ∀ pos, ∀ r ∈ byteLoop d file size fuel pos, r.1 < file.length := by
  induction fuel with
  | zero => intro pos r hr; cases hr
  | succ fuel ih =>
    intro pos r hr
    unfold byteLoop at hr
    split at hr
    · rename_i hp
      rcases List.mem_cons.1 hr with rfl | hr
      · exact hp
      · exact ih _ r hr
    · cases hr

theorem tiles_nonempty {B : Type} {file : List B} (rs : List (Nat × Nat)) : ∀ (pos : Nat), Tiles (file.length ≤ ·) pos rs →
    (∀ r ∈ rs, r.1 < file.length) → ∀ r ∈ rs, pySlice file r.1 r.2 ≠ [] := by
  induction rs with
  | nil => intro _ _ _ r hr; cases hr
  | cons x rs ih =>
    intro pos ht hle r hr
    rcases List.mem_cons.1 hr with rfl | hr
    · obtain ⟨h1, h2, _⟩ := ht
      have := hle r (by simp)
      intro h0
      have hl := congrArg List.length h0
      simp [pySlice] at hl
      omega
    · exact ih _ ht.2.2 (fun y hy => hle y (List.mem_cons_of_mem _ hy)) r hr

theorem ranges_nonempty {B : Type} [DecidableEq B] (d : Dialect B) (hd : d.Ok) (file : List B) (np : Nat) :
    ∀ r ∈ partitionedFile d file np none 0 0 0, pySlice file r.1 r.2 ≠ [] := by
  obtain ⟨_, _, _, _, e4⟩ := byteLoop_spec d hd file (max 1 (max np (file.length / np))) (by omega) (file.length + 1) 0 0 (atRecord_zero d file) (by omega)
  have : partitionedFile d file np none 0 0 0 = byteLoop d file (max 1 (max np (file.length / np))) (file.length + 1) 0 := rfl
  rw [this]
  exact tiles_nonempty _ 0 e4 (byteLoop_starts d file _ _ 0)

theorem recordKeys_same [DecidableEq κ] (cols : List κ) (hn : cols.Nodup) (records : List (List (κ × α))) (hne : records ≠ [])
    (h : ∀ r ∈ records, r.map (·.1) = cols) : recordKeys records = cols := by
  have stay : ∀ (l : List (κ × α)) (ks : List κ), (∀ e ∈ l, e.1 ∈ ks) → l.foldl (fun ks e => if e.1 ∈ ks then ks else ks ++ [e.1]) ks = ks := by
    intro l
    induction l with
    | nil => intro _ _; rfl
    | cons e l ih =>
      intro ks he
      rw [List.foldl_cons, if_pos (he e (by simp))]
      exact ih ks fun x hx => he x (List.mem_cons_of_mem _ hx)
  have grow : ∀ (l : List (κ × α)) (ks : List κ), (ks ++ l.map (·.1)).Nodup →
      l.foldl (fun ks e => if e.1 ∈ ks then ks else ks ++ [e.1]) ks = ks ++ l.map (·.1) := by
    intro l
    induction l with
    | nil => intro ks _; simp
    | cons e l ih =>
      intro ks hks
      have hmem : e.1 ∉ ks := by
        intro hm
        rw [List.nodup_append] at hks
        exact hks.2.2 _ hm e.1 (by simp) rfl
      rw [List.foldl_cons, if_neg hmem, ih (ks ++ [e.1]) (by simpa using hks)]
      simp
  unfold recordKeys
  cases records with
  | nil => exact absurd rfl hne
  | cons r rs =>
    rw [List.flatten_cons, List.foldl_append, grow r [] (by rw [List.nil_append, h r (by simp)]; exact hn), List.nil_append, h r (by simp)]
    apply stay
    intro e he
    obtain ⟨x, hx, he⟩ := List.mem_flatten.1 he
    rw [← h x (List.mem_cons_of_mem _ hx)]
    exact List.mem_map_of_mem he

/-- a record brought to the columns -/
def recordRow [DecidableEq κ] (nan : α) (cols : List κ) (r : List (κ × α)) : List α :=
  cols.map fun k => ((r.find? fun e => decide (e.1 = k)).map (·.2)).getD nan

theorem mapM_decode {A B : Type} (decode : A → Option B) (P : B → Prop) (l : List A) (h : ∀ x ∈ l, ∃ r, decode x = some r ∧ P r) :
    ∃ rs, l.mapM decode = some rs ∧ rs.length = l.length ∧ ∀ r ∈ rs, P r := by
  induction l with
  | nil => exact ⟨[], rfl, rfl, by simp⟩
  | cons x l ih =>
    obtain ⟨r, e1, e2⟩ := h x (by simp)
    obtain ⟨rs, f1, f2, f3⟩ := ih fun y hy => h y (List.mem_cons_of_mem _ hy)
    refine ⟨r :: rs, by rw [List.mapM_cons, e1, f1]; rfl, by simp [f2], ?_⟩
    intro y hy
    rcases List.mem_cons.1 hy with rfl | hy
    · exact e2
    · exact f3 y hy

/-- **C86**, `read_json(lines=True)`: for every file and every number of partitions the frame has a row for every line, in order, as
    pandas' frame of the records.  Partial: no line is blank, and every record has the keys of the first one in the same order; see
    `C86_json_blank_line`, `C86_json_missing_key`, `C86_json_nrows`. -/
theorem C86_read_json_partial {B : Type} [DecidableEq B] [DecidableEq ι] [DecidableEq κ] (cfg : Cfg) (hp : 1 ≤ cfg.nPartitions)
    (hmc : 1 ≤ cfg.minCol) (d : Dialect B) (hd : d.Ok) (blank : List B → Bool) (decode : List B → Option (List (κ × α))) (num : Int → ι)
    (nan : α) (file : List B) (hne : file ≠ []) (cols : List κ) (hn : cols.Nodup) (records : List (List (κ × α)))
    (hb : ∀ l ∈ splitLines d.nl file, blank l = false) (hdec : (splitLines d.nl file).mapM decode = some records)
    (hk : ∀ r ∈ records, r.map (·.1) = cols) :
    ∃ m, readJsonLines cfg d blank decode num nan none file = some m ∧ m.Shows (jsonFrame num nan records) ∧
      m.toPandas nan = some (jsonFrame num nan records) := by
  have hline : ∀ l ∈ splitLines d.nl file, ∃ r, decode l = some r ∧ r.map (·.1) = cols := by
    generalize splitLines d.nl file = ls at hdec
    clear hb
    induction ls generalizing records with
    | nil => intro l hl; cases hl
    | cons x ls ih =>
      rw [List.mapM_cons] at hdec
      cases hx : decode x with
      | none => rw [hx] at hdec; cases hdec
      | some r =>
        rw [hx] at hdec
        cases hls : ls.mapM decode with
        | none => rw [hls] at hdec; cases hdec
        | some rs =>
          rw [hls] at hdec
          injection hdec with hdec
          subst hdec
          intro l hl
          rcases List.mem_cons.1 hl with rfl | hl
          · exact ⟨r, hx, hk r (by simp)⟩
          · exact ih rs (fun y hy => hk y (List.mem_cons_of_mem _ hy)) hls l hl
  have hnb : ∀ ls : List (List B), (∀ l ∈ ls, l ∈ splitLines d.nl file) → ls.filter (fun l => !blank l) = ls := by
    intro ls hls
    rw [List.filter_eq_self]
    intro l hl
    simp [hb l (hls l hl)]
  have hLne : splitLines d.nl file ≠ [] := by
    intro h
    exact hne ((cutWith_eq_nil _ _ _ _).1 h)
  have hframe : ∀ rs : List (List (κ × α)), rs ≠ [] → (∀ r ∈ rs, r.map (·.1) = cols) →
      (jsonFrame num nan rs).columns = cols ∧ (jsonFrame num nan rs).rows = rs.map (recordRow nan cols) ∧ (jsonFrame num nan rs).WF := by
    intro rs h1 h2
    have hkeys := recordKeys_same cols hn rs h1 h2
    refine ⟨hkeys, ?_, ?_, ?_⟩
    · unfold jsonFrame recordRow
      simp only [hkeys]
    · simp [jsonFrame, rangeLabels]
    · intro r hr
      simp only [jsonFrame, List.mem_map] at hr
      obtain ⟨x, _, rfl⟩ := hr
      simp [jsonFrame]
  -- the first line
  obtain ⟨first, f1, f2, f3⟩ := mapM_decode decode (fun r : List (κ × α) => r.map (·.1) = cols) ((splitLines d.nl file).take 1)
    fun l hl => hline l (List.mem_of_mem_take hl)
  have hfne : first ≠ [] := by
    intro h
    rw [h, List.length_take] at f2
    have := List.length_pos_iff.2 hLne
    simp at f2
    omega
  have hcols := (hframe first hfne f3).1
  -- the ranges
  let chunks := (partitionedFile d file cfg.nPartitions none 0 0 0).map fun r => pySlice file r.1 r.2
  have hlines : (chunks.map (splitLines d.nl)).flatten = splitLines d.nl file := by
    simp only [chunks, List.map_map]
    exact ranges_lines d hd file cfg.nPartitions
  have hcne : ∀ c ∈ chunks, c ≠ [] := by
    intro c hc
    obtain ⟨r, hr, rfl⟩ := List.mem_map.1 hc
    exact ranges_nonempty d hd file _ r hr
  have hchne : chunks ≠ [] := by
    intro h
    rw [h] at hlines
    exact hLne (by simpa using hlines.symm)
  have hparse : ∀ cs : List (List B), (∀ c ∈ cs, c ≠ []) → ∀ recs, (∀ c ∈ cs, ∀ l ∈ splitLines d.nl c, l ∈ splitLines d.nl file) →
      (cs.map (splitLines d.nl)).flatten.mapM decode = some recs →
      ∃ fs, cs.mapM (jsonParse d.nl blank decode num nan none cols) = some fs ∧ fs.length = cs.length ∧
        (∀ f ∈ fs, f.WF ∧ f.columns = cols) ∧ (fs.map (·.rows)).flatten = recs.map (recordRow nan cols) := by
    intro cs
    induction cs with
    | nil =>
      intro _ recs _ h
      refine ⟨[], rfl, rfl, by simp, ?_⟩
      have : some [] = some recs := h
      injection this with this
      subst this
      rfl
    | cons c cs ih =>
      intro h1 recs h2 h3
      rw [List.map_cons, List.flatten_cons, List.mapM_append] at h3
      obtain ⟨r1, g1, g2, g3⟩ := mapM_decode decode (fun r : List (κ × α) => r.map (·.1) = cols) (splitLines d.nl c)
        fun l hl => hline l (h2 c (by simp) l hl)
      rw [g1] at h3
      cases h4 : (cs.map (splitLines d.nl)).flatten.mapM decode with
      | none => rw [h4] at h3; cases h3
      | some r2 =>
        rw [h4] at h3
        injection h3 with h3
        subst h3
        obtain ⟨fs, k1, k2, k3, k4⟩ := ih (fun x hx => h1 x (List.mem_cons_of_mem _ hx)) r2 (fun x hx => h2 x (List.mem_cons_of_mem _ hx)) h4
        have hr1 : r1 ≠ [] := by
          intro h
          rw [h] at g2
          exact h1 c (by simp) ((cutWith_eq_nil _ _ _ _).1 (List.length_eq_zero_iff.1 g2.symm))
        obtain ⟨q1, q2, q3⟩ := hframe r1 hr1 g3
        have hj : jsonParse d.nl blank decode num nan none cols c = some (jsonFrame num nan r1) := by
          unfold jsonParse
          rw [hnb _ (h2 c (by simp)), g1, Option.bind_some]
          exact if_pos q1
        refine ⟨jsonFrame num nan r1 :: fs, by rw [List.mapM_cons, hj, k1]; rfl, by simp [k2], ?_, ?_⟩
        · intro f hf
          rcases List.mem_cons.1 hf with rfl | hf
          · exact ⟨q3, q1⟩
          · exact k3 f hf
        · rw [List.map_cons, List.flatten_cons, k4, q2, List.map_append]
  obtain ⟨fs, k1, k2, k3, k4⟩ := hparse chunks hcne records (by
    intro c hc l hl
    rw [← hlines]
    exact List.mem_flatten.2 ⟨_, List.mem_map_of_mem hc, hl⟩) (by rw [hlines]; exact hdec)
  have hfs : fs ≠ [] := by
    intro h
    rw [h] at k2
    exact hchne (List.length_eq_zero_iff.1 k2.symm)
  obtain ⟨m, m1, m2⟩ := assembleRead_shows cfg hp hmc num cols fs hfs k3
  have hrne : records ≠ [] := by
    intro h
    subst h
    cases hs : splitLines d.nl file with
    | nil => exact hLne hs
    | cons x xs =>
      rw [hs, List.mapM_cons] at hdec
      cases h1 : decode x with
      | none => rw [h1] at hdec; cases hdec
      | some r =>
        rw [h1] at hdec
        cases h2 : xs.mapM decode with
        | none => rw [h2] at hdec; cases hdec
        | some rs => rw [h2] at hdec; cases hdec
  obtain ⟨q1, q2, q3⟩ := hframe records hrne hk
  have hres : (Frame.mk (rangeLabels num 0 1 (fs.map (·.rows)).flatten.length) cols (fs.map (·.rows)).flatten : Frame ι κ α) =
      jsonFrame num nan records := by
    rw [k4, ← q2]
    conv => lhs; rw [← q1]
    simp [jsonFrame]
  rw [hres] at m2
  refine ⟨m, ?_, m2, (m2.observed nan).1⟩
  unfold readJsonLines
  rw [hnb _ (fun l hl => List.mem_of_mem_take hl), f1, Option.bind_some]
  simp only [hcols]
  exact (congrArg (·.bind (assembleRead cfg num cols)) k1).trans m1

/-! ### `read_excel` -/

/-- **C86**, cutting a worksheet: for every worksheet and every size of at least four characters the pieces handed to the workers are runs of
    complete rows that, in order, make up all rows, and with each comes the number of rows before it. -/
theorem C86_excel_pieces (size : Nat) (hs : 4 ≤ size) (pre : List Char) (rows : List (List Char)) (tail : List Char)
    (h : SheetText pre rows tail) : ∃ gs : List (List (List Char)), gs.flatten = rows ∧ (∀ g ∈ gs, g ≠ []) ∧
      excelPieces size ((rows.flatten ++ tail).length + 1) (rows.flatten ++ tail) 0 =
        some (gs.mapIdx fun i g => ((gs.take i).flatten.length, g.flatten)) := by
  obtain ⟨gs, g1, g2, g3⟩ := excelPieces_spec size hs h.tail_starts h.tail_open h.tail_close ((rows.flatten ++ tail).length + 1) rows 0 h.rows_ok (by
    have := flatten_long rows h.rows_ok
    rw [List.length_append]; omega)
  refine ⟨gs, g1, g2, ?_⟩
  rw [g3]
  congr 1
  have key : ∀ (gs : List (List (List Char))) (s : Nat), numbered s gs = gs.mapIdx fun i g => (s + (gs.take i).flatten.length, g.flatten) := by
    intro gs
    induction gs with
    | nil => intro s; rfl
    | cons g gs ih =>
      intro s
      rw [numbered, ih, List.mapIdx_cons]
      congr 1
      apply List.ext_getElem
      · simp
      · intro i _ _
        simp [Nat.add_assoc]
  rw [key gs 0]
  simp

theorem occurs_open_rows {r : List Char} {rs : List (List Char)} {tail : List Char} (hr : RowText r) :
    (occurs rowOpen ((r :: rs).flatten ++ tail)).head? = some 0 := by
  obtain ⟨t, rfl⟩ := hr.head
  simp [rowOpen, occurs, List.isPrefixOf]

/-- **C86**, `read_excel`: for every worksheet, every number of partitions and with the names of the columns in the first row or nowhere, the
    frame is the one pandas reads.  Partial: the rows are numbered one after the other, all of the same width and none blank; the names are
    such as pandas does not change, unless one is empty; there is a row of data; and the part of the file with the data has at least four characters per
    partition.  See `C86_excel_empty_sheet`, `C86_excel_small_file`, `C86_excel_gap`, `C86_excel_blank_piece`, `C86_excel_header_row`,
    `C86_excel_repeated_name`. -/
theorem C86_read_excel_partial [DecidableEq ι] [DecidableEq α] (cfg : Cfg) (hp : 1 ≤ cfg.nPartitions) (hmc : 1 ≤ cfg.minCol)
    (decode : List Char → Int × List α) (num : Int → ι) (colNum : Nat → α) (nan blank : α) (isna falsy : α → Bool) (mangle : List α → List α)
    (header : Option Nat) (hh : header = none ∨ header = some 0) (pre : List Char) (rows : List (List Char)) (tail : List Char)
    (hx : SheetText pre rows tail) (cells : List (List α)) (hdec : rows.map decode = cells.mapIdx fun i c => ((i : Int) + 1, c)) (w : Nat)
    (hw : ∀ c ∈ cells, c.length = w) (hna : ∀ c ∈ cells, c.all isna = false)
    (hml : ∀ c, (mangle c).length = c.length) (hm : header = some 0 → ∀ c, cells.head? = some c → c.any falsy = true ∨ mangle c = c) (hrows : header.isSome.toNat < rows.length)
    (hsize : 4 * cfg.nPartitions ≤ ((rows.drop header.isSome.toNat).flatten ++ tail).length) :
    ∃ m df, pandasExcel num colNum blank isna mangle header (rows.map decode) = some df ∧
      readExcel cfg decode num colNum blank isna falsy mangle header (pre ++ rows.flatten ++ tail) = some m ∧ m.Shows df ∧
      m.toPandas nan = some df := by
  have hlen : rows.length = cells.length := by simpa using congrArg List.length hdec
  obtain ⟨r0, rs, rfl⟩ : ∃ r0 rs, rows = r0 :: rs := by
    cases rows with
    | nil => simp at hrows
    | cons r rs => exact ⟨r, rs, rfl⟩
  obtain ⟨c0, cs, rfl⟩ : ∃ c0 cs, cells = c0 :: cs := by
    cases cells with
    | nil => simp at hlen
    | cons c cs => exact ⟨c, cs, rfl⟩
  have hR := hx.rows_ok r0 (by simp)
  have hl6 := hR.long
  have hstart := rows_head hx.rows_ok hx.tail_starts
  have hclose : (occurs rowClose (pre ++ (r0 :: rs).flatten ++ tail)).head? = some (r0.length - 6 + pre.length) := by
    rw [List.append_assoc, rowClose_eq, occurs_append _ _ _ (by decide) hstart, ← rowClose_eq, hx.pre_close,
      occurs_close_rows hx.rows_ok hx.tail_starts hx.tail_close]
    rfl
  have hopen : (occurs rowOpen (pre ++ (r0 :: rs).flatten ++ tail)).head? = some pre.length := by
    rw [List.append_assoc, rowOpen_eq, occurs_append _ _ _ (by decide) hstart, ← rowOpen_eq, hx.pre_open, List.nil_append, List.head?_map,
      occurs_open_rows hR]
    simp
  have hi : r0.length - 6 + pre.length + rowClose.length = pre.length + r0.length := by simp [rowClose]; omega
  have hxml : pre ++ (r0 :: rs).flatten ++ tail = (pre ++ r0) ++ (rs.flatten ++ tail) := by simp
  have hfirst : ((pre ++ (r0 :: rs).flatten ++ tail).take (pre.length + r0.length)).drop pre.length = r0 := by
    rw [hxml, ← List.length_append, List.take_left, List.drop_left]
  have hrest1 : (pre ++ (r0 :: rs).flatten ++ tail).drop (pre.length + r0.length) = rs.flatten ++ tail := by
    rw [hxml, ← List.length_append, List.drop_left]
  have hrest0 : (pre ++ (r0 :: rs).flatten ++ tail).drop pre.length = (r0 :: rs).flatten ++ tail := by
    rw [List.append_assoc, List.drop_left]
  have hdec0 : decode r0 = (1, c0) := by
    rw [List.map_cons, List.mapIdx_cons] at hdec
    have h := (List.cons.inj hdec).1
    simpa using h
  have hdata : sheetTable blank [decode r0] = [c0] := by
    rw [hdec0]
    exact sheetTable_fromOne blank [c0] w (by simpa using hw c0 (by simp))
  have htable : sheetTable blank ((r0 :: rs).map decode) = c0 :: cs := by
    rw [hdec]
    exact sheetTable_fromOne blank _ w hw
  have htrim : trimBlank isna (c0 :: cs) = c0 :: cs := trimBlank_keep isna _ fun r hr => hna r (List.mem_of_getLast? hr)
  -- the data rows
  obtain ⟨pref, hpref⟩ : ∃ pref, pref = (c0 :: cs).take header.isSome.toNat := ⟨_, rfl⟩
  have hhp : header = none ∧ pref = [] ∨ header = some 0 ∧ pref.length = 1 := by
    rcases hh with rfl | rfl
    · exact Or.inl ⟨rfl, by simpa using hpref⟩
    · exact Or.inr ⟨rfl, by simp [hpref]⟩
  have hpl : pref.length = header.isSome.toNat := by
    rcases hhp with ⟨rfl, rfl⟩ | ⟨rfl, h⟩
    · rfl
    · exact h
  have hheadDec : ((r0 :: rs).take header.isSome.toNat).map decode = fromOne pref := by
    rcases hhp with ⟨rfl, rfl⟩ | ⟨rfl, _⟩
    · rfl
    · subst hpref
      simp [fromOne, hdec0]
  have hpw : ∀ c ∈ pref, c.length = w := fun c hc => hw c (List.mem_of_mem_take (hpref ▸ hc))
  have hnames : pandasExcel num colNum blank isna mangle header ((r0 :: rs).map decode) =
      some { index := rangeLabels num 0 1 ((c0 :: cs).drop header.isSome.toNat).length, columns := namesOf colNum mangle w pref,
             rows := (c0 :: cs).drop header.isSome.toNat } := by
    unfold pandasExcel
    rw [htable, htrim]
    simp only [List.isEmpty_cons, Bool.false_eq_true, ↓reduceIte]
    rcases hh with rfl | rfl
    · subst hpref
      simp [namesOf, hw c0 (by simp)]
    · subst hpref
      simp [namesOf]
  have hdataRows : ((r0 :: rs).drop header.isSome.toNat).map decode =
      ((c0 :: cs).drop header.isSome.toNat).mapIdx fun i c => (((0 + pref.length + i : Nat) : Int) + 1, c) := by
    rw [hpl, List.map_drop, hdec]
    apply List.ext_getElem
    · simp
    · intro i _ _
      rw [List.getElem_drop, List.getElem_mapIdx, List.getElem_mapIdx, List.getElem_drop]
      simp
  have hdok : ∀ r ∈ (r0 :: rs).drop header.isSome.toNat, RowText r := fun r hr => hx.rows_ok r (List.mem_of_mem_drop hr)
  obtain ⟨gs, g1, g2, g3⟩ := excelPieces_spec
    (max 1 ((((r0 :: rs).drop header.isSome.toNat).flatten ++ tail).length / cfg.nPartitions)) (by
      have := (Nat.le_div_iff_mul_le (show 0 < cfg.nPartitions by omega)).2 hsize
      omega) hx.tail_starts hx.tail_open hx.tail_close
    ((((r0 :: rs).drop header.isSome.toNat).flatten ++ tail).length + 1) ((r0 :: rs).drop header.isSome.toNat) 0 hdok (by
    have := flatten_long _ hdok
    rw [List.length_append]; omega)
  obtain ⟨fs, f1, f2, f3, f4⟩ := excelParse_groups decode num colNum blank isna mangle header ((r0 :: rs).take header.isSome.toNat) pref w hhp hheadDec
    hpw gs g2 0 ((c0 :: cs).drop header.isSome.toNat) (by rw [g1]; exact hdok) (by rw [g1]; exact hdataRows)
    (fun c hc => hw c (List.mem_of_mem_drop hc)) (fun c hc => hna c (List.mem_of_mem_drop hc))
  have hgne : gs ≠ [] := by
    rintro rfl
    have := congrArg List.length g1
    simp at this
    simp at hrows
    omega
  have hfne : fs ≠ [] := by
    rintro rfl
    exact hgne (List.length_eq_zero_iff.1 f2.symm)
  have hcw : (namesOf colNum mangle w pref).length = w := by
    rcases hhp with ⟨rfl, rfl⟩ | ⟨rfl, _⟩
    · simp [namesOf]
    · subst hpref
      simp only [namesOf, Option.isSome_some, Bool.toNat_true, List.take_succ_cons, List.take_zero]
      rw [hml, hw c0 (by simp)]
  have hfs : ∀ f ∈ fs, f.WF ∧ f.columns = namesOf colNum mangle w pref := by
    intro f hf
    refine ⟨⟨(f3 f hf).1.symm, ?_⟩, (f3 f hf).2⟩
    intro r hr
    rw [(f3 f hf).2, hcw]
    apply hw
    apply List.mem_of_mem_drop (i := header.isSome.toNat)
    rw [← f4]
    exact List.mem_flatten.2 ⟨_, List.mem_map_of_mem hf, hr⟩
  obtain ⟨m, m1, m2⟩ := assembleRead_shows cfg hp hmc num (namesOf colNum mangle w pref) fs hfne hfs
  rw [f4] at m2
  refine ⟨m, _, hnames, ?_, m2, (m2.observed nan).1⟩
  -- the file as a whole
  have hsplitAll : (splitRows (pre ++ (r0 :: rs).flatten ++ tail).length (pre ++ (r0 :: rs).flatten ++ tail)).map
      (fun r => decode (r.drop ((occurs rowOpen r).headD 0))) = (r0 :: rs).map decode := by
    have hlong := flatten_long (r0 :: rs) hx.rows_ok
    obtain ⟨n, hn⟩ : ∃ n, (pre ++ (r0 :: rs).flatten ++ tail).length = n + 1 := ⟨_, (Nat.succ_pred (by
      simp only [List.length_append, List.length_cons] at hlong ⊢; omega)).symm⟩
    rw [hn]
    unfold splitRows
    rw [hclose]
    simp only
    rw [hi, hrest1, hxml, ← List.length_append, List.take_left, splitRows_tail rs (fun r hr => hx.rows_ok r (List.mem_cons_of_mem _ hr))
      hx.tail_starts hx.tail_close n (by
        simp only [List.length_append, List.length_cons] at hlong hn
        omega)]
    rw [List.map_cons, List.map_cons]
    have hhead0 : ∀ (P r : List Char), RowText r → occurs rowOpen P = [] → (P ++ r).drop ((occurs rowOpen (P ++ r)).headD 0) = r := by
      intro P r h1 h2
      have h3 : (occurs rowOpen r).head? = some 0 := by simpa using occurs_open_rows (r := r) (rs := []) (tail := []) h1
      have h4 : ∀ c, r.head? = some c → c = '<' := by
        have := rows_head (rows := [r]) (tail := []) (by simpa using h1) (by simp)
        simpa using this
      rw [rowOpen_eq, occurs_append _ _ _ (by decide) h4, ← rowOpen_eq, h2, List.nil_append, List.headD_eq_head?_getD, List.head?_map, h3]
      simp
    congr 1
    · rw [hhead0 pre r0 hR hx.pre_open]
    · apply List.map_congr_left
      intro r hr
      have := hhead0 [] r (hx.rows_ok r (List.mem_cons_of_mem _ hr)) rfl
      rw [List.nil_append] at this
      rw [this]
  unfold readExcel
  rw [hclose, Option.bind_some, hopen, Option.bind_some]
  simp only
  rw [hi, hfirst, hdata]
  simp only [List.head?_cons, Option.bind_some]
  rw [hsplitAll, hnames]
  have hhd : (if header.isSome = true then [r0] else []) = (r0 :: rs).take header.isSome.toNat := by
    rcases hh with rfl | rfl <;> rfl
  have hrest : (pre ++ (r0 :: rs).flatten ++ tail).drop (if header.isSome = true then pre.length + r0.length else pre.length) =
      ((r0 :: rs).drop header.isSome.toNat).flatten ++ tail := by
    rcases hh with rfl | rfl
    · exact hrest0
    · exact hrest1
  have hcols : (if ((if header.isSome = true then c0 else (List.range c0.length).map colNum).any falsy) = true then
      some (namesOf colNum mangle w pref) else some (if header.isSome = true then c0 else (List.range c0.length).map colNum)) =
      some (namesOf colNum mangle w pref) := by
    rcases hh with rfl | rfl
    · subst hpref
      simp [namesOf, hw c0 (by simp)]
    · subst hpref
      rcases hm rfl c0 rfl with h | h
      · simp only [Option.isSome_some, ↓reduceIte]
        rw [if_pos h]
      · simp [namesOf, h]
  simp only [Option.map_some]
  rw [hcols, hhd, hrest, g3]
  simp only [Option.bind_some]
  exact (congrArg (·.bind (assembleRead cfg num (namesOf colNum mangle w pref))) f1).trans m1

/-! ### the hypotheses are met -/

namespace SheetDemo

/-- a row of a worksheet with one digit for its number and one for each cell; 0 is a blank cell -/
def rowText (number : Char) (cells : List Char) : List Char := rowOpen ++ number :: cells ++ rowClose

def digit (c : Char) : Nat := c.toNat - 48

/-- the number and the cells of such a row -/
def decode (r : List Char) : Int × List Nat :=
  ((digit ((r.drop 4).headD '0') : Int), ((r.drop 5).takeWhile fun c => c != '<').map digit)

def pre : List Char := "<sheetData>".toList
def tail : List Char := dataClose

def xml (rows : List (Char × List Char)) : List Char := pre ++ (rows.map fun r => rowText r.1 r.2).flatten ++ tail

/-- what pandas calls columns whose name repeats (for names below 10) -/
def mangle (names : List Nat) : List Nat := names.mapIdx fun i n => if (names.take i).contains n then n + 10 * i else n

def read (np : Nat) (header : Option Nat) (rows : List (Char × List Char)) : Option (LFrame Int Nat Nat) :=
  readExcel ⟨np, 1, 1⟩ decode id id 0 (· == 0) (· == 0) mangle header (xml rows)

def expected (header : Option Nat) (rows : List (Char × List Char)) : Option (Frame Int Nat Nat) :=
  pandasExcel id id 0 (· == 0) mangle header (rows.map fun r => decode (rowText r.1 r.2))

def rows : List (Char × List Char) := [('1', ['5', '6']), ('2', ['1', '2']), ('3', ['3', '0']), ('4', ['0', '7'])]

def texts : List (List Char) := rows.map fun r => rowText r.1 r.2

theorem sheet_ok : SheetText pre texts tail := by
  refine ⟨by decide +kernel, by decide +kernel, ?_, by decide +kernel, by decide +kernel, by decide +kernel⟩
  intro r hr
  simp only [texts, rows, List.map_cons, List.map_nil, List.mem_cons, List.not_mem_nil, or_false] at hr
  rcases hr with rfl | rfl | rfl | rfl <;> exact ⟨by decide +kernel, by decide +kernel, by decide +kernel⟩

example : ∃ gs : List (List (List Char)), gs.flatten = texts ∧ (∀ g ∈ gs, g ≠ []) ∧
    excelPieces 20 ((texts.flatten ++ tail).length + 1) (texts.flatten ++ tail) 0 =
      some (gs.mapIdx fun i g => ((gs.take i).flatten.length, g.flatten)) :=
  C86_excel_pieces 20 (by decide) pre texts tail sheet_ok

example : ∃ m df, expected (some 0) rows = some df ∧ read 3 (some 0) rows = some m ∧ m.Shows df ∧ m.toPandas 0 = some df :=
  C86_read_excel_partial ⟨3, 1, 1⟩ (by decide) (by decide) decode id id 0 0 (· == 0) (· == 0) mangle (some 0) (Or.inr rfl) pre texts tail sheet_ok
    [[5, 6], [1, 2], [3, 0], [0, 7]] (by decide +kernel) 2 (by decide) (by decide)
    (fun c => by simp [mangle]) (by intro _ c hc; simp at hc; subst hc; exact Or.inr (by decide)) (by decide) (by decide +kernel)

example : (read 3 (some 0) rows).map (fun m => m.parts.map List.length) = some [2, 2, 2] ∧
    expected (some 0) rows = some { index := [0, 1, 2], columns := [5, 6], rows := [[1, 2], [3, 0], [0, 7]] } := by decide +kernel

/-- the name of the first column is missing -/
example : ((read 2 (some 0) [('1', ['0', '0']), ('2', ['1', '2'])]).map (·.getColumns)) = some [0, 10] ∧
    ((expected (some 0) [('1', ['0', '0']), ('2', ['1', '2'])]).map (·.columns)) = some [0, 10] := by decide +kernel

/-- **C86 fails** for a sheet without rows: the search for the end of the first row never ends (`none`). -/
theorem C86_excel_empty_sheet : (∀ np, read np (some 0) [] = none) ∧ expected (some 0) [] = some { index := [], columns := [], rows := [] } := by
  refine ⟨fun np => ?_, by decide +kernel⟩
  have : occurs rowClose (xml []) = [] := by decide +kernel
  unfold read readExcel
  rw [this]
  rfl

/-- **C86 fails** for a small file and many partitions: the first piece of fewer than four characters contains no `<row`, so reading stops
    and no row is read. -/
theorem C86_excel_small_file :
    (read 8 (some 0) [('1', ['5', '6']), ('2', ['1', '2'])]).map (fun m => (m.getIndex, m.parts.length)) = some ([], 0) ∧
    expected (some 0) [('1', ['5', '6']), ('2', ['1', '2'])] = some { index := [0], columns := [5, 6], rows := [[1, 2]] } := by decide +kernel

def withGap : List (Char × List Char) := [('1', ['5', '6']), ('2', ['1', '2']), ('4', ['3', '4']), ('5', ['7', '8'])]

/-- **C86 fails** if a row number is left out (a blank row): the row is made up for again in every later piece. -/
theorem C86_excel_gap :
    (read 3 (some 0) withGap).bind (LFrame.toPandas 0) =
      some { index := [0, 1, 2, 3, 4], columns := [5, 6], rows := [[1, 2], [0, 0], [3, 4], [0, 0], [7, 8]] } ∧
    expected (some 0) withGap = some { index := [0, 1, 2, 3], columns := [5, 6], rows := [[1, 2], [0, 0], [3, 4], [7, 8]] } := by decide +kernel

def withBlank : List (Char × List Char) :=
  [('1', ['5', '6']), ('2', ['1', '2']), ('3', ['3', '4']), ('4', ['0', '0']), ('5', ['0', '0']), ('6', ['7', '8'])]

/-- **C86 fails** for blank rows inside the data: a piece of two or more blank rows is dropped. -/
theorem C86_excel_blank_piece :
    (read 2 (some 0) withBlank).bind (LFrame.toPandas 0) = some { index := [0, 1, 2], columns := [5, 6], rows := [[1, 2], [3, 4], [7, 8]] } ∧
    expected (some 0) withBlank =
      some { index := [0, 1, 2, 3, 4], columns := [5, 6], rows := [[1, 2], [3, 4], [0, 0], [0, 0], [7, 8]] } := by decide +kernel

/-- **C86 fails** for `header=1`: every piece takes its own first row for the header. -/
theorem C86_excel_header_row :
    (read 3 (some 1) rows).map (·.getIndex.length) = some 0 ∧
    expected (some 1) rows = some { index := [0, 1], columns := [1, 2], rows := [[3, 0], [0, 7]] } := by decide +kernel

/-- **C86 fails** for repeated names: they are not made distinct. -/
theorem C86_excel_repeated_name :
    (read 1 (some 0) [('1', ['5', '5']), ('2', ['1', '2'])]).map (·.getColumns) = some [5, 5] ∧
    (expected (some 0) [('1', ['5', '5']), ('2', ['1', '2'])]).map (·.columns) = some [5, 15] := by decide +kernel

/-! JSON lines: 2 is the newline, 1 the quote character; a byte of two digits is a value (for the key given by its last digit) -/

def jsonDialect : Dialect Nat := { delim := 0, quote := 1, nl := 2, quoting := true }
def jsonDecode (l : List Nat) : Option (List (Nat × Nat)) := some ((l.filter fun b => decide (b ≥ 10)).map fun b => (b % 10, b))
def jsonBlank (l : List Nat) : Bool := l == [2]

def jsonRead (np : Nat) (nrows : Option Nat) (file : List Nat) : Option (LFrame Int Nat Nat) :=
  readJsonLines ⟨np, 1, 1⟩ jsonDialect jsonBlank jsonDecode id 0 nrows file

/-- three lines, the second with a quoted part -/
def jsonFile : List Nat := [31, 42, 2, 1, 51, 1, 62, 2, 71, 82, 2]

example : ∃ m, jsonRead 3 none jsonFile = some m ∧ m.Shows (jsonFrame id 0 [[(1, 31), (2, 42)], [(1, 51), (2, 62)], [(1, 71), (2, 82)]]) ∧
    m.toPandas 0 = some (jsonFrame id 0 [[(1, 31), (2, 42)], [(1, 51), (2, 62)], [(1, 71), (2, 82)]]) :=
  C86_read_json_partial ⟨3, 1, 1⟩ (by decide) (by decide) jsonDialect (by decide) jsonBlank jsonDecode id 0 jsonFile (by decide) [1, 2]
    (by decide) _ (by decide +kernel) (by decide +kernel) (by decide)

example : jsonFrame (id : Int → Int) 0 [[(1, 31), (2, 42)], [(1, 51), (2, 62)], [(1, 71), (2, 82)]] =
    { index := [0, 1, 2], columns := [1, 2], rows := [[31, 42], [51, 62], [71, 82]] } := by decide +kernel

/-- **C86 fails** if a worker gets only blank lines: it finds no columns and an error is raised. -/
theorem C86_json_blank_line : jsonRead 3 none (jsonFile ++ [2, 2, 2, 2, 2]) = none := by decide +kernel

/-- **C86 fails** if a record has a key that the first has not (or one fewer): an error is raised, pandas takes all keys. -/
theorem C86_json_missing_key :
    jsonRead 3 none [31, 2, 51, 62, 2, 71, 82, 2] = none ∧
    jsonFrame (id : Int → Int) 0 [[(1, 31)], [(1, 51), (2, 62)], [(1, 71), (2, 82)]] =
      { index := [0, 1, 2], columns := [1, 2], rows := [[31, 0], [51, 62], [71, 82]] } := by decide +kernel

/-- **C86 fails** for `nrows`: every worker keeps that many rows. -/
theorem C86_json_nrows : (jsonRead 3 (some 1) jsonFile).bind (LFrame.toPandas 0) =
    some { index := [0, 1], columns := [1, 2], rows := [[31, 42], [71, 82]] } := by decide +kernel

end SheetDemo
