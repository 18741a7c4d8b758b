import Verif.Model.Batch
import Verif.Lemmas.Partitions
import Verif.Lemmas.Labels
import Verif.Lemmas.FullAxis
import Verif.Lemmas.Readers
import Verif.Lemmas.Writers
/-
Lemmas for the batch pipeline.
-/

variable {ι κ α : Type}

/-! ### Lists -/

theorem mapM_map_eq {A B C : Type} (h : A → B) (f : B → Option C) (l : List A) : (l.map h).mapM f = l.mapM fun a => f (h a) := by
  induction l with
  | nil => rfl
  | cons a l ih => simp only [List.map_cons, List.mapM_cons, ih]

theorem mapM_zipIdx_bind {A B C : Type} (g : A → Option B) (f : B × Nat → Option C) : ∀ (l : List A) (k : Nat),
    (l.zipIdx k).mapM (fun (p : A × Nat) => (g p.1).bind fun b => f (b, p.2)) = (l.mapM g).bind fun bs => (bs.zipIdx k).mapM f := by
  intro l
  induction l with
  | nil => intro k; rfl
  | cons a l ih =>
    intro k
    simp only [List.zipIdx_cons, List.mapM_cons, ih, Option.bind_eq_bind, Option.pure_def]
    cases g a with
    | none => rfl
    | some b =>
      simp only [Option.bind_some]
      cases hf : f (b, k) with
      | none => cases l.mapM g with
        | none => rfl
        | some bs => simp [List.zipIdx_cons, hf]
      | some c => cases l.mapM g with
        | none => rfl
        | some bs => simp [List.zipIdx_cons, hf]

theorem mapM_some_length {A B : Type} {f : A → Option B} : ∀ {l : List A} {bs : List B}, l.mapM f = some bs → bs.length = l.length := by
  intro l
  induction l with
  | nil => intro bs h; cases h; rfl
  | cons a l ih =>
    intro bs h
    simp only [List.mapM_cons, Option.bind_eq_bind, Option.pure_def, Option.bind_eq_some_iff] at h
    obtain ⟨b, _, bs', h2, h3⟩ := h
    cases h3
    simp [ih h2]

theorem mapM_some_mem {A B : Type} {f : A → Option B} : ∀ {l : List A} {bs : List B}, l.mapM f = some bs →
    ∀ b ∈ bs, ∃ a ∈ l, f a = some b := by
  intro l
  induction l with
  | nil => intro bs h; cases h; simp
  | cons a l ih =>
    intro bs h
    simp only [List.mapM_cons, Option.bind_eq_bind, Option.pure_def, Option.bind_eq_some_iff] at h
    obtain ⟨b, h1, bs', h2, h3⟩ := h
    cases h3
    intro x hx
    rcases List.mem_cons.mp hx with rfl | hx
    · exact ⟨a, by simp, h1⟩
    · obtain ⟨y, hy, e⟩ := ih h2 x hx
      exact ⟨y, by simp [hy], e⟩

/-! ### BatchCall queues -/

/-- No call of the queue is `reducer`. -/
def BatchPart.NoReducer (p : BatchPart ι κ α) : Prop := ∀ c ∈ p.queue, ∃ f, c = BatchCall.func f

theorem runCalls_append (cells : Cells ι κ α) : ∀ (q : List (BatchCall ι κ α)) (c : BatchCall ι κ α) (f : Frame ι κ α),
    runCalls cells (q ++ [c]) f = (runCalls cells q f).bind fun g => c.run cells g := by
  intro q
  induction q with
  | nil => intro c f; simp [runCalls]
  | cons d q ih =>
    intro c f
    simp only [List.cons_append, runCalls]
    cases d.run cells f with
    | none => rfl
    | some g => simp only [Option.bind_some, ih]

theorem runCalls_cells {cells cells' : Cells ι κ α} : ∀ {q : List (BatchCall ι κ α)}, (∀ c ∈ q, ∃ f, c = BatchCall.func f) → ∀ (f : Frame ι κ α),
    runCalls cells q f = runCalls cells' q f := by
  intro q
  induction q with
  | nil => intro _ f; rfl
  | cons d q ih =>
    intro h f
    obtain ⟨g, rfl⟩ := h d (by simp)
    have := ih (fun c hc => h c (by simp [hc]))
    simp only [runCalls, BatchCall.run]
    cases g f with
    | none => rfl
    | some x => simp only [Option.bind_some, this]

variable [DecidableEq ι]

theorem drain_add (cells : Cells ι κ α) (p : BatchPart ι κ α) (f : Frame ι κ α → Option (Frame ι κ α)) :
    (p.add (.func f)).drain cells = (p.drain cells).bind f := by
  unfold BatchPart.drain BatchPart.add
  show (p.whole).bind (runCalls cells (p.queue ++ [.func f])) = _
  cases p.whole with
  | none => rfl
  | some b => simp only [Option.bind_some, runCalls_append]; rfl

theorem drain_cells {p : BatchPart ι κ α} (h : p.NoReducer) (cells cells' : Cells ι κ α) : p.drain cells = p.drain cells' := by
  unfold BatchPart.drain
  cases p.whole with
  | none => rfl
  | some b => simp only [Option.bind_some]; exact runCalls_cells h b

theorem mapM_drain_cells {ps : List (BatchPart ι κ α)} (h : ∀ p ∈ ps, p.NoReducer) (cells cells' : Cells ι κ α) :
    (ps.mapM fun (p : BatchPart ι κ α) => p.drain cells) = ps.mapM fun (p : BatchPart ι κ α) => p.drain cells' := by
  induction ps with
  | nil => rfl
  | cons p ps ih =>
    simp only [List.mapM_cons]
    rw [drain_cells (h p (by simp)) cells cells', ih (fun q hq => h q (by simp [hq]))]

/-! ### One query -/

theorem drain_single (cells : Cells ι κ α) (b : Frame ι κ α) (c : BatchCall ι κ α) :
    BatchPart.drain cells { blocks := [b], queue := [c] } = c.run cells b := by
  simp only [BatchPart.drain, BatchPart.whole, Option.bind_some, runCalls]
  cases c.run cells b <;> rfl

/-- **One query.** What is in the partitions after a query is what the query makes of what was in them before. -/
theorem completeNode_spec {n : Nat} (hn : 1 ≤ n) (q : Query ι κ α) (s : List (BatchPart ι κ α) × Cells ι κ α)
    (hs : ∀ p ∈ s.1, p.NoReducer) :
    ((completeNode n q s).bind fun t => t.1.mapM fun (p : BatchPart ι κ α) => p.drain t.2) =
      (s.1.mapM fun (p : BatchPart ι κ α) => p.drain s.2).bind (q.meaning n) := by
  obtain ⟨ps, cells⟩ := s
  rw [show (ps, cells).1 = ps from rfl] at hs
  simp only [] at hs ⊢
  have hc := mapM_drain_cells hs cells { cells with reduce := q.reduce }
  rw [hc]
  unfold completeNode Query.meaning
  simp only []
  by_cases hf : q.fanOut = true
  · simp only [hf, ↓reduceIte]
    match ps with
    | [] => rfl
    | [p] =>
      simp only [List.mapM_cons, List.mapM_nil, Option.bind_eq_bind, Option.pure_def]
      cases p.drain { cells with reduce := q.reduce } with
      | none => rfl
      | some b =>
        simp only [Option.bind_some]
        obtain ⟨k, rfl⟩ : ∃ k, n = k + 1 := ⟨n - 1, by omega⟩
        rw [List.range_succ_eq_map, List.mapM_cons, mapM_map_eq]
        simp only [Nat.add_sub_cancel, Option.bind_eq_bind, Option.pure_def]
        cases q.func (some 0) b with
        | none => rfl
        | some d =>
          simp only [Option.bind_some, Nat.succ_eq_add_one]
          cases (List.range k).mapM fun i => q.func (some (i + 1)) b with
          | none => rfl
          | some rs =>
            simp only [Option.bind_some, drain_single, BatchCall.run, List.mapM_cons, List.mapM_nil, Option.bind_eq_bind, Option.pure_def]
            cases q.reduce with
            | none => rfl
            | some r => simp only [Option.bind_some]; cases r (d :: rs) <;> rfl
    | p :: p' :: ps =>
      simp only [List.mapM_cons, Option.bind_eq_bind, Option.pure_def, Option.bind_none]
      cases p.drain { cells with reduce := q.reduce } with
      | none => rfl
      | some _ => cases p'.drain { cells with reduce := q.reduce } with
        | none => rfl
        | some _ => cases ps.mapM fun (p : BatchPart ι κ α) => p.drain { cells with reduce := q.reduce } <;> rfl
  · simp only [hf, Bool.false_eq_true, ↓reduceIte]
    by_cases hr : q.repartition = true
    · simp only [hr, ↓reduceIte]
      match ps with
      | [] => rfl
      | [p] =>
        simp only [List.mapM_cons, List.mapM_nil, Option.bind_eq_bind, Option.pure_def, drain_add]
        cases p.drain { cells with reduce := q.reduce } with
        | none => rfl
        | some b =>
          simp only [Option.bind_some]
          cases q.func none b with
          | none => rfl
          | some r =>
            simp only [Option.map_some, Option.bind_some]
            unfold evenPieces
            apply mapM_map_some
            intro i _
            rw [drain_single]
            simp only [BatchCall.run, maskPartition]
            split <;> rfl
      | p :: p' :: ps =>
        simp only [List.mapM_cons, Option.bind_eq_bind, Option.pure_def, Option.bind_none]
        cases p.drain { cells with reduce := q.reduce } with
        | none => rfl
        | some _ => cases p'.drain { cells with reduce := q.reduce } with
          | none => rfl
          | some _ => cases ps.mapM fun (p : BatchPart ι κ α) => p.drain { cells with reduce := q.reduce } <;> rfl
    · simp only [hr, Bool.false_eq_true, ↓reduceIte, Option.bind_some]
      rw [mapM_map_eq]
      simp only [drain_add]
      exact mapM_zipIdx_bind (fun (p : BatchPart ι κ α) => p.drain { cells with reduce := q.reduce })
        (fun p => q.func (if q.passId then some p.2 else none) p.1) ps 0

theorem completeNode_noReducer {n : Nat} {q : Query ι κ α} {s t : List (BatchPart ι κ α) × Cells ι κ α} (hq : q.fanOut = false)
    (hs : ∀ p ∈ s.1, p.NoReducer) (h : completeNode n q s = some t) : ∀ p ∈ t.1, p.NoReducer := by
  obtain ⟨ps, cells⟩ := s
  unfold completeNode at h
  simp only [hq, Bool.false_eq_true, ↓reduceIte] at h
  by_cases hr : q.repartition = true
  · simp only [hr, ↓reduceIte] at h
    match ps, h with
    | [p], h =>
      simp only [Option.map_eq_some_iff] at h
      obtain ⟨b, _, rfl⟩ := h
      intro p hp
      simp only [List.mem_map] at hp
      obtain ⟨i, _, rfl⟩ := hp
      intro c hc
      exact ⟨_, by simpa using hc⟩
  · simp only [hr, Bool.false_eq_true, ↓reduceIte, Option.some.injEq] at h
    subst h
    intro p hp
    simp only [List.mem_map] at hp
    obtain ⟨⟨p', i⟩, hp', rfl⟩ := hp
    intro c hc
    simp only [BatchPart.add, List.mem_append, List.mem_singleton] at hc
    rcases hc with hc | rfl
    · exact hs p' (List.fst_mem_of_mem_zipIdx hp') c hc
    · exact ⟨_, rfl⟩

/-- **Queries one after the other**, of which only the last may be fanned out. -/
theorem completeNodes_spec {n : Nat} (hn : 1 ≤ n) : ∀ (qs : List (Query ι κ α)) (s : List (BatchPart ι κ α) × Cells ι κ α),
    (∀ q ∈ qs.dropLast, q.fanOut = false) → (∀ p ∈ s.1, p.NoReducer) →
    ((completeNodes n qs s).bind fun t => t.1.mapM fun (p : BatchPart ι κ α) => p.drain t.2) =
      (s.1.mapM fun (p : BatchPart ι κ α) => p.drain s.2).bind (queriesMeaning n qs) := by
  intro qs
  induction qs with
  | nil => intro s _ _; simp [completeNodes, queriesMeaning]
  | cons q qs ih =>
    intro s hq hs
    have e1 := completeNode_spec hn q s hs
    rw [completeNodes]
    cases qs with
    | nil =>
      have : completeNodes n ([] : List (Query ι κ α)) = some := by funext x; rfl
      rw [this, Option.bind_fun_some]
      rw [e1]
      congr 1
      funext ps
      simp [queriesMeaning]
    | cons q' qs =>
      have hq0 : q.fanOut = false := hq q (by simp)
      have hq1 : ∀ x ∈ (q' :: qs).dropLast, x.fanOut = false := fun x hx => hq x (by simp [hx])
      have : ((completeNode n q s).bind (completeNodes n (q' :: qs))).bind
            (fun t => t.1.mapM fun (p : BatchPart ι κ α) => p.drain t.2) =
          ((completeNode n q s).bind fun t => t.1.mapM fun (p : BatchPart ι κ α) => p.drain t.2).bind (queriesMeaning n (q' :: qs)) := by
        cases hc : completeNode n q s with
        | none => rfl
        | some t =>
          simp only [Option.bind_some]
          exact ih t hq1 (completeNode_noReducer hq0 hs hc)
      rw [this, e1, Option.bind_assoc]
      rfl

/-! ### Data frames stay data frames -/

omit [DecidableEq ι] in
theorem meaning_wf {n : Nat} {q : Query ι κ α} (hq : q.Sound) {ps ps' : List (Frame ι κ α)} (hp : ∀ f ∈ ps, f.WF)
    (h : q.meaning n ps = some ps') : ∀ f ∈ ps', f.WF := by
  unfold Query.meaning at h
  by_cases hf : q.fanOut = true
  · simp only [hf, ↓reduceIte] at h
    match ps, h, hp with
    | [p], h, hp =>
      simp only [Option.bind_eq_some_iff, Option.map_eq_some_iff] at h
      obtain ⟨rs, h1, r, h2, f, h3, rfl⟩ := h
      intro g hg
      rw [List.mem_singleton] at hg
      subst hg
      refine hq.reduce r h2 rs g (fun x hx => ?_) h3
      obtain ⟨i, _, e⟩ := mapM_some_mem h1 x hx
      exact hq.func _ _ _ (hp p (by simp)) e
  · simp only [hf, Bool.false_eq_true, ↓reduceIte] at h
    by_cases hr : q.repartition = true
    · simp only [hr, ↓reduceIte] at h
      match ps, h, hp with
      | [p], h, hp =>
        simp only [Option.map_eq_some_iff] at h
        obtain ⟨f, h1, rfl⟩ := h
        have := hq.func _ _ _ (hp p (by simp)) h1
        intro g hg
        simp only [evenPieces, List.mem_map] at hg
        obtain ⟨i, _, rfl⟩ := hg
        exact this.ilocRows _ _
    · simp only [hr, Bool.false_eq_true, ↓reduceIte] at h
      intro f hf
      obtain ⟨⟨p, i⟩, hm, e⟩ := mapM_some_mem h f hf
      exact hq.func _ _ _ (hp p (List.fst_mem_of_mem_zipIdx hm)) e

omit [DecidableEq ι] in
theorem queriesMeaning_wf {n : Nat} : ∀ {qs : List (Query ι κ α)}, (∀ q ∈ qs, q.Sound) → ∀ {ps ps' : List (Frame ι κ α)},
    (∀ f ∈ ps, f.WF) → queriesMeaning n qs ps = some ps' → ∀ f ∈ ps', f.WF := by
  intro qs
  induction qs with
  | nil => intro _ ps ps' hp h; cases h; exact hp
  | cons q qs ih =>
    intro hq ps ps' hp h
    rw [queriesMeaning, Option.bind_eq_some_iff] at h
    obtain ⟨p1, h1, h2⟩ := h
    exact ih (fun x hx => hq x (by simp [hx])) (meaning_wf (hq q (by simp)) hp h1) h2

/-! ### The outputs -/

variable [DecidableEq κ]

/-- the widths of the blocks a row partition with `w` columns is divided into -/
def batchLens (cfg : Cfg) (n w : Nat) : List Nat := if n = 1 then [w] else (getLengthList w n cfg.minCol).getD []

theorem batchLens_ok (cfg : Cfg) (hmc : 1 ≤ cfg.minCol) {n : Nat} (hn : 1 ≤ n) (w : Nat) :
    batchLens cfg n w ≠ [] ∧ (batchLens cfg n w).sum = w := by
  unfold batchLens
  split
  · simp
  · obtain ⟨lens, h1, h2, h3⟩ := getLengthList_some (n := w) hn hmc
    rw [h1, Option.getD_some]
    exact ⟨by intro e; rw [e] at h3; simp at h3; omega, h2⟩

theorem hcat_one {b : Frame ι κ α} (h : b.WF) : Frame.hcat [b] = some b := by
  have := Frame.hcat_ilocCols (f := b) (cb := [(0, b.ncols)]) h (by simp) (covers_single _ _ (Nat.le_refl _))
  simpa [h.ilocCols_all] using this

omit [DecidableEq ι] [DecidableEq κ] in
theorem postCall_eq (post : Option (Post ι κ α)) (id : Option Nat) (i : Nat) (f : Frame ι κ α) :
    postCall post id i f = Post.meaning post id i f := by
  unfold postCall Post.meaning
  cases post <;> rfl

omit [DecidableEq ι] [DecidableEq κ] in
theorem postMeaning_wf {post : Option (Post ι κ α)} (h : Post.Sound post) {id : Option Nat} {i : Nat} {f r : Frame ι κ α} (hf : f.WF)
    (e : Post.meaning post id i f = some r) : r.WF := by
  unfold Post.meaning at e
  cases post with
  | none => cases e; exact hf
  | some p => exact h p rfl _ _ _ hf e

/-- a row partition that is drained into `n` blocks -/
theorem deploy_post (cfg : Cfg) (hmc : 1 ≤ cfg.minCol) {n : Nat} (hn : 1 ≤ n) {post : Option (Post ι κ α)} (hpost : Post.Sound post)
    (id : Option Nat) (i : Nat) {b : Frame ι κ α} (hb : b.WF) :
    deployAxisFunc false (postCall post id i) n true [b] cfg.minCol none false =
      (Post.meaning post id i b).map fun r => (sliceBounds (batchLens cfg n r.ncols)).map fun q => r.ilocCols q.1 q.2 := by
  unfold deployAxisFunc axisConcat
  simp only [Bool.false_eq_true, ↓reduceIte, hcat_one hb, Option.bind_eq_bind, Option.bind_some, postCall_eq]
  cases he : Post.meaning post id i b with
  | none => rfl
  | some r =>
    have hr := postMeaning_wf hpost hb he
    simp only [Option.bind_some, Option.map_some]
    by_cases h1 : n = 1
    · simp [h1, splitResult, batchLens, sliceBounds_single, hr.ilocCols_all]
    · obtain ⟨lens, e1, e2, e3⟩ := getLengthList_some (n := r.ncols) hn hmc
      simp only [h1, ↓reduceIte, List.length_singleton, ne_eq, not_false_eq_true, decide_true, Bool.true_or]
      rw [splitResult_cols _ _ h1 _ none lens (Or.inr ⟨rfl, e1⟩)]
      simp [batchLens, h1, e1]

/-- **The outputs**, all of them, or the failure of one of the functions. -/
theorem runOutputs_spec (cfg : Cfg) (hmc : 1 ≤ cfg.minCol) {n : Nat} (hn : 1 ≤ n) {post : Option (Post ι κ α)} (hpost : Post.Sound post) :
    ∀ (outputs : List (Option Nat × List (Query ι κ α))) (parts : List (BatchPart ι κ α)) (ps : List (Frame ι κ α)),
    (∀ o ∈ outputs, (∀ q ∈ o.2, q.Sound) ∧ ∀ q ∈ o.2.dropLast, q.fanOut = false) →
    (∀ p ∈ parts, p.queue = []) → (∀ f ∈ ps, f.WF) → (parts.mapM fun (p : BatchPart ι κ α) => p.whole) = some ps →
    runOutputs cfg n post outputs parts = (batchMeaning n post outputs ps).map fun outs => outs.map fun o =>
      (o.1, o.2.map fun r => (sliceBounds (batchLens cfg n r.ncols)).map fun q => r.ilocCols q.1 q.2) := by
  intro outputs
  induction outputs with
  | nil => intro parts ps _ _ _ _; rfl
  | cons o os ih =>
    intro parts ps ho hq hwf hps
    have hno : ∀ p ∈ parts, p.NoReducer := by
      intro p hp c hc
      rw [hq p hp] at hc
      cases hc
    have hdr : ∀ cells : Cells ι κ α, (parts.mapM fun (p : BatchPart ι κ α) => p.drain cells) = some ps := by
      intro cells
      rw [← hps]
      have : ∀ l : List (BatchPart ι κ α), (∀ p ∈ l, p.queue = []) →
          (l.mapM fun (p : BatchPart ι κ α) => p.drain cells) = l.mapM fun (p : BatchPart ι κ α) => p.whole := by
        intro l
        induction l with
        | nil => intro _; rfl
        | cons p l ih2 =>
          intro h
          simp only [List.mapM_cons]
          rw [ih2 (fun x hx => h x (by simp [hx]))]
          have : p.drain cells = p.whole := by
            unfold BatchPart.drain
            rw [h p (by simp)]
            cases p.whole <;> rfl
          rw [this]
      exact this parts hq
    have hc := completeNodes_spec hn o.2 (parts, { reduce := none, newDfs := [] }) (ho o (by simp)).2 hno
    rw [hdr, Option.bind_some] at hc
    rw [runOutputs, ← Option.bind_assoc, hc, batchMeaning]
    cases hm : queriesMeaning n o.2 ps with
    | none => rfl
    | some ps' =>
      have hwf' := queriesMeaning_wf (ho o (by simp)).1 hwf hm
      simp only [Option.bind_some]
      have hgrid : (ps'.zipIdx.mapM fun (b : Frame ι κ α × Nat) =>
            deployAxisFunc false (postCall post o.1 b.2) n true [b.1] cfg.minCol none false) =
          (ps'.zipIdx.mapM fun (p : Frame ι κ α × Nat) => Post.meaning post o.1 p.2 p.1).map fun out =>
            out.map fun r => (sliceBounds (batchLens cfg n r.ncols)).map fun q => r.ilocCols q.1 q.2 := by
        have : ∀ l : List (Frame ι κ α × Nat), (∀ p ∈ l, p.1.WF) →
            (l.mapM fun (b : Frame ι κ α × Nat) =>
              deployAxisFunc false (postCall post o.1 b.2) n true [b.1] cfg.minCol none false) =
            (l.mapM fun (p : Frame ι κ α × Nat) => Post.meaning post o.1 p.2 p.1).map fun out =>
              out.map fun r => (sliceBounds (batchLens cfg n r.ncols)).map fun q => r.ilocCols q.1 q.2 := by
          intro l
          induction l with
          | nil => intro _; rfl
          | cons p l ih2 =>
            intro h
            simp only [List.mapM_cons, Option.bind_eq_bind, Option.pure_def]
            rw [ih2 (fun x hx => h x (by simp [hx])), deploy_post cfg hmc hn hpost o.1 p.2 (h p (by simp))]
            cases Post.meaning post o.1 p.2 p.1 with
            | none => rfl
            | some r => simp only [Option.map_some, Option.bind_some]; cases l.mapM fun (p : Frame ι κ α × Nat) => Post.meaning post o.1 p.2 p.1 <;> rfl
        exact this _ (fun p hp => hwf' p.1 (List.fst_mem_of_mem_zipIdx hp))
      rw [hgrid]
      cases ps'.zipIdx.mapM fun (p : Frame ι κ α × Nat) => Post.meaning post o.1 p.2 p.1 with
      | none => rfl
      | some out =>
        simp only [Option.map_some, Option.bind_some]
        rw [ih (ps'.map fun b => { blocks := [b], queue := [] }) ps' (fun x hx => ho x (by simp [hx])) (by simp) hwf' (by
          have := mapM_map_some (fun (p : BatchPart ι κ α) => p.whole) (fun b : Frame ι κ α => BatchPart.mk [b] []) id ps' (fun x _ => rfl)
          simpa using this)]
        cases batchMeaning n post os ps' <;> rfl

/-! ### The frames of the outputs -/

omit [DecidableEq ι] in
/-- The grid of an output is a division of the rows of its partitions put together. -/
theorem frameOfGrid_spec (cfg : Cfg) (hmc : 1 ≤ cfg.minCol) {n : Nat} (hn : 1 ≤ n) {out : List (Frame ι κ α)} {f : Frame ι κ α}
    (hwf : ∀ g ∈ out, g.WF) (h : Frame.vcat out = some f) :
    ∃ r, frameOfGrid (out.map fun r => (sliceBounds (batchLens cfg n r.ncols)).map fun q => r.ilocCols q.1 q.2) = some r ∧
      r.Represents f := by
  obtain ⟨h1, h2, h3⟩ := vcat_parts h
  obtain ⟨l1, l2⟩ := batchLens_ok cfg hmc hn f.ncols
  have hg : (out.map fun r => (sliceBounds (batchLens cfg n r.ncols)).map fun q => r.ilocCols q.1 q.2) =
      f.cut (out.map (·.nrows)) (batchLens cfg n f.ncols) := by
    have := stack_cut f.columns (batchLens cfg n f.ncols) out (fun g hg => ⟨hwf g hg, h2 g hg⟩)
    rw [← h3] at this
    rw [← this]
    apply List.map_congr_left
    intro g hg
    rw [show g.ncols = f.ncols from congrArg List.length (h2 g hg)]
  have hcut : f.IsCut (out.map (·.nrows)) (batchLens cfg n f.ncols) := by
    have := stackRows_isCut f.columns (fs := out) h1 l1 l2
    rwa [← h3] at this
  have hf : f.WF := by
    have := stackRows_wf f.columns out (fun g hg => ⟨hwf g hg, h2 g hg⟩)
    rwa [← h3] at this
  have hr := getRowLens_cut (m := MFrame.mk (f.cut (out.map (·.nrows)) (batchLens cfg n f.ncols)) none none none none) hcut rfl (Or.inl rfl)
  have hw := getColWidths_cut (m := MFrame.mk (f.cut (out.map (·.nrows)) (batchLens cfg n f.ncols)) none none none none) hcut rfl (Or.inl rfl)
  simp only [MFrame.getRowLens, MFrame.getColWidths, Option.getD_none] at hr hw
  unfold frameOfGrid
  rw [hg, gridIndex_cut hcut, gridColumns_cut hcut, hr, List.headD_eq_head?_getD, hw]
  exact represents_mk' ⟨hf, ⟨_, _, hcut, rfl, Or.inr rfl, Or.inr rfl⟩, Or.inr rfl, Or.inr rfl⟩

omit [DecidableEq ι] [DecidableEq κ] in
theorem batchMeaning_wf {n : Nat} {post : Option (Post ι κ α)} (hpost : Post.Sound post) :
    ∀ {outputs : List (Option Nat × List (Query ι κ α))} {ps : List (Frame ι κ α)} {outs : List (Option Nat × List (Frame ι κ α))},
    (∀ o ∈ outputs, ∀ q ∈ o.2, q.Sound) → (∀ f ∈ ps, f.WF) → batchMeaning n post outputs ps = some outs →
    ∀ o ∈ outs, ∀ f ∈ o.2, f.WF := by
  intro outputs
  induction outputs with
  | nil => intro ps outs _ _ h; cases h; simp
  | cons o os ih =>
    intro ps outs ho hps h
    simp only [batchMeaning, Option.bind_eq_some_iff, Option.map_eq_some_iff] at h
    obtain ⟨ps', h1, out, h2, rest, h3, rfl⟩ := h
    have hps' := queriesMeaning_wf (ho o (by simp)) hps h1
    intro x hx
    rcases List.mem_cons.mp hx with rfl | hx
    · intro f hf
      obtain ⟨⟨p, i⟩, hm, e⟩ := mapM_some_mem h2 f hf
      exact postMeaning_wf hpost (hps' p (List.fst_mem_of_mem_zipIdx hm)) e
    · exact ih (fun y hy => ho y (by simp [hy])) hps' h3 x hx

omit [DecidableEq ι] [DecidableEq κ] in
/-- the row partitions of a frame whose labels are in its blocks -/
theorem shows_bands {m : LFrame ι κ α} {df : Frame ι κ α} (h : m.Shows df) (h1 : m.defIndex = false) (h2 : m.defColumns = false) :
    ∃ rl cw, df.IsCut rl cw ∧ m.parts = df.cut rl cw := by
  obtain ⟨df0, rl, cw, hwf0, hrows, hlen, hc, hp, _, _, hi, hcol⟩ := h.blocks
  have : df0 = df := by
    cases df0; cases df
    simp only [Frame.mk.injEq]
    exact ⟨hi h1, hcol h2, hrows⟩
  subst this
  exact ⟨rl, cw, hc, hp⟩

theorem whole_bands {df : Frame ι κ α} (hwf : df.WF) {rl cw : List Nat} (hc : df.IsCut rl cw) :
    (((df.cut rl cw).map fun row => BatchPart.mk row ([] : List (BatchCall ι κ α))).mapM fun (p : BatchPart ι κ α) => p.whole) =
      some (bandsOf rl df) := by
  rw [mapM_map_eq, ← mapM_hcat_cut hwf hc]
  have : ∀ l : Grid ι κ α, (∀ row ∈ l, ∀ b ∈ row, b.WF) →
      (l.mapM fun (row : List (Frame ι κ α)) => (BatchPart.mk row ([] : List (BatchCall ι κ α))).whole) = l.mapM Frame.hcat := by
    intro l
    induction l with
    | nil => intro _; rfl
    | cons row l ih =>
      intro h
      simp only [List.mapM_cons]
      rw [ih (fun x hx => h x (by simp [hx]))]
      have : (BatchPart.mk row ([] : List (BatchCall ι κ α))).whole = Frame.hcat row := by
        unfold BatchPart.whole
        match row, h row (by simp) with
        | [], _ => rfl
        | [b], hb => exact (hcat_one (hb b (by simp))).symm
        | _ :: _ :: _, _ => rfl
      rw [this]
  apply this
  intro row hrow b hb
  simp only [Frame.cut, List.mem_map] at hrow
  obtain ⟨p, _, rfl⟩ := hrow
  simp only [List.mem_map] at hb
  obtain ⟨q, _, rfl⟩ := hb
  exact (hwf.ilocRows _ _).ilocCols _ _

/-! ### Functions that look at one row at a time -/

theorem flatten_pySlices {τ : Type} (l : List τ) (c : Nat) : ∀ k, k * c ≤ l.length →
    ((List.range k).map fun i => pySlice l (i * c) ((i + 1) * c)).flatten = l.take (k * c) := by
  intro k
  induction k with
  | zero => intro _; simp
  | succ k ih =>
    intro h
    have hk : k * c ≤ (k + 1) * c := Nat.mul_le_mul_right _ (by omega)
    rw [List.range_succ, List.map_append, List.flatten_append, ih (by omega)]
    simp only [List.map_cons, List.map_nil, List.flatten_cons, List.flatten_nil, List.append_nil, pySlice]
    have := List.take_append_drop (k * c) (l.take ((k + 1) * c))
    rw [List.take_take, Nat.min_eq_left hk, List.drop_take] at this
    exact this

omit [DecidableEq ι] in
/-- The pieces of a frame put together again are the frame. -/
theorem vcat_evenPieces {n : Nat} (hn : 1 ≤ n) {f : Frame ι κ α} (hf : f.WF) : Frame.vcat (evenPieces n f) = some f := by
  obtain ⟨k, rfl⟩ : ∃ k, n = k + 1 := ⟨n - 1, by omega⟩
  have hd : k * (f.nrows / (k + 1)) ≤ f.nrows := by
    refine Nat.le_trans ?_ (Nat.div_mul_le_self f.nrows (k + 1))
    rw [Nat.mul_comm]
    exact Nat.mul_le_mul_left _ (by omega)
  have : evenPieces (k + 1) f = (((List.range k).map fun i => (i * (f.nrows / (k + 1)), (i + 1) * (f.nrows / (k + 1)))) ++
      [(k * (f.nrows / (k + 1)), f.nrows)]).map fun p => f.ilocRows p.1 p.2 := by
    unfold evenPieces
    rw [List.range_succ, List.map_append, List.map_append, List.map_map]
    congr 1
    · apply List.map_congr_left
      intro i hi
      have : i ≠ k := by have := List.mem_range.1 hi; omega
      simp [this]
    · simp
  rw [this]
  refine Frame.vcat_ilocRows hf (by simp) ?_
  intro τ l hl
  rw [List.map_append, List.flatten_append, List.map_map]
  simp only [Function.comp_def]
  rw [flatten_pySlices l _ k (by omega)]
  simp only [List.map_cons, List.map_nil, List.flatten_cons, List.flatten_nil, List.append_nil, pySlice]
  rw [List.take_of_length_le (l := List.drop _ l) (by simp [hl])]
  exact List.take_append_drop _ _

theorem zipIdx_mapM_const {A B : Type} (g : A → B) : ∀ (l : List A) (k : Nat), (l.zipIdx k).mapM (fun (p : A × Nat) => some (g p.1)) = some (l.map g) := by
  intro l
  induction l with
  | nil => intro k; rfl
  | cons a l ih => intro k; simp [List.zipIdx_cons, List.mapM_cons, ih]

/-! ### Dictionaries and histories -/

theorem dictOf_nodup {A : Type} (outs : List (Option Nat × A)) (h : (outs.map (·.1)).Nodup) : dictOf outs = outs := by
  have : ∀ (os d : List (Option Nat × A)), ((d ++ os).map (·.1)).Nodup →
      os.foldl (fun d o => if d.any (·.1 == o.1) then d.map (fun e => if e.1 == o.1 then (e.1, o.2) else e) else d ++ [o]) d = d ++ os := by
    intro os
    induction os with
    | nil => intro d _; simp
    | cons o os ih =>
      intro d hd
      have hn : d.any (·.1 == o.1) = false := by
        rw [Bool.eq_false_iff]
        intro hc
        obtain ⟨e, he, hb⟩ := List.any_eq_true.1 hc
        rw [List.map_append, List.nodup_append] at hd
        exact hd.2.2 e.1 (List.mem_map.2 ⟨e, he, rfl⟩) o.1 (by simp) (by simpa using hb)
      simp only [List.foldl_cons, hn, Bool.false_eq_true, ↓reduceIte]
      rw [ih (d ++ [o]) (by simpa using hd)]
      simp
  simpa [dictOf] using this outs [] (by simpa using h)

/-- What is found under an id is the last output with it. -/
theorem dictOf_find {A : Type} (outs : List (Option Nat × A)) (k : Option Nat) :
    (dictOf outs).find? (·.1 == k) = outs.reverse.find? (·.1 == k) := by
  have step : ∀ (d : List (Option Nat × A)) (o : Option Nat × A),
      (if d.any (·.1 == o.1) then d.map (fun e => if e.1 == o.1 then (e.1, o.2) else e) else d ++ [o]).find? (·.1 == k) =
        if o.1 == k then some o else d.find? (·.1 == k) := by
    intro d o
    by_cases ha : d.any (·.1 == o.1) = true
    · simp only [ha, ↓reduceIte]
      induction d with
      | nil => simp at ha
      | cons e d ih =>
        simp only [List.map_cons, List.find?_cons]
        by_cases he : e.1 = o.1
        · simp only [he, BEq.rfl, ↓reduceIte]
          by_cases hk : o.1 = k
          · simp [hk]
            rw [← hk]
          · have hk' : (o.1 == k) = false := by simpa using hk
            simp only [hk', Bool.false_eq_true, ↓reduceIte]
            clear ih ha
            induction d with
            | nil => rfl
            | cons e' d ih =>
              simp only [List.map_cons, List.find?_cons]
              by_cases he' : e'.1 = o.1
              · simp only [he', BEq.rfl, ↓reduceIte, hk', ih]
              · have : (e'.1 == o.1) = false := by simpa using he'
                simp only [this, Bool.false_eq_true, ↓reduceIte, ih]
        · have he2 : (e.1 == o.1) = false := by simpa using he
          have ha2 : d.any (·.1 == o.1) = true := by simpa [he2] using ha
          simp only [he2, Bool.false_eq_true, ↓reduceIte, ih ha2]
          by_cases hk : o.1 = k
          · have : (e.1 == k) = false := by rw [← hk]; exact he2
            simp [this, hk]
          · have hk' : (o.1 == k) = false := by simpa using hk
            simp [hk']
    · simp only [ha, Bool.false_eq_true, ↓reduceIte, List.find?_append]
      by_cases hk : o.1 = k
      · have : d.find? (·.1 == k) = none := by
          rw [List.find?_eq_none]
          intro e he hc
          apply ha
          rw [hk]
          exact List.any_eq_true.2 ⟨e, he, hc⟩
        simp [this, hk]
      · have hk' : (o.1 == k) = false := by simpa using hk
        simp [hk']
  have : ∀ (os d : List (Option Nat × A)),
      (os.foldl (fun d o => if d.any (·.1 == o.1) then d.map (fun e => if e.1 == o.1 then (e.1, o.2) else e) else d ++ [o]) d).find? (·.1 == k) =
        (os.reverse.find? (·.1 == k)).or (d.find? (·.1 == k)) := by
    intro os
    induction os with
    | nil => intro d; simp
    | cons o os ih =>
      intro d
      rw [List.foldl_cons, ih, step]
      simp only [List.reverse_cons, List.find?_append, List.find?_cons, List.find?_nil]
      by_cases hk : o.1 = k
      · simp [hk, Option.or_assoc]
      · have hk' : (o.1 == k) = false := by simpa using hk
        simp [hk', Option.or_assoc]
  have := this outs []
  simpa [dictOf] using this

omit [DecidableEq ι] in
theorem queriesMeaning_rowWise {n : Nat} (hn : 1 ≤ n) : ∀ (gs : List (Bool × (Frame ι κ α → Frame ι κ α))),
    (∀ g ∈ gs, RowWise g.2 ∧ ∀ f : Frame ι κ α, f.WF → (g.2 f).WF) → ∀ (ps : List (Frame ι κ α)) (f : Frame ι κ α), f.WF → Frame.vcat ps = some f →
    (∀ ps', queriesMeaning n (gs.map fun g => Query.ofFunction g.1 g.2) ps = some ps' →
      Frame.vcat ps' = some (gs.foldl (fun x g => g.2 x) f) ∧ (gs.foldl (fun x g => g.2 x) f).WF) ∧
    ((∀ g ∈ gs, g.1 = false) → (queriesMeaning n (gs.map fun g => Query.ofFunction g.1 g.2) ps).isSome) := by
  intro gs
  induction gs with
  | nil =>
    intro _ ps f hf h
    refine ⟨fun ps' e => ?_, fun _ => rfl⟩
    cases e
    exact ⟨h, hf⟩
  | cons g gs ih =>
    intro hg ps f hf h
    have hg0 := hg g (by simp)
    have hgs : ∀ x ∈ gs, RowWise x.2 ∧ ∀ f : Frame ι κ α, f.WF → (x.2 f).WF := fun x hx => hg x (by simp [hx])
    have hgf := hg0.2 f hf
    have plain : g.1 = false → (Query.ofFunction g.1 g.2).meaning n ps = some (ps.map g.2) := by
      intro e
      simp only [Query.meaning, Query.ofFunction, e, Bool.false_eq_true, ↓reduceIte]
      exact zipIdx_mapM_const g.2 ps 0
    have first : ∀ p1, (Query.ofFunction g.1 g.2).meaning n ps = some p1 → Frame.vcat p1 = some (g.2 f) := by
      intro p1 e
      cases hb : g.1 with
      | false =>
        rw [plain hb, Option.some.injEq] at e
        subst e
        exact hg0.1 ps f h
      | true =>
        simp only [Query.meaning, Query.ofFunction, hb, Bool.false_eq_true, ↓reduceIte] at e
        match ps, e, h with
        | [p], e, h =>
          rw [vcat_single, Option.some.injEq] at h
          subst h
          cases e
          exact vcat_evenPieces hn hgf
    refine ⟨fun ps' e => ?_, fun hp => ?_⟩
    · rw [List.map_cons, queriesMeaning, Option.bind_eq_some_iff] at e
      obtain ⟨p1, e1, e2⟩ := e
      exact (ih hgs p1 (g.2 f) hgf (first p1 e1)).1 ps' e2
    · have hb := hp g (by simp)
      rw [List.map_cons, queriesMeaning, plain hb, Option.bind_some]
      exact (ih hgs _ (g.2 f) hgf (first _ (plain hb))).2 (fun x hx => hp x (by simp [hx]))

omit [DecidableEq ι] in
theorem batchMeaning_rowWise {n : Nat} (hn : 1 ≤ n) : ∀ (os : List (Option Nat × List (Bool × (Frame ι κ α → Frame ι κ α)))),
    (∀ o ∈ os, ∀ g ∈ o.2, RowWise g.2 ∧ ∀ f : Frame ι κ α, f.WF → (g.2 f).WF) → ∀ (ps : List (Frame ι κ α)) (f : Frame ι κ α), f.WF →
    Frame.vcat ps = some f →
    (∀ outs, batchMeaning n none (os.map fun o => (o.1, o.2.map fun g => Query.ofFunction g.1 g.2)) ps = some outs →
      outs.map (fun o => (o.1, Frame.vcat o.2)) = (applyAll os f).map fun o => (o.1, some o.2)) ∧
    ((∀ o ∈ os, ∀ g ∈ o.2, g.1 = false) →
      (batchMeaning n none (os.map fun o => (o.1, o.2.map fun g => Query.ofFunction g.1 g.2)) ps).isSome) := by
  intro os
  induction os with
  | nil =>
    intro _ ps f _ _
    refine ⟨fun outs e => ?_, fun _ => rfl⟩
    cases e
    rfl
  | cons o os ih =>
    intro ho ps f hf h
    have hq := queriesMeaning_rowWise hn o.2 (ho o (by simp)) ps f hf h
    have ho' : ∀ x ∈ os, ∀ g ∈ x.2, RowWise g.2 ∧ ∀ f : Frame ι κ α, f.WF → (g.2 f).WF := fun x hx => ho x (by simp [hx])
    have hpost : ∀ ps' : List (Frame ι κ α), (ps'.zipIdx.mapM fun (p : Frame ι κ α × Nat) => Post.meaning none o.1 p.2 p.1) = some ps' := by
      intro ps'
      have := zipIdx_mapM_const (id : Frame ι κ α → Frame ι κ α) ps' 0
      simpa [Post.meaning] using this
    refine ⟨fun outs e => ?_, fun hp => ?_⟩
    · simp only [List.map_cons, batchMeaning, Option.bind_eq_some_iff, Option.map_eq_some_iff] at e
      obtain ⟨ps', e1, out, e2, rest, e3, rfl⟩ := e
      rw [hpost, Option.some.injEq] at e2
      subst e2
      obtain ⟨v1, v2⟩ := hq.1 ps' e1
      simp only [List.map_cons, applyAll, v1, (ih ho' ps' _ v2 v1).1 rest e3]
    · obtain ⟨ps', e1⟩ := Option.isSome_iff_exists.1 (hq.2 (hp o (by simp)))
      obtain ⟨v1, v2⟩ := hq.1 ps' e1
      obtain ⟨rest, e3⟩ := Option.isSome_iff_exists.1 ((ih ho' ps' _ v2 v1).2 (fun x hx => hp x (by simp [hx])))
      simp [batchMeaning, e1, hpost, e3]
