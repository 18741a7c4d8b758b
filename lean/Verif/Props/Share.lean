import Verif.Lemmas.Share
/-
C78: objects that share data.
-/

variable {C : Type}

/-- C78 (partial).  For every program of new objects, operations that return an object, shallow copies, `DataFrame(df)`, columns taken out
    of frames and changes in place, every object shows at the end what the program means: shallow copies and `DataFrame(df)` look at the
    same cell as the object they were made of, everything else has a cell of its own, and a change of a column is also made in the frame it
    was taken from.  What is missing: programs that set labels and also use `DataFrame(df)` or an operation that had nothing to do (see the
    witnesses below). -/
theorem C78_programs_partial [Inhabited C] (put : C → C → C) (ops : List (ShareOp C))
    (hops : (∀ op ∈ ops, ∀ o f, op ≠ .relabel o f) ∨ (∀ op ∈ ops, ∀ o, op ≠ .wrap o ∧ op ≠ .unchanged o)) :
    (ShareHeap.run put ops).map (fun h => (List.range h.n).map h.shows) =
      (SharedCells.run put ops).map (fun a => (List.range a.n).map a.shows) := by
  rcases linked_runs put ops with ⟨h1, h2⟩ | ⟨h, a, h1, h2, l, g⟩
  · rw [h1, h2]; rfl
  · have g := g (by
      rcases hops with ho | ho
      · left
        intro op hop
        have := ho op hop
        cases op with
        | relabel o f => exact absurd rfl (this o f)
        | _ => rfl
      · right
        intro op hop
        have := ho op hop
        cases op with
        | wrap o => exact absurd rfl (this o).1
        | unchanged o => exact absurd rfl (this o).2
        | _ => rfl)
    rw [h1, h2]
    simp only [Option.map_some, l.n]
    congr 1
    apply List.map_congr_left
    intro o ho
    exact g o (by rw [l.n]; exact List.mem_range.1 ho)

/-- C78.  After any program, a change in place is seen through every object that shares a cell with the changed one: through all its
    shallow copies, shallow copies of these, the object it is itself a shallow copy of, and so on. -/
theorem C78_change_reaches_every_copy [Inhabited C] (put : C → C → C) (ops : List (ShareOp C)) (h h' : ShareHeap C) (a : SharedCells C)
    (hh : ShareHeap.run put ops = some h) (ha : SharedCells.run put ops = some a) (o x : Nat) (f : C → C)
    (hs : h.step put (.assign o f) = some h') (hx : x < a.n) (hc : a.cell x = a.cell o) : h'.shows x = f (h.shows o) := by
  rcases linked_runs put ops with ⟨h1, -⟩ | ⟨h0, a0, h1, h2, l, -⟩
  · rw [hh] at h1; cases h1
  · rw [hh] at h1; rw [ha] at h2; cases h1; cases h2
    rw [← l.n] at hx
    by_cases ho : o < h.n
    · cases hp : h.parent o with
      | none =>
        simp only [ShareHeap.step, if_pos ho, hp, Option.some.injEq] at hs
        subst hs
        rw [l.update_shows ho _ hx, if_pos hc]
      | some p =>
        simp only [ShareHeap.step, if_pos ho, hp, Option.some.injEq] at hs
        subst hs
        have hpl := l.parentLt o p hp
        have l1 := l.update ho (f (h.shows o)) (f (h.shows o))
        rw [l1.update_shows (o := p) hpl.1 _ hx]
        have : ¬a.cell x = a.cell p := fun e => hpl.2 (by rw [← e, hc])
        rw [if_neg (show ¬(a.write o (f (h.shows o))).cell x = (a.write o (f (h.shows o))).cell p from this),
          l.update_shows ho _ hx, if_pos hc]
    · simp [ShareHeap.step, ho] at hs

/-- C78.  After any program, a change in place of a column taken out of a frame is seen through the frame and through every object that
    shares a cell with the frame. -/
theorem C78_column_written_back [Inhabited C] (put : C → C → C) (ops : List (ShareOp C)) (h h' : ShareHeap C) (a : SharedCells C)
    (hh : ShareHeap.run put ops = some h) (ha : SharedCells.run put ops = some a) (o p x : Nat) (f : C → C)
    (hs : h.step put (.assign o f) = some h') (hp : a.parent o = some p) (hx : x < a.n) (hc : a.cell x = a.cell p) :
    h'.shows x = put (h.shows p) (f (h.shows o)) := by
  rcases linked_runs put ops with ⟨h1, -⟩ | ⟨h0, a0, h1, h2, l, -⟩
  · rw [hh] at h1; cases h1
  · rw [hh] at h1; rw [ha] at h2; cases h1; cases h2
    rw [← l.n] at hx
    have hp' : h.parent o = some p := by rw [l.parent]; exact hp
    by_cases ho : o < h.n
    · simp only [ShareHeap.step, if_pos ho, hp', Option.some.injEq] at hs
      subst hs
      have hpl := l.parentLt o p hp'
      have l1 := l.update ho (f (h.shows o)) (f (h.shows o))
      rw [l1.update_shows (o := p) hpl.1 _ hx, if_pos (show (a.write o (f (h.shows o))).cell x = (a.write o (f (h.shows o))).cell p from hc),
        l.update_shows ho _ hpl.1, if_neg hpl.2, l.update_shows ho _ ho, if_pos rfl]
    · simp [ShareHeap.step, ho] at hs

/-- C78.  After any program, a step changes nothing that is seen through objects not akin to the one it names (or, for a column, to the
    frame it was taken from); making a new object changes nothing at all.  In particular a deep copy, or the result of an operation, and
    the object it was made of never change together. -/
theorem C78_others_untouched [Inhabited C] (put : C → C → C) (ops : List (ShareOp C)) (h h' : ShareHeap C) (op : ShareOp C)
    (hh : ShareHeap.run put ops = some h) (hs : h.step put op = some h') (x : Nat) (hx : x < h.n)
    (hm : ¬(kinship ops).mayChange x op) : h'.shows x = h.shows x :=
  ((kin_runs put ops hh).step put hs).2.2 x hx hm

namespace ShareDemo

/-- labelled columns -/
abbrev Cols := List (Nat × List Int)

/-- `frame[column.name] = column` -/
def put (frame column : Cols) : Cols :=
  column.foldl (fun fr c => if (fr.map (·.1)).contains c.1 then fr.map (fun d => if d.1 = c.1 then c else d) else fr ++ [c]) frame

/-- `df[k]`, `o.iloc[0, 0] = v`, `o.columns = ...` and `del df[k]` -/
def pick (k : Nat) (d : Cols) : Cols := d.filter (·.1 = k)
def setFirst (v : Int) : Cols → Cols
  | (k, _ :: xs) :: d => (k, v :: xs) :: d
  | d => d
def rename (ls : List Nat) (d : Cols) : Cols := List.zip ls (d.map (·.2))
def drop (k : Nat) (d : Cols) : Cols := d.filter (·.1 ≠ k)

def df : Cols := [(1, [10, 20]), (2, [30, 40])]

/-- what is shown at the end -/
def shown (ops : List (ShareOp Cols)) : Option (List Cols) := (ShareHeap.run put ops).map (fun h => (List.range h.n).map h.shows)
def meant (ops : List (ShareOp Cols)) : Option (List Cols) := (SharedCells.run put ops).map (fun a => (List.range a.n).map a.shows)

/-- `a = df.copy(deep=False); b = a.copy(deep=False); c = DataFrame(b); s = df[2]; s.iloc[0] = 7; c.iloc[0, 0] = 5` -/
def prog : List (ShareOp Cols) :=
  [.new df, .shallow 0, .shallow 1, .wrap 2, .derive 0 id, .column 0 (pick 2), .assign 5 (setFirst 7), .assign 3 (setFirst 5)]

example : shown prog = meant prog := C78_programs_partial put prog (Or.inl (by
  intro op hop o f
  simp only [prog, List.mem_cons, List.not_mem_nil, or_false] at hop
  rcases hop with rfl | rfl | rfl | rfl | rfl | rfl | rfl | rfl <;> (intro h; cases h)))
example : meant prog = some [[(1, [5, 20]), (2, [7, 40])], [(1, [5, 20]), (2, [7, 40])], [(1, [5, 20]), (2, [7, 40])],
    [(1, [5, 20]), (2, [7, 40])], df, [(2, [7, 40])]] := by decide +kernel

/-- labels are shared too -/
example : shown [.new df, .shallow 0, .derive 1 id, .relabel 1 (rename [8, 9])] =
    some [[(8, [10, 20]), (9, [30, 40])], [(8, [10, 20]), (9, [30, 40])], df] := by
  decide +kernel

/-- the programs of the last three theorems -/
def before : List (ShareOp Cols) := [.new df, .shallow 0, .derive 0 id, .column 1 (pick 2), .shallow 3]
example : ∃ h h' a, ShareHeap.run put before = some h ∧ SharedCells.run put before = some a ∧ h.step put (.assign 3 (setFirst 7)) = some h' ∧
    a.cell 4 = a.cell 3 ∧ h'.shows 4 = setFirst 7 (h.shows 3) ∧ a.parent 3 = some 1 ∧ a.cell 0 = a.cell 1 ∧
    h'.shows 0 = put (h.shows 1) (setFirst 7 (h.shows 3)) ∧ ¬(kinship before).mayChange 2 (.assign 3 (setFirst 7)) ∧ h'.shows 2 = h.shows 2 :=
  ⟨_, _, _, rfl, rfl, rfl, by decide +kernel, by decide +kernel, by decide +kernel, by decide +kernel, by decide +kernel,
    by
      intro hm
      rcases hm with hm | ⟨p, hp, hm⟩
      · revert hm; decide +kernel
      · have : p = 1 := by
          have : (kinship before).parent 3 = some 1 := by decide +kernel
          rw [this] at hp; cases hp; rfl
        subst this
        revert hm; decide +kernel,
    by decide +kernel⟩

/-- C78, why partial: `r = df.reindex(index=df.index); r.columns = [8, 9]` renames the columns of `df`.  The same with
    `s = df.squeeze(axis=1); s.name = ...` and with `df.pin_backend()`. -/
theorem C78_unchanged_result_shares_labels :
    meant [.new df, .unchanged 0, .relabel 1 (rename [8, 9])] = some [df, [(8, [10, 20]), (9, [30, 40])]] ∧
    shown [.new df, .unchanged 0, .relabel 1 (rename [8, 9])] = some [[(8, [10, 20]), (9, [30, 40])], [(8, [10, 20]), (9, [30, 40])]] := by
  decide +kernel

/-- C78, why partial: `d2 = DataFrame(df); df.columns = [8, 9]; d2.iloc[0, 0] = 5` undoes the renaming of `df`, although the two share
    their data. -/
theorem C78_renaming_lost :
    meant [.new df, .wrap 0, .relabel 0 (rename [8, 9]), .assign 1 (setFirst 5)] =
      some [[(8, [5, 20]), (9, [30, 40])], [(8, [5, 20]), (9, [30, 40])]] ∧
    shown [.new df, .wrap 0, .relabel 0 (rename [8, 9])] = some [[(8, [10, 20]), (9, [30, 40])], df] ∧
    shown [.new df, .wrap 0, .relabel 0 (rename [8, 9]), .assign 1 (setFirst 5)] =
      some [[(1, [5, 20]), (2, [30, 40])], [(1, [5, 20]), (2, [30, 40])]] := by
  decide +kernel

/-- C78, a limit of the write-back: `t = df[2].copy(deep=False); t.iloc[0] = 7` changes the column it was copied from but not the frame. -/
theorem C78_copy_of_column_not_written_back :
    shown [.new df, .column 0 (pick 2), .shallow 1, .assign 2 (setFirst 7)] = some [df, [(2, [7, 40])], [(2, [7, 40])]] := by
  decide +kernel

/-- C78, a limit of the write-back: two columns taken out of a frame under the same label do not see one another's changes; the frame
    keeps the last one written.  After `del df[2]` a change of the column brings it back. -/
theorem C78_column_objects_apart :
    shown [.new df, .column 0 (pick 2), .column 0 (pick 2), .assign 1 (setFirst 7)] =
      some [[(1, [10, 20]), (2, [7, 40])], [(2, [7, 40])], [(2, [30, 40])]] ∧
    shown [.new df, .column 0 (pick 2), .assign 0 (drop 2), .assign 1 (setFirst 7)] =
      some [[(1, [10, 20]), (2, [7, 40])], [(2, [7, 40])]] := by
  decide +kernel

end ShareDemo
