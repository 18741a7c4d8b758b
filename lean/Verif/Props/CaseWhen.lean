import Verif.Lemmas.CaseWhen
import Verif.Props.Readers
/-
C68: `Series.case_when`.
-/

variable {L α : Type}

/-- **C68 (partial).**  For every Series, however it is divided into blocks of rows, and every list of conditions and replacements –
    Modin Series, pandas Series, lists, scalars and functions – for which pandas' `case_when` has a result: Modin has a result, and it
    shows the same cells under the same labels.  Missing: functions that do not go row by row (`C68_not_rowwise`), row labels still to be
    written to the blocks (`C68_pending_labels`), empty row blocks beside a Modin operand (`C68_empty_block`), and Modin operands with the
    Series' own repeated labels, divided differently, beside Modin operands with other labels. -/
theorem C68_case_when_partial [DecidableEq L] (cfg : Cfg) (hp : 1 ≤ cfg.nPartitions) (hr : 1 ≤ cfg.minRow) (hc : 1 ≤ cfg.minCol) (num : Nat → L)
    (hnum : ∀ i j, num i = num j → i = j) (flag : α → Bool) (tt nan : α) (m : LFrame L L α) (index : List L) (name : L) (vals : List α)
    (hm : m.Shows (oneColumn index name vals)) (hw : gridWidth m.parts = 1) (cases : List (CaseOperand L α × CaseOperand L α))
    (hok : ∀ c ∈ cases, c.1.Ok ∧ c.2.Ok) (hpend : m.defIndex = false ∨ ∀ c ∈ cases, c.1.whole = true ∧ c.2.whole = true)
    (hband : CaseOperand.frames (cases.map (·.1)) ++ CaseOperand.frames (cases.map (·.2)) = [] ∨ 0 ∉ m.getRowLens ∨ index = [])
    (hre : index.Nodup ∨ (∀ e ∈ CaseOperand.frames (cases.map (·.1)) ++ CaseOperand.frames (cases.map (·.2)), e.2 = index) ∨
      ∀ e ∈ CaseOperand.frames (cases.map (·.1)) ++ CaseOperand.frames (cases.map (·.2)), e.2 = index → e.1.getRowLens = m.getRowLens)
    (out : List α) (h : caseWhen flag tt nan index vals (cases.map fun c => (c.1.arg, c.2.arg)) = some out) :
    ∃ m', m.caseWhen cfg num flag tt nan (cases.map fun c => (c.1.given, c.2.given)) = some m' ∧
      m'.toPandas nan = some (oneColumn index name out) ∧ m'.getIndex = index ∧ m'.getColumns = [name] := by
  obtain ⟨m', h1, h2⟩ := caseWhen_shows cfg hp hr hc hnum flag tt nan hm hw cases hok hpend hband hre h
  exact ⟨m', h1, (h2.observed nan).1, (h2.observed nan).2.1, (h2.observed nan).2.2⟩

namespace CaseEx

/-- five rows in two blocks -/
def rows5 : MFrame Nat Nat Int := { parts := (oneColumn [10, 11, 12, 13, 14] 7 [1, 2, 3, 4, 5]).cut [3, 2] [1], index := none, columns := none, rowLens := none, colWidths := none }

theorem rows5_represents : rows5.Represents (oneColumn [10, 11, 12, 13, 14] 7 [1, 2, 3, 4, 5]) :=
  ⟨oneColumn_wf rfl, ⟨[3, 2], [1], ⟨by simp, by simp, rfl, rfl⟩, rfl, Or.inl rfl, Or.inl rfl⟩, Or.inl rfl, Or.inl rfl⟩

def s5 : LFrame Nat Nat Int := { rows5 with defIndex := false, defColumns := false }

theorem s5_shows : s5.Shows (oneColumn [10, 11, 12, 13, 14] 7 [1, 2, 3, 4, 5]) := represents_shows rows5_represents

/-- a Modin Series with other labels in another order, divided differently -/
def cond : MFrame Nat Nat Int := { parts := (oneColumn [14, 10, 11, 12] 3 [1, 0, 1, 0]).cut [1, 3] [1], index := none, columns := none, rowLens := none, colWidths := none }

theorem cond_represents : cond.Represents (oneColumn [14, 10, 11, 12] 3 [1, 0, 1, 0]) :=
  ⟨oneColumn_wf rfl, ⟨[1, 3], [1], ⟨by simp, by simp, rfl, rfl⟩, rfl, Or.inl rfl, Or.inl rfl⟩, Or.inl rfl, Or.inl rfl⟩

def cases : List (CaseOperand Nat Int × CaseOperand Nat Int) :=
  [(.frame cond [14, 10, 11, 12] 3 [1, 0, 1, 0], .plain (.series [11, 12, 13] [20, 30, 40])),
   (.plain (.fn fun l => l.map fun x => if x < 2 then 1 else 0), .plain (.scalar 100)),
   (.plain (.array [1, 1, 0, 0, 0]), .plain (.fn fun l => l.map (· * 1000)))]

/-- the label the condition lacks counts as true, the one the replacement lacks is missing -/
theorem cases_pandas : caseWhen (fun x : Int => decide (x ≠ 0)) 1 (-1) [10, 11, 12, 13, 14] [1, 2, 3, 4, 5] (cases.map fun c => (c.1.arg, c.2.arg)) =
    some [100, 20, 3, 40, -1] := by decide +kernel

theorem cases_ok : ∀ c ∈ cases, c.1.Ok ∧ c.2.Ok := by
  intro c hc
  simp only [cases, List.mem_cons, List.not_mem_nil, or_false] at hc
  rcases hc with rfl | rfl | rfl
  · exact ⟨⟨cond_represents, by decide⟩, rfl⟩
  · exact ⟨⟨_, fun _ => rfl⟩, trivial⟩
  · exact ⟨trivial, ⟨_, fun _ => rfl⟩⟩

example : ∃ m', s5.caseWhen ⟨4, 2, 2⟩ id (fun x => decide (x ≠ 0)) 1 (-1) (cases.map fun c => (c.1.given, c.2.given)) = some m' ∧
    m'.toPandas (-1) = some (oneColumn [10, 11, 12, 13, 14] 7 [100, 20, 3, 40, -1]) ∧ m'.getIndex = [10, 11, 12, 13, 14] ∧ m'.getColumns = [7] :=
  C68_case_when_partial ⟨4, 2, 2⟩ (by decide) (by decide) (by decide) id (fun _ _ h => h) (fun x => decide (x ≠ 0)) 1 (-1) s5 [10, 11, 12, 13, 14] 7
    [1, 2, 3, 4, 5] s5_shows (by decide) cases cases_ok (Or.inl rfl) (Or.inr (Or.inl (by decide +kernel))) (Or.inl (by decide)) [100, 20, 3, 40, -1]
    cases_pandas

end CaseEx

/-- **C68, not row by row.**  A function is applied to each block of rows by itself: `s.case_when([(lambda s: s == s.max(), 0)])`
    replaces the largest cell of every block. -/
theorem C68_not_rowwise :
    let top : List Int → List Int := fun l => l.map fun x => if l.all (· ≤ x) then 1 else 0
    caseWhen (· ≠ 0) 1 (-1) [10, 11, 12, 13, 14] [1, 2, 3, 4, 5] [(.fn top, .scalar 0)] = some [1, 2, 3, 4, 0] ∧
    (CaseEx.s5.caseWhen ⟨4, 2, 2⟩ id (· ≠ 0) 1 (-1) [(.plain (.fn top), .plain (.scalar 0))]).bind (·.toPandas (-1)) =
      some (oneColumn [10, 11, 12, 13, 14] 7 [1, 2, 0, 4, 0]) := by decide +kernel

/-- **C68, pending labels.**  Row labels that are not written to the blocks yet are not written by `case_when` either: the blocks look
    for the old labels in the conditions, do not find them and take the condition for true; the result keeps both sets of labels and cannot
    be read back (an internal error). -/
theorem C68_pending_labels :
    let m : LFrame Nat Nat Int := { CaseEx.rows5 with index := some [20, 21, 22, 23, 24], defIndex := true, defColumns := false }
    m.toPandas (-1) = some (oneColumn [20, 21, 22, 23, 24] 7 [1, 2, 3, 4, 5]) ∧
    caseWhen (· ≠ 0) 1 (-1) [20, 21, 22, 23, 24] [1, 2, 3, 4, 5] [(.series [20, 21, 22, 23, 24] [0, 0, 0, 0, 1], .scalar 9)] = some [1, 2, 3, 4, 9] ∧
    (m.caseWhen ⟨4, 2, 2⟩ id (· ≠ 0) 1 (-1) [(.plain (.series [20, 21, 22, 23, 24] [0, 0, 0, 0, 1]), .plain (.scalar 9))]).map
      (fun r => (r.parts, r.getIndex, r.toPandas (-1))) =
      some ((oneColumn [10, 11, 12, 13, 14] 7 [9, 9, 9, 9, 9]).cut [3, 2] [1], [20, 21, 22, 23, 24], none) := by decide +kernel

/-- **C68, an empty block of rows.**  The empty blocks of an aligned Modin operand are dropped, those of the Series are not: there is
    no block of the operand for the last block of the Series (`IndexError`). -/
theorem C68_empty_block :
    let m : LFrame Nat Nat Int := { parts := (oneColumn [10, 11, 12, 13, 14] 7 [1, 2, 3, 4, 5]).cut [3, 0, 2] [1], index := none, columns := none,
                                    rowLens := none, colWidths := none, defIndex := false, defColumns := false }
    m.toPandas (-1) = some (oneColumn [10, 11, 12, 13, 14] 7 [1, 2, 3, 4, 5]) ∧
    caseWhen (· ≠ 0) 1 (-1) [10, 11, 12, 13, 14] [1, 2, 3, 4, 5] [(.series [14, 10, 11, 12] [1, 0, 1, 0], .scalar 9)] = some [1, 9, 3, 9, 9] ∧
    m.caseWhen ⟨4, 2, 2⟩ id (· ≠ 0) 1 (-1) [(.frame CaseEx.cond, .plain (.scalar 9))] = none := by decide +kernel

/-- **C68, a list that is too long.**  pandas raises, Modin leaves out the rest. -/
theorem C68_long_list :
    caseWhen (· ≠ 0) 1 (-1) [10, 11, 12, 13, 14] [1, 2, 3, 4, 5] [(.array [0, 0, 0, 0, 1, 1, 1], .scalar (9 : Int))] = none ∧
    (CaseEx.s5.caseWhen ⟨4, 2, 2⟩ id (· ≠ 0) 1 (-1) [(.plain (.array [0, 0, 0, 0, 1, 1, 1]), .plain (.scalar 9))]).bind (·.toPandas (-1)) =
      some (oneColumn [10, 11, 12, 13, 14] 7 [1, 2, 3, 4, 9]) := by decide +kernel
