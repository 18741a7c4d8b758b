/-
Sorting as done by numpy/pandas: `np.sort`, `np.argsort`, stable `sort_values`.
Part of the specification vocabulary.
-/

variable {α : Type}

/-- put `x` in front of the first element it is `le` to -/
def insertBy (le : α → α → Bool) (x : α) : List α → List α
  | [] => [x]
  | y :: ys => if le x y then x :: y :: ys else y :: insertBy le x ys

/-- Stable sorting: an ordered permutation in which elements that compare equal both ways keep
    their order. -/
def sortBy (le : α → α → Bool) : List α → List α
  | [] => []
  | x :: xs => insertBy le x (sortBy le xs)

/-- `np.sort` on integers -/
def npSort (l : List Nat) : List Nat := sortBy (fun a b => decide (a ≤ b)) l

/-- `np.argsort` on integers (numpy's default is not stable; the callers modelled here do not
    depend on the order of equal entries). -/
def npArgsort (l : List Nat) : List Nat :=
  (sortBy (fun a b => decide (a.1 ≤ b.1)) l.zipIdx).map (·.2)
