import Verif.Model.Dispatch
/-
What is expected of the choice of a backend and of a call on objects of several backends.
-/

variable {β δ : Type}

/-- what one operand adds to the total of backend `b` -/
def costShare [DecidableEq β] (costs : Costs β δ) (b : β) (o : Obj β δ) : Int :=
  if b = o.backend then (costs.stay o.backend o.data).getD 0
  else ((costs.move o.backend o.data b).or (costs.me b o.backend o.data)).getD 0

/-- the total of backend `b` -/
def totalCost [DecidableEq β] (costs : Costs β δ) (operands : List (Obj β δ)) (b : β) : Int :=
  (operands.map (costShare costs b)).sum

/-- every cost an operand can be charged with is in the allowed range -/
def CostsInRange (costs : Costs β δ) (operands : List (Obj β δ)) (cands : List β) : Prop :=
  ∀ o ∈ operands, (∀ c, costs.stay o.backend o.data = some c → 0 ≤ c ∧ c ≤ 1000) ∧
    ∀ b ∈ cands, b ≠ o.backend → ∀ c, (costs.move o.backend o.data b).or (costs.me b o.backend o.data) = some c →
      0 ≤ c ∧ c ≤ 1000

/-- the data after the updates made to operand `j` -/
def updatedData (j : Nat) (ps : List (Nat × Option δ)) (d : δ) : δ :=
  ps.foldl (fun d p => if p.1 = j then p.2.getD d else d) d

/-- no object is inside a tuple inside the arguments -/
def CallArgs.flatTuples : CallArgs → Bool
  | .nil => true
  | .atom rest => rest.flatTuples
  | .obj _ rest => rest.flatTuples
  | .list inner rest => inner.flatTuples && rest.flatTuples
  | .tuple inner rest => inner.ids.isEmpty && rest.flatTuples
