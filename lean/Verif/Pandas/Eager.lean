import Verif.Model.CallQueue
/-
Specification: partitions without queues.  Every operation is executed at the moment it is
requested; an object is simply its value (`none`: the computation raised).
-/

variable {D : Type}

/-- `applyRaises`: whether an immediate `apply` (or an explicit drain) reports the exception at
    once (in-process engine) or produces a failed object (engines with futures). -/
def eagerStep (applyRaises : Bool) (len : D → Nat) (s : List (Option D)) :
    POp D → List (Option D) × Obs D
  | .add i f _ => match s[i]? with
    | none => (s, .noObject)
    | some v => (s ++ [v.bind f], .done)
  | .drain i => match s[i]? with
    | none => (s, .noObject)
    | some v => (s, if applyRaises && v.isNone then .raised else .done)
  | .read i => match s[i]? with
    | none => (s, .noObject)
    | some v => (s, match v with | some d => .value d | none => .raised)
  | .apply i f => match s[i]? with
    | none => (s, .noObject)
    | some v =>
      if applyRaises && (v.bind f).isNone then (s, .raised) else (s ++ [v.bind f], .done)
  | .copy i => match s[i]? with
    | none => (s, .noObject)
    | some v => (s ++ [v], .done)
  | .length i => match s[i]? with
    | none => (s, .noObject)
    | some v => (s, match v with | some d => .num (len d) | none => .raised)

/-- No operation of the history raises, and announced lengths are right. -/
def POp.Total (len : D → Nat) : POp D → Prop
  | .add _ f n => ∀ d, ∃ d', f d = some d' ∧ ∀ m, n = some m → len d' = m
  | .apply _ f => ∀ d, ∃ d', f d = some d'
  | _ => True

/-- The operation does not announce a length (`add_to_apply_calls` without `length=`). -/
def POp.NoHint : POp D → Prop
  | .add _ _ n => n = none
  | _ => True
