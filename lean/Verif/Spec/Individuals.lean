import Verif.Model.Simulate

/-!
# Specification: one individual of a simulation
-/

namespace Respy

variable {K : Type _}

/-- The entries of `l` at the positions `js`. -/
def pick {α : Type _} (js : List Nat) (l : List α) : List α := js.filterMap fun j => l[j]?

/-- Rows of draws for the individuals at the positions `js` of a sample of `n` individuals: in each of
`periods` periods the individual which is now at position `i` has the draws it had at position `js[i]`. -/
def OwnDraws (js : List Nat) (n periods : Nat) (draws own : List (List K)) : Prop :=
  ∀ t < periods, ∀ i j, js[i]? = some j → own[js.length * t + i]? = draws[n * t + j]?

/-- Two rows which are the same except for the identifier. -/
structure SameExperience (a b : SimRow K) : Prop where
  state : a.state = b.state
  denseKey : a.denseKey = b.denseKey
  coreIndex : a.coreIndex = b.coreIndex
  base : a.base = b.base
  baseWage : a.baseWage = b.baseWage
  outcome : a.outcome = b.outcome

/-- The rows of one individual. -/
def rowsOf (out : List (SimRow K)) (id : Nat) : List (SimRow K) := out.filter fun r => decide (r.id = id)

end Respy
