import Verif.Model.ConditionalDraws
import Verif.Model.Likelihood

/-!
# Inputs of the conditional draws in the likelihood

Model of `respy/likelihood.py:282-310` and `respy/shared.py:719-730`.
-/

namespace Respy

/-- `select_valid_choices` (`respy/shared.py:719-730`). There are at most as many choices as entries of
the choice set; otherwise the code raises an `IndexError` and the model drops the choice. -/
def selectValidChoices {α : Type _} (choices : List α) (cs : List Bool) : List α :=
  (choices.zipIdx.filter fun p => cs[p.2]? = some true).map Prod.fst

/-- `n_wages` in the likelihood (`respy/likelihood.py:284`). -/
def likelihoodNWages {α : Type _} (choicesWithWage : List α) (cs : List Bool) : Nat :=
  (selectValidChoices choicesWithWage cs).length

/-- The array `meas_sds` which `create_draws_and_log_prob_wages` receives
(`respy/likelihood.py:300-309`): `optim_paras["meas_error"]`, the standard deviations of all choices,
while the other arrays are restricted to the choice set. Indices beyond the end do not occur. -/
def likelihoodMeasSds (measError : List ℝ) (_cs : List Bool) : Nat → ℝ := fun i => measError.getD i 0

/-- The log probability of the wage of an observation with choice code `choice`
(`respy/likelihood.py:282-310`): the choice is mapped to its position and all arrays but the
standard deviations of the measurement error are restricted to the choice set with `n + 1` available
alternatives. `wages` and `L` are already restricted. `none` is an exception. -/
noncomputable def wageLogProb {n : Nat} (la : LinearAlgebra n) (maxFloat maxLogFloat : ℝ)
    (hasMeasError : Bool) (measError : List ℝ) (nWagesRaw : Nat) (cs : List Bool) (choice : Nat)
    (logWageObserved : Option ℝ) (wages : Fin (n + 1) → ℝ)
    (L : Matrix (Fin (n + 1)) (Fin (n + 1)) ℝ) : Option (DrawsAndLogProb (n + 1)) := do
  let position ← mapChoiceCode cs choice
  if h : position < n + 1 then
    createDrawsAndLogProbWages la maxFloat maxLogFloat hasMeasError logWageObserved wages ⟨position, h⟩ L
      (likelihoodNWages (List.range nWagesRaw) cs) (likelihoodMeasSds measError cs)
  else none

end Respy
