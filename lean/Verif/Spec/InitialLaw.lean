import Verif.Spec.InitialDistribution
import Verif.Spec.ProcessSimulate
import Verif.Lemmas.ComputeCovariates

/-!
# Specification of the distribution of initial characteristics of a model

For C111: the levels of a characteristic have multinomial logit probabilities, which depend on the covariates of the
individual.
-/

namespace Respy

noncomputable section

/-- The data of one individual in the first period: the known characteristics, its identifier and the period. -/
def Processed.initialFrame (p : Processed) (j : Nat) (row : CharRow) : Frame ℝ :=
  ⟨p.stateColumns.zipIdx.filterMap fun x => ((row[x.2]?).join).map fun (v : Nat) => (x.1, (v : ℝ)),
    [("identifier".toList, (j : ℝ)), ("period".toList, 0)]⟩

open Classical in
/-- The value of a variable for individual `j` with characteristics `row`: it is in the data, or a covariate whose formula
has variables with values. -/
def Processed.initialValue (p : Processed) (ev : FormulaEval) (j : Nat) (row : CharRow) (x : Str) : Option ℝ :=
  if h : ∃ v, ColumnValue ev.value (fun _ => true) false (p.initialFrame j row) p.groups.all x v then some h.choose
  else none

/-- Multinomial logit probabilities. -/
def logit (z : List ℝ) : List ℝ :=
  z.map fun x => Real.exp x / (z.map Real.exp).sum

/-- The distribution of a characteristic: the index of a level is the sum over its parameters, each multiplied with the
covariate of the individual. -/
def Processed.initialLaw (p : Processed) (ev : FormulaEval) (v : SampledVariable) : CharacteristicLaw where
  column := p.stateColumns.idxOf v.name
  levels := v.levels
  weights := fun j row => logit (v.betas.map fun beta =>
    (beta.map fun item => item.2 * (p.initialValue ev j row item.1).getD 0).sum)

end

end Respy
