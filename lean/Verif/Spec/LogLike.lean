import Verif.Spec.Simulation
import Verif.Spec.Emax
import Mathlib.Analysis.SpecialFunctions.Log.Basic
import Mathlib.Analysis.Real.Sqrt
import Mathlib.Analysis.SpecialFunctions.Trigonometric.Basic

/-!
# Specification of the likelihood of observed choices and wages

Independent of dense keys, positions and arrays: everything is a function of alternatives. `cs` says which
alternatives are available.
-/

namespace Respy

noncomputable section

/-- Sum over the available alternatives. -/
def overAvailable (cs : List Bool) (f : Nat → ℝ) : ℝ :=
  ((List.range cs.length).map fun j => if cs[j]? = some true then f j else 0).sum

/-- The covariance of the shocks of alternatives `a` and `b`, which are linear combinations of standard
normal variables, one for each available alternative, with the coefficients `L`. -/
def shockCov (L : List (List ℝ)) (cs : List Bool) (a b : Nat) : ℝ :=
  overAvailable cs fun j => entry L a j * entry L b j

/-- An observed wage: the chosen alternative, the difference between the logarithms of the observed and the
systematic wage, which is the sum of the shock and a measurement error, and the variance of this sum. -/
structure WageObservation where
  alternative : Nat
  residual : ℝ
  variance : ℝ

/-- The observation for a wage (none if no wage is observed), the systematic wage `w` and the standard
deviations `sd` of the measurement errors. -/
def observation (L : List (List ℝ)) (cs : List Bool) (sd : Nat → ℝ) (w : Nat → ℝ) (a : Nat)
    (wage : Option ℝ) : Option WageObservation :=
  wage.map fun x => ⟨a, Real.log x - Real.log (w a), shockCov L cs a a + sd a ^ 2⟩

/-- The mean of the shock of alternative `b` given the observation. -/
def shockMean (cov : Nat → Nat → ℝ) (obs : Option WageObservation) (b : Nat) : ℝ :=
  match obs with
  | none => 0
  | some o => cov o.alternative b * o.residual / o.variance

/-- The covariance of the shocks of alternatives `a` and `b` given the observation. -/
def shockCovGiven (cov : Nat → Nat → ℝ) (obs : Option WageObservation) (a b : Nat) : ℝ :=
  match obs with
  | none => cov a b
  | some o => cov a b - cov o.alternative a * cov o.alternative b / o.variance

/-- `C` is a factor of the covariance matrix of the shocks given the observation. -/
def IsFactorGiven (cov : Nat → Nat → ℝ) (cs : List Bool) (obs : Option WageObservation)
    (C : Nat → Nat → ℝ) : Prop :=
  ∀ a, cs[a]? = some true → ∀ b, cs[b]? = some true →
    overAvailable cs (fun j => C a j * C b j) = shockCovGiven cov obs a b

/-- The shock of alternative `a` in the reward: the normal variable with the given mean and factor for the
standard normal draws `z`, and for alternatives with a wage the exponential of it. -/
def rewardShockGiven (bound : ℝ) (nWages : Nat) (cs : List Bool) (mean : Nat → ℝ) (C : Nat → Nat → ℝ)
    (z : Nat → ℝ) (a : Nat) : ℝ :=
  let x := mean a + overAvailable cs fun j => C a j * z j
  if a < nWages then Real.exp (min x bound) else x

/-- The logit probability of alternative `a` for the values `v`. -/
def logitOf (tau : ℝ) (cs : List Bool) (v : Nat → ℝ) (a : Nat) : ℝ :=
  Real.exp (v a / tau) / overAvailable cs fun j => Real.exp (v j / tau)

/-- The density of an observed wage `x`, which is the systematic wage `w` times the exponential of a normal
variable with mean zero and the given variance. -/
def wageDensity (variance w x : ℝ) : ℝ :=
  Real.exp (-(Real.log x - Real.log w) ^ 2 / (2 * variance)) / (x * √(2 * Real.pi * variance))

/-- The density of the wage of an observation; one if no wage is observed. -/
def densityOf (L : List (List ℝ)) (cs : List Bool) (sd : Nat → ℝ) (w : Nat → ℝ) (a : Nat) :
    Option ℝ → ℝ
  | none => 1
  | some x => wageDensity (shockCov L cs a a + sd a ^ 2) (w a) x

/-- `prob` is the simulated probability of alternative `a` given the observed wage: the average over the
draws of the logit probabilities for the values `w * shock + m + delta * c`, where the shocks have the
distribution given the observation. -/
def IsChoiceProbability (bound tau delta : ℝ) (nWages : Nat) (L : List (List ℝ)) (cs : List Bool)
    (sd : Nat → ℝ) (w m c : Nat → ℝ) (a : Nat) (wage : Option ℝ) (draws : List (Nat → ℝ))
    (prob : ℝ) : Prop :=
  ∃ C, IsFactorGiven (shockCov L cs) cs (observation L cs sd w a wage) C ∧
    prob = (draws.map fun z => logitOf tau cs (fun b => w b * rewardShockGiven bound nWages cs
      (shockMean (shockCov L cs) (observation L cs sd w a wage)) C z b + m b + delta * c b) a).sum /
        draws.length

/-- The parameters and numbers are such that the likelihood of an observation is defined: the shocks are
given by a lower triangular matrix; if a wage `x` is observed, the alternative has a wage, observed and
systematic wage are within the range of floats, the variance of the measurement error is found at the
position of the alternative among the available ones (`C37_own_measurement_error_false`) and

* with measurement errors: this variance is not zero and the covariance matrix is not singular
* without measurement errors: the shock has a positive variance -/
structure ObservationWF (hi : ℝ) (hasMeasError : Bool) (nWages : Nat) (L : List (List ℝ))
    (cs : List Bool) (measError : List ℝ) (w : Nat → ℝ) (a : Nat) (x : ℝ) : Prop where
  hasWage : a < nWages
  observed : 1 / hi ≤ x ∧ x ≤ hi
  systematic : 1 / hi ≤ w a ∧ w a ≤ hi
  own : measError.getD (positionIn cs a) 0 = measError.getD a 0
  error : hasMeasError = true → measError.getD a 0 ≠ 0 ∧ ∀ b, cs[b]? = some true → entry L b b ≠ 0
  noError : hasMeasError = false → measError.getD a 0 = 0 ∧ shockCov L cs a a ≠ 0

end

end Respy
