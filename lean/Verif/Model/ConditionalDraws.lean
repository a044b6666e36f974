import Mathlib.Data.Matrix.Mul
import Mathlib.Data.Matrix.Diagonal
import Mathlib.Data.Real.Sign
import Mathlib.Data.Fin.Tuple.Basic
import Mathlib.Analysis.SpecialFunctions.Log.Basic
import Mathlib.Analysis.Real.Sqrt
import Mathlib.Analysis.SpecialFunctions.Trigonometric.Basic

/-!
# Conditional draws

Model of `respy/conditional_draws.py`. One observation of a choice set with `n + 1` available
alternatives, which are numbered by their position. Arrays are functions on `Fin (n + 1)`; loops
filling an array are functions of the index and loops adding up numbers are finite sums. Floats are
real numbers. `np.linalg.qr(·, mode="r")` and estimagic's `robust_cholesky` are parameters.
-/

open Matrix

namespace Respy

noncomputable section

variable {n : Nat}

/-- `cov = shocks_cholesky @ shocks_cholesky.T` (`respy/conditional_draws.py:65, 252`). -/
def shocksCov (L : Matrix (Fin n) (Fin n) ℝ) : Matrix (Fin n) (Fin n) ℝ := L * Lᵀ

/-- `sigma_squared` (`respy/conditional_draws.py:168`). -/
def sigmaSquared (cov : Matrix (Fin n) (Fin n) ℝ) (choice : Fin n) (measSd : ℝ) : ℝ :=
  cov choice choice + measSd ^ 2

/-- The two outputs of `update_mean_and_evaluate_likelihood` (`respy/conditional_draws.py:88-185`).
The log wage `none` is a missing value, for which `np.isfinite(shock)` is false. `measSds` is indexed by
`choice`, the position of the observed choice. -/
def updateMeanAndLoglike (logWageObserved : Option ℝ) (logWageSystematic : ℝ)
    (cov : Matrix (Fin n) (Fin n) ℝ) (choice : Fin n) (measSds : Nat → ℝ) : (Fin n → ℝ) × ℝ :=
  match logWageObserved with
  | some logWage =>
    let shock := logWage - logWageSystematic
    let sigma2 := sigmaSquared cov choice (measSds choice)
    let sigma := √sigma2
    (fun i => cov choice i * shock / sigma2,
      -Real.log (2 * Real.pi) / 2 - logWage - Real.log sigma - shock ^ 2 / (2 * sigma2))
  | none => (fun _ => 0, 0)

/-- `make_cholesky_unique` (`respy/conditional_draws.py:328-341`); `np.sign` is zero at zero. -/
def makeCholeskyUnique (C : Matrix (Fin n) (Fin n) ℝ) : Matrix (Fin n) (Fin n) ℝ :=
  C * Matrix.diagonal fun k => Real.sign (C k k)

/-- `extended_cholcov_t` (`respy/conditional_draws.py:219-222`). -/
def extendedCholcov (L : Matrix (Fin n) (Fin n) ℝ) (measSd : ℝ) (i : Fin n) :
    Matrix (Fin (n + 1)) (Fin (n + 1)) ℝ :=
  fun r c => Fin.cases (Fin.cases measSd (fun _ => 0) c)
    (fun r' => Fin.cases (Lᵀ r' i) (fun c' => Lᵀ r' c') c) r

/-- One iteration of the loop in `update_cholcov_with_measurement_error`
(`respy/conditional_draws.py:218-225`). `qr` is `np.linalg.qr(·, mode="r")`. -/
def updatedCholWithMeasError
    (qr : Matrix (Fin (n + 1)) (Fin (n + 1)) ℝ → Matrix (Fin (n + 1)) (Fin (n + 1)) ℝ)
    (L : Matrix (Fin n) (Fin n) ℝ) (measSds : Nat → ℝ) (i : Fin n) : Matrix (Fin n) (Fin n) ℝ :=
  let r := qr (extendedCholcov L (measSds i) i)
  makeCholeskyUnique (r.submatrix Fin.succ Fin.succ)ᵀ

/-- `updated_reduced_cov` (`respy/conditional_draws.py:257-262`). Deleting index `i` is composition
with `i.succAbove`. -/
def updatedReducedCov (cov : Matrix (Fin (n + 1)) (Fin (n + 1)) ℝ) (i : Fin (n + 1)) :
    Matrix (Fin n) (Fin n) ℝ :=
  let f : Fin n → ℝ := fun a => cov i (i.succAbove a)
  fun a b => cov (i.succAbove a) (i.succAbove b) - f a * f b / cov i i

/-- The four assignments of blocks (`respy/conditional_draws.py:265-268`) into an array of zeros: a
zero row and a zero column are inserted at `i`. -/
def insertZero (C : Matrix (Fin n) (Fin n) ℝ) (i : Fin (n + 1)) :
    Matrix (Fin (n + 1)) (Fin (n + 1)) ℝ :=
  fun r c => (i.insertNth (fun _ => (0 : ℝ)) (fun a c' =>
    (i.insertNth (0 : ℝ) (fun b => C a b) : Fin (n + 1) → ℝ) c') :
      Fin (n + 1) → Fin (n + 1) → ℝ) r c

/-- One iteration of the loop in `update_cholcov` (`respy/conditional_draws.py:256-268`).
`cholesky` is `robust_cholesky`. -/
def updatedCholNoMeasError (cholesky : Matrix (Fin n) (Fin n) ℝ → Matrix (Fin n) (Fin n) ℝ)
    (L : Matrix (Fin (n + 1)) (Fin (n + 1)) ℝ) (i : Fin (n + 1)) :
    Matrix (Fin (n + 1)) (Fin (n + 1)) ℝ :=
  insertZero (cholesky (updatedReducedCov (shocksCov L) i)) i

/-- The normal part of `calculate_conditional_draws` (`respy/conditional_draws.py:316-318`). -/
def latentDraw (base mean : Fin n → ℝ) (chol : Matrix (Fin n) (Fin n) ℝ) (i : Fin n) : ℝ :=
  mean i + ∑ j with j ≤ i, base j * chol i j

/-- `calculate_conditional_draws` for one draw (`respy/conditional_draws.py:277-325`). -/
def conditionalDraw (maxLogFloat : ℝ) (nWages : Nat) (base mean : Fin n → ℝ)
    (chol : Matrix (Fin n) (Fin n) ℝ) (i : Fin n) : ℝ :=
  let cd := latentDraw base mean chol i
  if (i : Nat) < nWages then
    Real.exp (if cd > maxLogFloat then maxLogFloat else cd)
  else cd

/-- The library functions used to update Cholesky factors (`respy/conditional_draws.py:188-274`). -/
structure LinearAlgebra (n : Nat) where
  qr : Matrix (Fin (n + 2)) (Fin (n + 2)) ℝ → Matrix (Fin (n + 2)) (Fin (n + 2)) ℝ
  cholesky : Matrix (Fin n) (Fin n) ℝ → Matrix (Fin n) (Fin n) ℝ

/-- `updated_chols[chol_index]` (`respy/conditional_draws.py:71-78, 227, 270`): the first `n_wages`
entries are updated factors, the last one is the original factor; `chol_index` is the position of the
choice if a wage is observed and `n_wages` otherwise. `none` is an index out of bounds. -/
def relevantChol (la : LinearAlgebra n) (hasMeasError : Bool)
    (L : Matrix (Fin (n + 1)) (Fin (n + 1)) ℝ) (measSds : Nat → ℝ) (nWages : Nat)
    (logWageObserved : Option ℝ) (choice : Fin (n + 1)) :
    Option (Matrix (Fin (n + 1)) (Fin (n + 1)) ℝ) :=
  let cholIndex : Nat := if logWageObserved.isSome then choice else nWages
  if cholIndex < nWages then
    some (if hasMeasError then updatedCholWithMeasError la.qr L measSds choice
      else updatedCholNoMeasError la.cholesky L choice)
  else if cholIndex = nWages then some L else none

/-- The result of `create_draws_and_log_prob_wages` for one observation (`respy/conditional_draws.py:10-85`). -/
structure DrawsAndLogProb (n : Nat) where
  draw : (Fin n → ℝ) → Fin n → ℝ
  logProbWage : ℝ

/-- `create_draws_and_log_prob_wages` for one observation (`respy/conditional_draws.py:10-85`), as a
function of the base draws. `np.choose` selects the systematic wage of the choice. -/
def createDrawsAndLogProbWages (la : LinearAlgebra n) (maxFloat maxLogFloat : ℝ) (hasMeasError : Bool)
    (logWageObserved : Option ℝ) (wages : Fin (n + 1) → ℝ) (choice : Fin (n + 1))
    (L : Matrix (Fin (n + 1)) (Fin (n + 1)) ℝ) (nWages : Nat) (measSds : Nat → ℝ) :
    Option (DrawsAndLogProb (n + 1)) := do
  let logWageSystematic := Real.log (min (max (wages choice) (1 / maxFloat)) maxFloat)
  let updated := updateMeanAndLoglike logWageObserved logWageSystematic (shocksCov L) choice measSds
  let chol ← relevantChol la hasMeasError L measSds nWages logWageObserved choice
  pure ⟨fun base => conditionalDraw maxLogFloat nWages base updated.1 chol, updated.2⟩

/-- `df["log_wage"]` (`respy/likelihood.py:535-537`): the logarithm of the clipped wage; missing values
stay missing. -/
def logWage (maxFloat : ℝ) (wage : Option ℝ) : Option ℝ :=
  wage.map fun w => Real.log (min (max w (1 / maxFloat)) maxFloat)

end

end Respy
