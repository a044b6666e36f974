import Mathlib.Data.Matrix.Mul
import Mathlib.Data.Real.Basic

/-!
# Specification of least squares

Independent of matrices and pseudo-inverses, which only occur in the contract of `np.linalg.pinv`.
-/

open Matrix

namespace Respy

/-- The prediction of a linear model. -/
def prediction (row beta : List ℝ) : ℝ := (List.zipWith (· * ·) row beta).sum

/-- The sum of squared residuals. -/
def squaredResiduals (y : List ℝ) (x : List (List ℝ)) (beta : List ℝ) : ℝ :=
  (List.zipWith (fun row v => (v - prediction row beta) ^ 2) x y).sum

/-- The sum of squares of a list. -/
def squaredNorm (beta : List ℝ) : ℝ := (beta.map (· ^ 2)).sum

/-- `beta` has one coefficient per regressor, no other coefficients have a smaller sum of squared
residuals, and all others which have the same one are larger. There is at most one such `beta`. -/
structure IsLeastSquares (k : Nat) (y : List ℝ) (x : List (List ℝ)) (beta : List ℝ) : Prop where
  length : beta.length = k
  least : ∀ b : List ℝ, b.length = k → squaredResiduals y x beta ≤ squaredResiduals y x b
  smallest : ∀ b : List ℝ, b.length = k → squaredResiduals y x b = squaredResiduals y x beta → b ≠ beta →
    squaredNorm beta < squaredNorm b

/-- The conditions of Penrose, the contract of `np.linalg.pinv` for real square matrices. -/
structure IsPseudoInverse {k : Nat} (a g : Matrix (Fin k) (Fin k) ℝ) : Prop where
  one : a * g * a = a
  two : g * a * g = g
  three : (a * g)ᵀ = a * g
  four : (g * a)ᵀ = g * a

end Respy
