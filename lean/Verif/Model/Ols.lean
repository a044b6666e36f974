import Mathlib.Data.Matrix.Mul
import Mathlib.Data.Real.Basic
import Mathlib.Data.List.OfFn

/-!
# Regressions in the interpolation

Model of `ols` in `respy/interpolate.py`. The pseudo-inverse `np.linalg.pinv` of a symmetric matrix is a
parameter.
-/

open Matrix

namespace Respy

/-- The array `x` with `k` columns (`respy/interpolate.py:381-401`). -/
def designMatrix (k : Nat) (x : List (List ℝ)) : Matrix (Fin x.length) (Fin k) ℝ :=
  fun i j => (x[i]).getD j 0

/-- The array `y` with `n` elements (`respy/interpolate.py:381-401`). -/
def responseVector (n : Nat) (y : List ℝ) : Fin n → ℝ := fun i => y.getD i 0

/-- `ols` with the number of columns of `x` as an argument (`respy/interpolate.py:381-401`). -/
noncomputable def olsWith (pinv : (k : Nat) → Matrix (Fin k) (Fin k) ℝ → Matrix (Fin k) (Fin k) ℝ)
    (k : Nat) (y : List ℝ) (x : List (List ℝ)) : List ℝ :=
  List.ofFn (pinv k ((designMatrix k x)ᵀ * designMatrix k x) *ᵥ
    ((designMatrix k x)ᵀ *ᵥ responseVector x.length y))

/-- `ols` (`respy/interpolate.py:381-401`). An array with rows has the number of columns of its first row;
arrays without rows do not occur. -/
noncomputable def ols (pinv : (k : Nat) → Matrix (Fin k) (Fin k) ℝ → Matrix (Fin k) (Fin k) ℝ)
    (y : List ℝ) (x : List (List ℝ)) : List ℝ :=
  olsWith pinv (x.headD []).length y x

end Respy
