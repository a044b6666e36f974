import Mathlib.Analysis.Real.Sqrt
import Verif.Props.LeastSquares
import Verif.Props.Comparative

/-!
# C96 is false for models with interpolation
-/

open Matrix

namespace Respy

/-- One alternative and three states of which two are simulated. The simulated states have the reward `x`, the other
one has the reward one. -/
theorem interpolate_three (pinv : (k : Nat) → Matrix (Fin k) (Fin k) ℝ → Matrix (Fin k) (Fin k) ℝ) (hpinv : IsPinv pinv)
    (x : ℝ) (hx : x ≤ 0) :
    interpolateKey Real.sqrt (ols pinv) (1 / 2) [true, true, false] [0] [[1], [1], [1]] [[x], [x], [1]]
      [[0], [0], [0]] [[0]] = some [0, 0, 1 - x] := by
  have hz := C81_residuals_sum_to_zero pinv hpinv [-x, -x] [[0, 0, 1], [0, 0, 1]] 3 (by simp) rfl (by simp) (by simp)
  simp only [List.zipWith_cons_cons, List.zipWith_nil_right, List.sum_cons, List.sum_nil] at hz
  have hp : prediction [0, 0, 1] (ols pinv [-x, -x] [[0, 0, 1], [0, 0, 1]]) = -x := by linarith
  have hd : dotList [0, 0, 1] (ols pinv [-x, -x] [[0, 0, 1], [0, 0, 1]]) = -x := hp
  have hrow : ∀ y : ℝ, rhsRow Real.sqrt (1 / 2) [0] [1] [y] [0] = some ([0, 0, 1], y) := by
    intro y
    simp [rhsRow, valueFunctions, kwUtility]
  have hemax : ∀ y : ℝ, y ≤ 0 → emax? [1] [y] [0] [[0]] (1 / 2) = some 0 := by
    intro y hy
    simp [emax?, emax, maxValue, valueFunctions, kwUtility, hy]
  have hrange : List.range 3 = [0, 1, 2] := rfl
  have hvalid : validChoices [true, true, false] = [0, 1] := rfl
  have hmax : max (-x) 0 = -x := max_eq_left (by linarith)
  unfold interpolateKey
  simp only [List.length_cons, List.length_nil, Nat.reduceAdd, hrange, hvalid, List.mapM_cons, List.mapM_nil,
    List.getElem?_cons_zero, List.getElem?_cons_succ, Option.bind_eq_bind, Option.bind_some, Option.pure_def, hrow,
    hemax x hx, Option.map_some, zero_sub, List.map_cons, List.map_nil, hd, hmax, List.zip_cons_cons,
    List.zip_nil_right, assignMask, neg_add_cancel]
  norm_num
  ring

/-- **C96 is false** for models with interpolation. Two of three states are simulated. With higher rewards in the
simulated states the value of the third state, whose own rewards do not change, is lower: the regression predicts the
difference between the value and the largest value at mean shocks, and this difference falls. -/
theorem C96_interpolation_false (pinv : (k : Nat) → Matrix (Fin k) (Fin k) ℝ → Matrix (Fin k) (Fin k) ℝ)
    (hpinv : IsPinv pinv) : ¬ ∀ (delta : ℝ) (mask : List Bool) (shocks : List ℝ) (wages m m' cv draws : List (List ℝ))
      (V V' : List ℝ), 0 < delta → mask.count true = 2 → List.Forall₂ (List.Forall₂ (· ≤ ·)) m m' →
      interpolateKey Real.sqrt (ols pinv) delta mask shocks wages m cv draws = some V →
      interpolateKey Real.sqrt (ols pinv) delta mask shocks wages m' cv draws = some V' → List.Forall₂ (· ≤ ·) V V' := by
  intro h
  have := h (1 / 2) [true, true, false] [0] [[1], [1], [1]] [[-5], [-5], [1]] [[-1], [-1], [1]] [[0], [0], [0]] [[0]]
    _ _ (by norm_num) rfl (by norm_num) (interpolate_three pinv hpinv (-5) (by norm_num))
    (interpolate_three pinv hpinv (-1) (by norm_num))
  simp only [List.forall₂_cons] at this
  norm_num at this

/-- There is a routine for pseudo-inverses. -/
example : ∃ pinv, IsPinv pinv ∧ ¬ ∀ (delta : ℝ) (mask : List Bool) (shocks : List ℝ)
      (wages m m' cv draws : List (List ℝ)) (V V' : List ℝ), 0 < delta → mask.count true = 2 →
      List.Forall₂ (List.Forall₂ (· ≤ ·)) m m' →
      interpolateKey Real.sqrt (ols pinv) delta mask shocks wages m cv draws = some V →
      interpolateKey Real.sqrt (ols pinv) delta mask shocks wages m' cv draws = some V' → List.Forall₂ (· ≤ ·) V V' := by
  obtain ⟨pinv, h⟩ := exists_isPinv
  exact ⟨pinv, h, C96_interpolation_false pinv h⟩

end Respy
