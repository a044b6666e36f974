import Verif.Props.ComparativeInterpolation

/-!
# C101 is false for models with interpolation
-/

open Matrix

namespace Respy

/-- The model of `interpolate_three` where the first and the last state are simulated. -/
theorem interpolate_outer (pinv : (k : Nat) → Matrix (Fin k) (Fin k) ℝ → Matrix (Fin k) (Fin k) ℝ) (hpinv : IsPinv pinv)
    (x : ℝ) (hx : x ≤ 0) :
    interpolateKey Real.sqrt (ols pinv) (1 / 2) [true, false, true] [0] [[1], [1], [1]] [[x], [x], [1]]
      [[0], [0], [0]] [[0]] = some [0, x / 2, 1] := by
  have hz := C81_residuals_sum_to_zero pinv hpinv [-x, 0] [[0, 0, 1], [0, 0, 1]] 3 (by simp) rfl (by simp) (by simp)
  simp only [List.zipWith_cons_cons, List.zipWith_nil_right, List.sum_cons, List.sum_nil] at hz
  have hp : prediction [0, 0, 1] (ols pinv [-x, 0] [[0, 0, 1], [0, 0, 1]]) = -x / 2 := by linarith
  have hd : dotList [0, 0, 1] (ols pinv [-x, 0] [[0, 0, 1], [0, 0, 1]]) = -x / 2 := hp
  have hrow : ∀ y : ℝ, rhsRow Real.sqrt (1 / 2) [0] [1] [y] [0] = some ([0, 0, 1], y) := by
    intro y
    simp [rhsRow, valueFunctions, kwUtility]
  have hemax : ∀ y : ℝ, y ≤ 0 → emax? [1] [y] [0] [[0]] (1 / 2) = some 0 := by
    intro y hy
    simp [emax?, emax, maxValue, valueFunctions, kwUtility, hy]
  have hone : emax? [1] [1] [0] [[0]] (1 / 2 : ℝ) = some 1 := by
    simp [emax?, emax, maxValue, valueFunctions, kwUtility]
  have hrange : List.range 3 = [0, 1, 2] := rfl
  have hvalid : validChoices [true, false, true] = [0, 2] := rfl
  have hmax : max (-x / 2) 0 = -x / 2 := max_eq_left (by linarith)
  unfold interpolateKey
  simp only [List.length_cons, List.length_nil, Nat.reduceAdd, hrange, hvalid, List.mapM_cons, List.mapM_nil,
    List.getElem?_cons_zero, List.getElem?_cons_succ, Option.bind_eq_bind, Option.bind_some, Option.pure_def, hrow,
    hemax x hx, hone, Option.map_some, zero_sub, sub_self, List.map_cons, List.map_nil, hd, hmax, List.zip_cons_cons,
    List.zip_nil_right, assignMask]
  norm_num
  ring

/-- **C101 is false** for models with interpolation. The simulated states are drawn for each dense index. Two dense indices
with the same rewards, continuation values and shocks and with two simulated states each have different values. -/
theorem C101_interpolation_false (pinv : (k : Nat) → Matrix (Fin k) (Fin k) ℝ → Matrix (Fin k) (Fin k) ℝ)
    (hpinv : IsPinv pinv) : ¬ ∀ (delta : ℝ) (mask mask' : List Bool) (shocks : List ℝ)
      (wages m cv draws : List (List ℝ)) (V V' : List ℝ), 0 < delta → mask.length = mask'.length →
      mask.count true = 2 → mask'.count true = 2 →
      interpolateKey Real.sqrt (ols pinv) delta mask shocks wages m cv draws = some V →
      interpolateKey Real.sqrt (ols pinv) delta mask' shocks wages m cv draws = some V' → V = V' := by
  intro h
  have := h (1 / 2) [true, true, false] [true, false, true] [0] [[1], [1], [1]] [[-5], [-5], [1]] [[0], [0], [0]] [[0]]
    _ _ (by norm_num) rfl rfl rfl (interpolate_three pinv hpinv (-5) (by norm_num))
    (interpolate_outer pinv hpinv (-5) (by norm_num))
  simp only [List.cons.injEq] at this
  norm_num at this

/-- There is a routine for pseudo-inverses. -/
example : ∃ pinv, IsPinv pinv ∧ ¬ ∀ (delta : ℝ) (mask mask' : List Bool) (shocks : List ℝ)
      (wages m cv draws : List (List ℝ)) (V V' : List ℝ), 0 < delta → mask.length = mask'.length →
      mask.count true = 2 → mask'.count true = 2 →
      interpolateKey Real.sqrt (ols pinv) delta mask shocks wages m cv draws = some V →
      interpolateKey Real.sqrt (ols pinv) delta mask' shocks wages m cv draws = some V' → V = V' := by
  obtain ⟨pinv, h⟩ := exists_isPinv
  exact ⟨pinv, h, C101_interpolation_false pinv h⟩

end Respy
