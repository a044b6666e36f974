import Verif.Lemmas.ConditionalDraws
import Verif.Lemmas.GaussianUpdate
import Verif.Lemmas.GaussianExists
import Verif.Lemmas.Shocks
import Verif.Lemmas.Likelihood
import Verif.Model.LikelihoodObs

/-! # Lemmas about draws conditional on wages -/

open MeasureTheory ProbabilityTheory Matrix

namespace Respy

theorem conditionalDraw_eq {n : Nat} (bound : ℝ) (nWages : Nat) (base mean : Fin n → ℝ)
    (C : Matrix (Fin n) (Fin n) ℝ) :
    conditionalDraw bound nWages base mean C =
      rewardShock bound nWages (latentDraw base mean C) := by
  funext i
  unfold conditionalDraw rewardShock
  simp only [gt_iff_lt]
  split
  · congr 1
    split
    · rename_i h
      rw [min_eq_right h.le]
    · rename_i h
      rw [min_eq_left (not_lt.1 h)]
  · rfl

theorem measurable_rewardShock {n : Nat} (bound : ℝ) (nWages : Nat) :
    Measurable fun x : Fin n → ℝ => rewardShock bound nWages x := by
  refine measurable_pi_lambda _ fun i => ?_
  unfold rewardShock
  split
  · exact Real.measurable_exp.comp ((measurable_pi_apply i).min measurable_const)
  · exact measurable_pi_apply i

variable {Ω Ω' : Type*} {mΩ : MeasurableSpace Ω} {mΩ' : MeasurableSpace Ω'} {P : Measure Ω}
  {Q : Measure Ω'} {n : Nat}

/-- The law of the draws is the conditional law of the shocks if the factor is right. -/
theorem draws_condDistrib (la : LinearAlgebra n) (maxFloat bound : ℝ) (hasMeasError : Bool)
    (wages : Fin (n + 1) → ℝ) (c : Fin (n + 1)) (L : Matrix (Fin (n + 1)) (Fin (n + 1)) ℝ)
    (nWages : Nat) (measSds : Nat → ℝ) (C : Matrix (Fin (n + 1)) (Fin (n + 1)) ℝ)
    (hC : ∀ l, relevantChol la hasMeasError L measSds nWages (some l) c = some C) (hl : IsLower C)
    (hσ : shocksCov L c c + measSds c ^ 2 ≠ 0)
    (hg : ∀ j k, (C * Cᵀ) j k = shocksCov L j k - shocksCov L c j * shocksCov L c k /
      (shocksCov L c c + measSds c ^ 2))
    [IsProbabilityMeasure P] {X : Fin (n + 1) → Ω → ℝ} {ε : Ω → ℝ}
    (hX : ShocksAndError (L * Lᵀ) (measSds c ^ 2) X ε P)
    {Z : Fin (n + 1) → Ω' → ℝ} (hZ : StandardNormal Z Q) :
    ∀ᵐ y ∂(P.map fun ω => X c ω + ε ω),
      ∃ r, createDrawsAndLogProbWages la maxFloat bound hasMeasError
          (some (Real.log (min (max (wages c) (1 / maxFloat)) maxFloat) + y)) wages c L nWages measSds =
            some r ∧
        Q.map (fun ω => r.draw fun j => Z j ω) =
          (condDistrib (fun ω i => X i ω) (fun ω => X c ω + ε ω) P y).map
            (rewardShock bound nWages) := by
  have h := gaussian_condDistrib hX.gaussian hX.errGaussian hX.indep hX.mean hX.errMean hX.cov
    hX.errVar c hσ hZ.gaussian hZ.mean hZ.cov C hg
  filter_upwards [h] with y hy
  simp only [createDrawsAndLogProbWages, hC, Option.bind_eq_bind, Option.bind_some, Option.pure_def]
  refine ⟨_, rfl, ?_⟩
  rw [hy]
  have hm : AEMeasurable (fun ω (i : Fin (n + 1)) =>
      (L * Lᵀ) c i * y / ((L * Lᵀ) c c + measSds c ^ 2) + ∑ j, C i j * Z j ω) Q := by
    have := (gaussian_linear hZ.gaussian C).aemeasurable
    exact (aemeasurable_const (b := fun i => (L * Lᵀ) c i * y / ((L * Lᵀ) c c + measSds c ^ 2))).add
      this
  rw [AEMeasurable.map_map_of_aemeasurable (measurable_rewardShock _ _).aemeasurable hm]
  congr 1
  funext ω
  simp only [conditionalDraw_eq, Function.comp]
  congr 1
  funext i
  rw [latentDraw_lower _ _ hl]
  simp only [updateMeanAndLoglike, sigmaSquared, add_sub_cancel_left]
  rfl

/-- Shocks without measurement error. -/
theorem Shocks.withoutError {S : Matrix (Fin n) (Fin n) ℝ} {X : Fin n → Ω → ℝ}
    [IsProbabilityMeasure P] (h : Shocks S X P) : ShocksAndError S 0 X (fun _ => 0) P where
  gaussian := h.gaussian
  errGaussian := ⟨by
    rw [Measure.map_const, measure_univ, one_smul]
    infer_instance⟩
  indep := indepFun_const_right _ _
  mean := h.mean
  errMean := by simp
  cov := h.cov
  errVar := variance_zero P

theorem selectValidChoices_range_length (n : Nat) (cs : List Bool) (h : n ≤ cs.length) :
    likelihoodNWages (List.range n) cs = nWagesIn n cs := by
  unfold likelihoodNWages selectValidChoices nWagesIn
  rw [List.length_map]
  have hz : (List.range n).zipIdx = (List.range n).map fun i => (i, i) := by
    apply List.ext_getElem?
    intro i
    simp only [List.getElem?_zipIdx, List.getElem?_map]
    by_cases hi : i < n
    · simp [List.getElem?_range hi]
    · simp [List.getElem?_eq_none_iff.2 (by simpa using hi : (List.range n).length ≤ i)]
  rw [hz, List.filter_map, List.length_map]
  have hc : cs.take n = (List.range n).map fun i => cs.getD i false := by
    apply List.ext_getElem?
    intro i
    rw [List.getElem?_map, List.getElem?_take]
    by_cases hi : i < n
    · rw [if_pos hi, List.getElem?_range hi, List.getElem?_eq_getElem (by omega)]
      simp [List.getD_eq_getElem?_getD, List.getElem?_eq_getElem (show i < cs.length by omega)]
    · simp [hi]
  rw [hc, List.count_eq_length_filter, List.filter_map, List.length_map]
  congr 1
  apply List.filter_congr
  intro i hi
  have : i < cs.length := by have := List.mem_range.1 hi; omega
  simp [List.getD_eq_getElem?_getD, List.getElem?_eq_getElem this]

end Respy
