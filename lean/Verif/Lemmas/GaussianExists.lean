import Verif.Spec.Gaussian
import Verif.Lemmas.GaussianUpdate
import Mathlib.Probability.Independence.Basic

/-! # The specifications of random variables can be met -/

open MeasureTheory ProbabilityTheory

namespace Respy

variable {n : Nat}

theorem exists_standardNormal (n : Nat) :
    StandardNormal (fun (i : Fin n) (ω : Fin n → ℝ) => ω i)
      (Measure.pi fun _ : Fin n => gaussianReal 0 1) := by
  set μ := Measure.pi fun _ : Fin n => gaussianReal 0 1
  have hind : iIndepFun (fun (i : Fin n) (ω : Fin n → ℝ) => ω i) μ :=
    iIndepFun_pi (X := fun _ => id) (fun _ => aemeasurable_id)
  have hmap : ∀ i : Fin n, μ.map (fun ω : Fin n → ℝ => ω i) = gaussianReal 0 1 := fun i =>
    (measurePreserving_eval _ i).map_eq
  have hg : ∀ i : Fin n, HasGaussianLaw (fun ω : Fin n → ℝ => ω i) μ := fun i =>
    ⟨by rw [hmap i]; infer_instance⟩
  refine ⟨hind.hasGaussianLaw hg, ?_, ?_⟩
  · intro i
    have : ∫ ω : Fin n → ℝ, ω i ∂μ = ∫ x, x ∂(μ.map fun ω : Fin n → ℝ => ω i) :=
      (integral_map (μ := μ) (φ := fun ω : Fin n → ℝ => ω i) (f := fun x : ℝ => x)
        (measurable_pi_apply i).aemeasurable aestronglyMeasurable_id).symm
    rw [this, hmap, integral_id_gaussianReal]
  · intro i j
    split
    · rename_i h
      subst h
      rw [covariance_self (measurable_pi_apply i).aemeasurable]
      have : variance (fun ω : Fin n → ℝ => ω i) μ =
          variance id (μ.map fun ω : Fin n → ℝ => ω i) := by
        rw [variance_map aemeasurable_id (measurable_pi_apply i).aemeasurable]
        rfl
      rw [this, hmap, variance_id_gaussianReal]
      rfl
    · rename_i h
      exact (hind.indepFun h).covariance_eq_zero (hg i).memLp_two (hg j).memLp_two

/-- For every factor and standard deviation there are shocks and a measurement error. -/
theorem exists_shocksAndError (L : Matrix (Fin n) (Fin n) ℝ) (s : ℝ) :
    ShocksAndError (L * L.transpose) (s ^ 2)
      (fun i (ω : (Fin n → ℝ) × ℝ) => ∑ j, L i j * ω.1 j) (fun ω => ω.2)
      ((Measure.pi fun _ : Fin n => gaussianReal 0 1).prod (gaussianReal 0 (s ^ 2).toNNReal)) := by
  set μ := Measure.pi fun _ : Fin n => gaussianReal 0 1
  set ν := gaussianReal 0 (s ^ 2).toNNReal with hν
  have : IsGaussian ν := by rw [hν]; infer_instance
  have : IsProbabilityMeasure ν := by rw [hν]; infer_instance
  have hZ := exists_standardNormal n
  have hfst : (μ.prod ν).map Prod.fst = μ := by simp [Measure.map_fst_prod]
  have hsnd : (μ.prod ν).map Prod.snd = ν := by simp [Measure.map_snd_prod]
  have hg : HasGaussianLaw (fun (ω : (Fin n → ℝ) × ℝ) (i : Fin n) => ω.1 i) (μ.prod ν) := by
    refine ⟨?_⟩
    have : (μ.prod ν).map (fun (ω : (Fin n → ℝ) × ℝ) (i : Fin n) => ω.1 i) = μ := hfst
    rw [this]
    have h := hZ.gaussian.isGaussian_map
    have : μ.map (fun ω i => ω i) = μ := Measure.map_id
    rwa [this] at h
  have hX := gaussian_linear (X := fun i (ω : (Fin n → ℝ) × ℝ) => ω.1 i) hg L
  have hmean : ∀ j, ∫ ω : (Fin n → ℝ) × ℝ, ω.1 j ∂(μ.prod ν) = 0 := by
    intro j
    have : ∫ ω : (Fin n → ℝ) × ℝ, ω.1 j ∂(μ.prod ν) = ∫ z : Fin n → ℝ, z j ∂((μ.prod ν).map Prod.fst) :=
      (integral_map (μ := μ.prod ν) (φ := Prod.fst) (f := fun z : Fin n → ℝ => z j)
        measurable_fst.aemeasurable (measurable_pi_apply j).aestronglyMeasurable).symm
    rw [this, hfst]
    exact hZ.mean j
  have hcov : ∀ i j, covariance (fun ω : (Fin n → ℝ) × ℝ => ω.1 i) (fun ω => ω.1 j) (μ.prod ν) =
      if i = j then 1 else 0 := by
    intro i j
    rw [← hZ.cov i j]
    have := covariance_map_fun (μ := μ.prod ν) (Z := Prod.fst) (X := fun z : Fin n → ℝ => z i)
      (Y := fun z : Fin n → ℝ => z j) (measurable_pi_apply i).aestronglyMeasurable
      (measurable_pi_apply j).aestronglyMeasurable measurable_fst.aemeasurable
    rw [hfst] at this
    exact this.symm
  have hmem : ∀ j, MemLp (fun ω : (Fin n → ℝ) × ℝ => ω.1 j) 2 (μ.prod ν) := fun j =>
    (hg.eval j).memLp_two
  refine ⟨hX, ⟨by have : (μ.prod ν).map (fun ω : (Fin n → ℝ) × ℝ => ω.2) = ν := hsnd
                  rw [this]; infer_instance⟩, ?_, ?_, ?_, ?_, ?_⟩
  · have hl : Measurable fun z : Fin n → ℝ => fun i => ∑ j, L i j * z j :=
      measurable_pi_lambda _ fun i =>
        Finset.measurable_sum _ fun j _ => (measurable_pi_apply j).const_mul _
    exact indepFun_prod (μ := μ) (ν := ν) hl measurable_id
  · intro i
    rw [integral_finsetSum _ fun j _ => ((hg.eval j).integrable.const_mul _)]
    exact Finset.sum_eq_zero fun j _ => by rw [integral_const_mul, hmean j, mul_zero]
  · have : ∫ ω : (Fin n → ℝ) × ℝ, ω.2 ∂(μ.prod ν) = ∫ x, x ∂((μ.prod ν).map Prod.snd) :=
      (integral_map (μ := μ.prod ν) (φ := Prod.snd) (f := fun x : ℝ => x)
        measurable_snd.aemeasurable aestronglyMeasurable_id).symm
    rw [this, hsnd, hν, integral_id_gaussianReal]
  · intro i j
    rw [covariance_fun_sum_fun_sum (fun k => (hmem k).const_mul _) (fun k => (hmem k).const_mul _),
      Matrix.mul_apply]
    refine Finset.sum_congr rfl fun k _ => ?_
    have : ∀ l, covariance (fun ω : (Fin n → ℝ) × ℝ => L i k * ω.1 k) (fun ω => L j l * ω.1 l)
        (μ.prod ν) = if k = l then L i k * L j l else 0 := by
      intro l
      rw [covariance_const_mul_left, covariance_const_mul_right, hcov]
      split <;> ring
    simp only [this, Finset.sum_ite_eq, Finset.mem_univ, if_true, Matrix.transpose_apply]
  · have : variance (fun ω : (Fin n → ℝ) × ℝ => ω.2) (μ.prod ν) =
        variance id ((μ.prod ν).map Prod.snd) := by
      rw [variance_map aemeasurable_id measurable_snd.aemeasurable]
      rfl
    rw [this, hsnd, hν, variance_id_gaussianReal, Real.coe_toNNReal _ (sq_nonneg s)]

end Respy
