import Mathlib.Probability.Distributions.Gaussian.HasGaussianLaw.Independence
import Mathlib.Probability.Kernel.CondDistrib
import Mathlib.Data.Matrix.Mul
import Mathlib.Tactic.Ring
import Mathlib.Tactic.Linarith
import Mathlib.Tactic.FieldSimp

/-!
# Conditional distributions of Gaussian vectors

Conditioning a Gaussian vector on a noisy observation of one of its entries.
-/

open MeasureTheory ProbabilityTheory

namespace Respy

variable {Ω Ω' : Type*} {mΩ : MeasurableSpace Ω} {mΩ' : MeasurableSpace Ω'} {P : Measure Ω}
  {Q : Measure Ω'} {n : Nat}

/-- Gaussian vectors with the same means and covariances have the same law. -/
theorem gaussian_law_eq {X : Fin n → Ω → ℝ} {Y : Fin n → Ω' → ℝ}
    (hX : HasGaussianLaw (fun ω i => X i ω) P) (hY : HasGaussianLaw (fun ω i => Y i ω) Q)
    (hm : ∀ i, ∫ ω, X i ω ∂P = ∫ ω, Y i ω ∂Q)
    (hc : ∀ i j, covariance (X i) (X j) P = covariance (Y i) (Y j) Q) :
    P.map (fun ω i => X i ω) = Q.map (fun ω i => Y i ω) := by
  have := hX.isProbabilityMeasure
  have := hY.isProbabilityMeasure
  have hP : IsProbabilityMeasure (P.map (fun ω i => X i ω)) :=
    Measure.isProbabilityMeasure_map hX.aemeasurable
  have hQ : IsProbabilityMeasure (Q.map (fun ω i => Y i ω)) :=
    Measure.isProbabilityMeasure_map hY.aemeasurable
  apply Measure.ext_of_charFunDual
  funext L
  rw [hX.charFunDual_map_eq_fun, hY.charFunDual_map_eq_fun]
  obtain ⟨a, hL⟩ : ∃ a : Fin n → ℝ, ∀ v : Fin n → ℝ, L v = ∑ i, a i * v i := by
    refine ⟨fun i => L (Pi.single i 1), fun v => ?_⟩
    have hv : v = ∑ i, v i • (Pi.single i 1 : Fin n → ℝ) := by
      funext k
      simp [Finset.sum_apply, Pi.single_apply]
    conv_lhs => rw [hv]
    rw [map_sum]
    refine Finset.sum_congr rfl fun i _ => ?_
    rw [map_smul, smul_eq_mul, mul_comm]
  have hmX : ∀ i, MemLp (X i) 2 P := fun i => (hX.eval i).memLp_two
  have hmY : ∀ i, MemLp (Y i) 2 Q := fun i => (hY.eval i).memLp_two
  have h1 : ∫ ω, L (fun i => X i ω) ∂P = ∫ ω, L (fun i => Y i ω) ∂Q := by
    simp only [hL]
    rw [integral_finsetSum _ fun i _ => ((hX.eval i).integrable.const_mul _),
      integral_finsetSum _ fun i _ => ((hY.eval i).integrable.const_mul _)]
    refine Finset.sum_congr rfl fun i _ => ?_
    rw [integral_const_mul, integral_const_mul, hm i]
  have h2 : variance (fun ω => L (fun i => X i ω)) P = variance (fun ω => L (fun i => Y i ω)) Q := by
    simp only [hL]
    rw [variance_fun_sum fun i => (hmX i).const_mul _, variance_fun_sum fun i => (hmY i).const_mul _]
    refine Finset.sum_congr rfl fun i _ => Finset.sum_congr rfl fun j _ => ?_
    rw [covariance_const_mul_left, covariance_const_mul_right, covariance_const_mul_left,
      covariance_const_mul_right, hc i j]
  rw [h1, h2]

/-- Linear images of Gaussian vectors are Gaussian. -/
theorem gaussian_linear {m : Nat} {X : Fin n → Ω → ℝ} (hX : HasGaussianLaw (fun ω i => X i ω) P)
    (A : Matrix (Fin m) (Fin n) ℝ) :
    HasGaussianLaw (fun ω i => ∑ j, A i j * X j ω) P := by
  have := hX.map (LinearMap.toContinuousLinearMap (Matrix.mulVecLin A))
  exact this

/-- The residual of the regression on a noisy observation is Gaussian, independent of the observation
and has the reduced covariance. -/
theorem gaussian_residual {X : Fin n → Ω → ℝ} {ε : Ω → ℝ}
    (hX : HasGaussianLaw (fun ω i => X i ω) P) (hε : HasGaussianLaw ε P)
    (hi : IndepFun (fun ω i => X i ω) ε P) (hX0 : ∀ i, ∫ ω, X i ω ∂P = 0) (hε0 : ∫ ω, ε ω ∂P = 0)
    {S : Matrix (Fin n) (Fin n) ℝ} (hcov : ∀ i j, covariance (X i) (X j) P = S i j) {v : ℝ}
    (hvar : variance ε P = v) (c : Fin n) (hσ : S c c + v ≠ 0) :
    let Y : Ω → ℝ := fun ω => X c ω + ε ω
    let R : Fin n → Ω → ℝ := fun i ω => X i ω - S c i / (S c c + v) * Y ω
    HasGaussianLaw (fun ω i => R i ω) P ∧ HasGaussianLaw Y P ∧
      IndepFun (fun ω i => R i ω) Y P ∧ (∀ i, ∫ ω, R i ω ∂P = 0) ∧
      ∀ i j, covariance (R i) (R j) P = S i j - S c i * S c j / (S c c + v) := by
  intro Y R
  have := hX.isProbabilityMeasure
  have hXi : ∀ i, HasGaussianLaw (X i) P := fun i => hX.eval i
  have hsymm : ∀ i j, S i j = S j i := fun i j => by rw [← hcov, ← hcov, covariance_comm]
  have hpair : HasGaussianLaw (fun ω => ((fun i => X i ω), ε ω)) P := hi.hasGaussianLaw hX hε
  have hXε : ∀ i, covariance (X i) ε P = 0 := by
    intro i
    have : IndepFun (X i) ε P := hi.comp (measurable_pi_apply i) measurable_id
    exact this.covariance_eq_zero (hXi i).memLp_two hε.memLp_two
  have hεX : ∀ i, covariance ε (X i) P = 0 := fun i => by rw [covariance_comm]; exact hXε i
  have hεε : covariance ε ε P = v := by rw [covariance_self hε.aemeasurable, hvar]
  have hmX : ∀ i, MemLp (X i) 2 P := fun i => (hXi i).memLp_two
  have hmε : MemLp ε 2 P := hε.memLp_two
  have hmY : MemLp Y 2 P := (hmX c).add hmε
  have hcY : ∀ i, covariance (X i) Y P = S c i := by
    intro i
    have : covariance (X i) (X c + ε) P = S c i := by
      rw [covariance_add_right (hmX i) (hmX c) hmε, hXε, hcov, add_zero, hsymm]
    exact this
  have hYY : covariance Y Y P = S c c + v := by
    have : covariance (X c + ε) Y P = S c c + v := by
      rw [covariance_add_left (hmX c) hmε hmY, hcY]
      have : covariance ε (X c + ε) P = v := by
        rw [covariance_add_right hmε (hmX c) hmε, hεX, hεε, zero_add]
      exact congrArg _ this
    exact this
  have hmR : ∀ i, MemLp (R i) 2 P := fun i => (hmX i).sub (hmY.const_mul _)
  have hRY : ∀ i, covariance (R i) Y P = 0 := by
    intro i
    have : covariance (fun ω => X i ω - S c i / (S c c + v) * Y ω) Y P = 0 := by
      rw [covariance_fun_sub_left (hmX i) (hmY.const_mul _) hmY, covariance_const_mul_left, hcY, hYY]
      field_simp
      ring
    exact this
  let fY : ((Fin n → ℝ) × ℝ) →L[ℝ] ℝ :=
    (ContinuousLinearMap.proj c).comp (ContinuousLinearMap.fst ℝ (Fin n → ℝ) ℝ) +
      ContinuousLinearMap.snd ℝ (Fin n → ℝ) ℝ
  let fR : ((Fin n → ℝ) × ℝ) →L[ℝ] (Fin n → ℝ) := ContinuousLinearMap.pi fun i =>
    (ContinuousLinearMap.proj i).comp (ContinuousLinearMap.fst ℝ (Fin n → ℝ) ℝ) -
      (S c i / (S c c + v)) • fY
  let fU : ((Fin n → ℝ) × ℝ) →L[ℝ] (Unit → ℝ) := ContinuousLinearMap.pi fun _ => fY
  have hRYg : HasGaussianLaw (fun ω => ((fun i => R i ω), Y ω)) P :=
    hpair.map (fR.prod fY)
  have hRg : HasGaussianLaw (fun ω i => R i ω) P := hRYg.fst
  have hYg : HasGaussianLaw Y P := hRYg.snd
  refine ⟨hRg, hYg, ?_, ?_, ?_⟩
  · have hRYg' : HasGaussianLaw (fun ω => ((fun i => R i ω), fun _ : Unit => Y ω)) P :=
      hpair.map (fR.prod fU)
    have := HasGaussianLaw.indepFun_of_covariance_eval (Y := fun _ : Unit => Y) hRYg'
      (fun i _ => hRY i)
    exact this.comp measurable_id (measurable_pi_apply ())
  · intro i
    have h1 : ∫ ω, R i ω ∂P = ∫ ω, X i ω ∂P - ∫ ω, S c i / (S c c + v) * Y ω ∂P :=
      integral_sub (hXi i).integrable (hYg.integrable.const_mul _)
    have h2 : ∫ ω, Y ω ∂P = ∫ ω, X c ω ∂P + ∫ ω, ε ω ∂P := integral_add (hXi c).integrable hε.integrable
    rw [h1, integral_const_mul, h2, hX0, hX0, hε0]
    ring
  · intro i j
    have : covariance (R i) (fun ω => X j ω - S c j / (S c c + v) * Y ω) P =
        S i j - S c i * S c j / (S c c + v) := by
      rw [covariance_fun_sub_right (hmR i) (hmX j) (hmY.const_mul _), covariance_const_mul_right,
        hRY, mul_zero, sub_zero]
      have : covariance (fun ω => X i ω - S c i / (S c c + v) * Y ω) (X j) P =
          S i j - S c i * S c j / (S c c + v) := by
        rw [covariance_fun_sub_left (hmX i) (hmY.const_mul _) (hmX j), covariance_const_mul_left,
          covariance_comm (X := Y), hcY, hcov]
        ring
      exact this
    exact this

/-- If `X = f Y + R` with `R` independent of `Y`, the conditional law of `X` given `Y = y` is the law of
`f y + R`. -/
theorem condDistrib_of_shift {X R : Ω → Fin n → ℝ} {Y : Ω → ℝ} [IsProbabilityMeasure P]
    (hY : AEMeasurable Y P) (hR : AEMeasurable R P) (hi : IndepFun R Y P) (f : ℝ → Fin n → ℝ)
    (hf : Measurable f) (hXR : ∀ ω, X ω = f (Y ω) + R ω) :
    ∀ᵐ y ∂(P.map Y), condDistrib X Y P y = (P.map R).map (fun r => f y + r) := by
  have hX : AEMeasurable X P := by
    have : X = fun ω => f (Y ω) + R ω := funext hXR
    rw [this]
    exact (hf.comp_aemeasurable hY).add hR
  have hPR : IsProbabilityMeasure (P.map R) := Measure.isProbabilityMeasure_map hR
  have hg : Measurable fun p : ℝ × (Fin n → ℝ) => f p.1 + p.2 :=
    (hf.comp measurable_fst).add measurable_snd
  let κ : Kernel ℝ (Fin n → ℝ) :=
    (Kernel.id ×ₖ Kernel.const ℝ (P.map R)).map fun p : ℝ × (Fin n → ℝ) => f p.1 + p.2
  have hκ : ∀ y, κ y = (P.map R).map (fun r => f y + r) := by
    intro y
    rw [Kernel.map_apply _ hg, Kernel.prod_apply, Kernel.id_apply, Kernel.const_apply,
      Measure.dirac_prod, Measure.map_map hg measurable_prodMk_left]
    rfl
  have hκm : IsMarkovKernel κ := Kernel.IsMarkovKernel.map _ hg
  have hjoint : P.map (fun ω => (Y ω, X ω)) = (P.map Y) ⊗ₘ κ := by
    have hYR : P.map (fun ω => (Y ω, R ω)) = (P.map Y).prod (P.map R) :=
      (indepFun_iff_map_prod_eq_prod_map_map hY hR).1 hi.symm
    have hsh : Measurable fun p : ℝ × (Fin n → ℝ) => (p.1, f p.1 + p.2) := measurable_fst.prodMk hg
    have h1 : P.map (fun ω => (Y ω, X ω)) =
        (P.map (fun ω => (Y ω, R ω))).map fun p : ℝ × (Fin n → ℝ) => (p.1, f p.1 + p.2) := by
      rw [AEMeasurable.map_map_of_aemeasurable hsh.aemeasurable (hY.prodMk hR)]
      congr 1
      funext ω
      simp [Function.comp, hXR]
    rw [h1, hYR]
    ext s hs
    rw [Measure.map_apply hsh hs, Measure.prod_apply (hsh hs), Measure.compProd_apply hs]
    refine lintegral_congr fun y => ?_
    have hm : Measurable fun r : Fin n → ℝ => f y + r := measurable_id.const_add (f y)
    rw [hκ, Measure.map_apply hm (measurable_prodMk_left hs)]
    rfl
  have := condDistrib_ae_eq_of_measure_eq_compProd Y hX hjoint
  filter_upwards [this] with y hy
  rw [hy, hκ]

/-- Conditioning a Gaussian vector on a noisy observation of an entry: the conditional law is the law
of the updated mean plus a factor of the updated covariance times standard normal draws. -/
theorem gaussian_condDistrib [IsProbabilityMeasure P] {X : Fin n → Ω → ℝ} {ε : Ω → ℝ}
    (hX : HasGaussianLaw (fun ω i => X i ω) P) (hε : HasGaussianLaw ε P)
    (hi : IndepFun (fun ω i => X i ω) ε P) (hX0 : ∀ i, ∫ ω, X i ω ∂P = 0) (hε0 : ∫ ω, ε ω ∂P = 0)
    {S : Matrix (Fin n) (Fin n) ℝ} (hcov : ∀ i j, covariance (X i) (X j) P = S i j) {v : ℝ}
    (hvar : variance ε P = v) (c : Fin n) (hσ : S c c + v ≠ 0)
    {Z : Fin n → Ω' → ℝ} (hZ : HasGaussianLaw (fun ω i => Z i ω) Q) (hZ0 : ∀ i, ∫ ω, Z i ω ∂Q = 0)
    (hZc : ∀ i j, covariance (Z i) (Z j) Q = if i = j then 1 else 0)
    (C : Matrix (Fin n) (Fin n) ℝ)
    (hC : ∀ i j, (C * C.transpose) i j = S i j - S c i * S c j / (S c c + v)) :
    ∀ᵐ y ∂(P.map fun ω => X c ω + ε ω),
      condDistrib (fun ω i => X i ω) (fun ω => X c ω + ε ω) P y =
        Q.map (fun ω i => S c i * y / (S c c + v) + ∑ j, C i j * Z j ω) := by
  have := hZ.isProbabilityMeasure
  obtain ⟨hRg, hYg, hind, hR0, hRc⟩ := gaussian_residual hX hε hi hX0 hε0 hcov hvar c hσ
  have hCZ := gaussian_linear hZ C
  have hmZ : ∀ j, MemLp (Z j) 2 Q := fun j => (hZ.eval j).memLp_two
  have hlaw := gaussian_law_eq hRg hCZ
    (fun i => by
      rw [hR0, integral_finsetSum _ fun j _ => ((hZ.eval j).integrable.const_mul _)]
      symm
      apply Finset.sum_eq_zero
      intro j _
      rw [integral_const_mul, hZ0, mul_zero])
    (fun i j => by
      rw [hRc, ← hC, covariance_fun_sum_fun_sum (fun k => (hmZ k).const_mul _)
        (fun k => (hmZ k).const_mul _), Matrix.mul_apply]
      refine Finset.sum_congr rfl fun k _ => ?_
      have : ∀ l, covariance (fun ω => C i k * Z k ω) (fun ω => C j l * Z l ω) Q =
          if k = l then C i k * C j l else 0 := by
        intro l
        rw [covariance_const_mul_left, covariance_const_mul_right, hZc]
        split <;> ring
      simp only [this, Finset.sum_ite_eq, Finset.mem_univ, if_true, Matrix.transpose_apply])
  have hmain := condDistrib_of_shift hYg.aemeasurable hRg.aemeasurable hind
    (fun y i => S c i * y / (S c c + v))
    (measurable_pi_lambda _ fun i => (measurable_const.mul measurable_id).div_const _)
    (X := fun ω i => X i ω) (fun ω => by
      funext i
      simp only [Pi.add_apply]
      ring)
  filter_upwards [hmain] with y hy
  have hm : Measurable fun r : Fin n → ℝ => (fun i => S c i * y / (S c c + v)) + r :=
    measurable_id.const_add _
  rw [hy, hlaw, AEMeasurable.map_map_of_aemeasurable hm.aemeasurable hCZ.aemeasurable]
  rfl

end Respy
