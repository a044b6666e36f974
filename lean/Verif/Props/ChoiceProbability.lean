import Mathlib.Probability.Moments.Variance
import Verif.Lemmas.ChoiceProbability
import Verif.Lemmas.MonteCarlo
import Verif.Props.LogLike
import Verif.Props.MonteCarlo

/-!
# The likelihood of choices and wages as a distribution

C107: with the distribution of the standard normal numbers in place of draws, the likelihood contributions of an
observation are a probability distribution over choices and wages, and the simulated contributions approach them.
-/

open MeasureTheory ProbabilityTheory

namespace Respy

noncomputable section

/-- C107: if an alternative is available and the logarithms of wages have positive variances, there is exactly one
choice probability for each available alternative and each observed or unobserved wage. These probabilities times the
densities of the wages are a probability distribution over choices and wages: integrating over the wages gives the
probability of the choice if the wage is not observed, and the sum over the alternatives is one. -/
theorem C107_distribution_of_choices_and_wages (bound tau delta : ℝ) (nWages : Nat) (L : List (List ℝ)) (cs : List Bool)
    (sd w m c : Nat → ℝ) (hcs : true ∈ cs)
    (hv : ∀ a < nWages, cs[a]? = some true → 0 < shockCov L cs a a + sd a ^ 2) :
    ∃ prob : Nat → Option ℝ → ℝ,
      (∀ a, cs[a]? = some true → ∀ wage : Option ℝ, (wage.isSome = true → a < nWages) →
        (∀ p, IsExpectedChoiceProbability bound tau delta nWages L cs sd w m c a wage p ↔ p = prob a wage) ∧
          0 < prob a wage ∧ prob a wage ≤ 1) ∧
      (∀ a < nWages, cs[a]? = some true →
        ∫ x in Set.Ioi 0, prob a (some x) * densityOf L cs sd w a (some x) = prob a none) ∧
      overAvailable cs (fun a => if a < nWages then ∫ x in Set.Ioi 0, prob a (some x) * densityOf L cs sd w a (some x)
        else prob a none * densityOf L cs sd w a none) = 1 := by
  have hex : ∀ a wage, ∃ p : ℝ, cs[a]? = some true → (wage.isSome = true → a < nWages) →
      IsExpectedChoiceProbability bound tau delta nWages L cs sd w m c a wage p := by
    intro a wage
    by_cases h : cs[a]? = some true ∧ (wage.isSome = true → a < nWages)
    · cases wage with
      | none => exact ⟨_, fun _ _ => ⟨entry L, fun a _ b _ => rfl, rfl⟩⟩
      | some x =>
        obtain ⟨C, hC⟩ := exists_factorGiven L cs a (Real.log x - Real.log (w a)) (sd a) (hv a (h.2 rfl) h.1)
        exact ⟨_, fun _ _ => ⟨C, hC, rfl⟩⟩
    · exact ⟨0, fun h1 h2 => absurd ⟨h1, h2⟩ h⟩
  choose prob hprob using hex
  have hint : ∀ a < nWages, cs[a]? = some true →
      ∫ x in Set.Ioi 0, prob a (some x) * densityOf L cs sd w a (some x) = prob a none := fun a h ha =>
    expected_wages bound tau delta nWages L sd w m c a ha (hv a h ha) (prob a) fun wage => hprob a wage ha fun _ => h
  refine ⟨prob, fun a ha wage h => ⟨fun p => ⟨fun hp => ?_, fun hp => hp ▸ hprob a wage ha h⟩, ?_⟩, hint, ?_⟩
  · exact expected_unique bound tau delta nWages L sd w m c a ha wage _ _ hp (hprob a wage ha h)
  · exact expected_bounds bound tau delta nWages L sd w m c a ha wage _ (hprob a wage ha h)
  · rw [← expected_sum bound tau delta nWages L sd w m c hcs (fun a => prob a none)
      fun a ha => hprob a none ha fun h => by simp at h]
    rw [overAvailable_sum rfl, overAvailable_sum rfl]
    refine Finset.sum_congr rfl fun i _ => ?_
    split
    · rename_i h
      exact hint _ h (alternativeAt_available rfl i)
    · simp [densityOf]

variable {P : Type}

/-- C107: the contribution of a choice which the criterion computes with `n` draws is the logarithm of a number which
is close to the choice probability with high probability: its error is at least `ε` with probability at most
`1 / (4 n ε²)`. The number has the choice probability as its expectation, but the expectation of its logarithm is not
above the logarithm of the choice probability: with few draws, the likelihood is too low on average. The contribution of the wage does not depend on the draws. -/
theorem C107_simulated_probabilities (e : Estimation P) (p : LikelihoodParams)
    (hqr : ∀ n, QRContract (e.la n).qr) (hch : ∀ n, CholeskyContract (e.la n).cholesky) (hhi : 0 < e.hi)
    (cs : List Bool) (a : Nat) (wage : Option ℝ) (w m c : Nat → ℝ)
    (ha : cs[a]? = some true) (hrows : cs.length ≤ p.cholesky.length)
    (hcols : ∀ row ∈ p.cholesky, cs.length ≤ row.length)
    (hlow : ∀ i j, i < j → entry p.cholesky i j = 0) (hnw : p.nWagesRaw ≤ cs.length)
    (hobs : ∀ y, wage = some y → ObservationWF e.hi p.hasMeasError p.nWagesRaw p.cholesky cs p.measError w a y) :
    ∃ prob, IsExpectedChoiceProbability e.maxLog e.tau p.betaDelta p.nWagesRaw p.cholesky cs
        (fun a => p.measError.getD a 0) w m c a wage prob ∧
      ∀ (Ω : Type) [MeasurableSpace Ω] (Q : Measure Ω) [IsProbabilityMeasure Q] (n : Nat) (_ : 0 < n)
        (Z : Fin n → Ω → Fin (cs.count true) → ℝ) (_ : NormalDraws Q Z),
        ∃ sim : Ω → ℝ, (∀ ω, 0 < sim ω ∧
          e.observationLoglike p (cs.count true - 1) cs ((validChoices cs).map w) ((validChoices cs).map m)
            ((validChoices cs).map c) a wage (List.ofFn fun i => List.ofFn (Z i ω)) =
              some (clip e.lo e.hi (Real.log (sim ω)), clip e.lo e.hi (Real.log (densityOf p.cholesky cs
                (fun a => p.measError.getD a 0) w a wage)))) ∧
          (∀ ε : ℝ, 0 < ε → Q {ω | ε ≤ |sim ω - prob|} ≤ ENNReal.ofReal (1 / (4 * n * ε ^ 2))) ∧
          Integrable sim Q ∧ ∫ ω, sim ω ∂Q = prob ∧
          Integrable (fun ω => Real.log (sim ω)) Q ∧ ∫ ω, Real.log (sim ω) ∂Q ≤ Real.log prob := by
  obtain ⟨k, hk⟩ : ∃ k, cs.count true = k + 1 := by
    have := positionIn_lt cs _ ha
    exact ⟨cs.count true - 1, by omega⟩
  obtain ⟨C, hC, _, h1⟩ := observationLoglike_spec e p hqr hch hhi cs k hk a wage w m c ha hrows hcols hlow hnw hobs
  refine ⟨_, ⟨C, hC, rfl⟩, fun Ω _ Q _ n hn Z hZ => ?_⟩
  set mean := shockMean (shockCov p.cholesky cs) (observation p.cholesky cs (fun a => p.measError.getD a 0) w a wage)
  let f : (Fin (cs.count true) → ℝ) → ℝ := fun z => logitOf e.tau cs (fun b => w b * rewardShockGiven e.maxLog
    p.nWagesRaw cs mean C (shocksOf cs (List.ofFn z)) b + m b + p.betaDelta * c b) a
  have hb : ∀ z, 0 < f z ∧ f z ≤ 1 := fun z => logitOf_bounds e.tau _ a ha
  have hm : Measurable f := by
    have hf : f = fun z => logitAt e.maxLog e.tau p.betaDelta p.nWagesRaw cs w m c a fun i : Fin (cs.count true) =>
        mean (alternativeAt cs i) + ∑ j, atPositions cs _ C i j * z j :=
      funext fun z => logit_given e.maxLog e.tau p.betaDelta p.nWagesRaw rfl w m c mean C a ha z
    rw [hf]
    exact (logitAt_measurable e.maxLog e.tau p.betaDelta p.nWagesRaw cs w m c a).comp (by fun_prop)
  have hbound : ∀ᵐ z ∂normals (cs.count true), f z ∈ Set.Icc (0 : ℝ) 1 :=
    Filter.Eventually.of_forall fun z => ⟨(hb z).1.le, (hb z).2⟩
  have h2 : MemLp f 2 (normals (cs.count true)) := memLp_of_bounded hbound hm.aestronglyMeasurable 2
  have hvar : Var[f; normals (cs.count true)] ≤ 1 / 4 := by
    refine (variance_le_sq_of_bounded hbound hm.aemeasurable).trans ?_
    norm_num
  refine ⟨fun ω => ((List.ofFn fun i => Z i ω).map f).sum / (n : ℝ), fun ω => ?_, fun ε hε => ?_,
    expected_log_average Q hn Z hZ.measurable _ hZ.law f hm hb
      (log_logit_integrable e.maxLog e.tau p.betaDelta p.nWagesRaw w m c mean C a ha)⟩
  · have hk' : cs.count true - 1 = k := by omega
    rw [hk']
    refine h1 (List.ofFn fun i => List.ofFn (Z i ω)) ?_ _ ?_
    · rw [← List.length_pos_iff, List.length_ofFn]
      exact hn
    · show ((List.ofFn fun i => Z i ω).map f).sum / (n : ℝ) = _
      rw [List.map_map, List.map_ofFn, List.map_ofFn, List.map_ofFn, List.length_ofFn]
      rfl
  · refine (average_close Q hn Z hZ.measurable _ hZ.law hZ.independent f hm h2 ε hε).trans
      (ENNReal.ofReal_le_ofReal ?_)
    have hn' : (0 : ℝ) < n := by exact_mod_cast hn
    rw [div_le_div_iff₀ (by positivity) (by positivity)]
    have : 0 < (n : ℝ) * ε ^ 2 := by positivity
    nlinarith

/-! ### Hypotheses are met -/

theorem overAvailable_three (f : Nat → ℝ) : overAvailable [true, true, true] f = f 0 + f 1 + f 2 := by
  simp [overAvailable, List.range, List.range.loop, add_assoc]

theorem exampleFactor_cov (a : Nat) (ha : a < 2) :
    0 < shockCov [[1, 0, 0], [1 / 2, 1, 0], [0, 0, 1]] [true, true, true] a a := by
  match a, ha with
  | 0, _ => norm_num [shockCov, overAvailable, validChoices, entry, List.range, List.range.loop]
  | 1, _ => norm_num [shockCov, overAvailable, validChoices, entry, List.range, List.range.loop]

theorem exampleFactor_lower : ∀ i j, i < j → entry [[1, 0, 0], [1 / 2, 1, 0], [0, 0, (1 : ℝ)]] i j = 0 := by
  intro i j hij
  match i, j with
  | 0, 1 => rfl
  | 0, 2 => rfl
  | 1, 2 => rfl
  | 0, j + 3 => rfl
  | 1, j + 3 => rfl
  | 2, j + 3 => rfl
  | i + 3, j + 3 => rfl
  | 1, 1 => omega
  | i + 2, 2 => omega

/-- `C107_distribution_of_choices_and_wages` for two occupations and one alternative without wages, correlated shocks and
measurement errors. -/
example : ∃ prob : Nat → Option ℝ → ℝ,
    (∀ a < 2, ∫ x in Set.Ioi 0, prob a (some x) * densityOf [[1, 0, 0], [1 / 2, 1, 0], [0, 0, 1]] [true, true, true]
      (fun a => [1 / 10, 1 / 5, 0].getD a 0) (fun _ => 3) a (some x) = prob a none) ∧
    prob 0 none + prob 1 none + prob 2 none = 1 := by
  obtain ⟨prob, _, h2, h3⟩ := C107_distribution_of_choices_and_wages 460 (1 / 10) (19 / 20) 2
    [[1, 0, 0], [1 / 2, 1, 0], [0, 0, 1]] [true, true, true] (fun a => [1 / 10, 1 / 5, 0].getD a 0) (fun _ => 3)
    (fun _ => 0) (fun a => a) (by simp) (fun a ha _ => add_pos_of_pos_of_nonneg (exampleFactor_cov a ha) (sq_nonneg _))
  have h4 : ∀ a < 2, [true, true, true][a]? = some true := by decide
  refine ⟨prob, fun a ha => h2 a ha (h4 a ha), ?_⟩
  have h5 := h2 0 (by omega) (h4 0 (by omega))
  have h6 := h2 1 (by omega) (h4 1 (by omega))
  rw [overAvailable_three] at h3
  rw [if_pos (by omega), if_pos (by omega), if_neg (by omega), h5, h6] at h3
  simp only [densityOf, mul_one] at h3
  linarith

/-- `C107_simulated_probabilities` for an observation with a wage and independent draws: the simulated probability is
between `prob - 1 / 100` and `prob + 1 / 100` with a probability of at least 97.5 % for at least 100000 draws. -/
example (m c : Nat → ℝ) (n : Nat) (hn : 100000 ≤ n) :
    ∃ la, ∃ prob : ℝ, ∃ sim : ((k : Nat × Nat × Nat × Nat) → Fin k.1 → ℝ) → ℝ, (∀ ω, ∃ l,
    (exampleEstimation la [] none).observationLoglike ((exampleEstimation la [] none).params ()) 2 [true, true, true]
      ((validChoices [true, true, true]).map ((exampleInputOf Real.exp).wageOf (some 1) ⟨0, [2, 0], [some 2]⟩))
      ((validChoices [true, true, true]).map m) ((validChoices [true, true, true]).map c) 1 (some (Real.exp 2))
      (List.ofFn fun i : Fin n => List.ofFn (ω (3, 0, 0, i.val))) =
        some (clip (-Real.exp 100) (Real.exp 100) (Real.log (sim ω)), l)) ∧
    independentNormals {ω | 1 / 100 ≤ |sim ω - prob|} ≤ ENNReal.ofReal (25 / 1000) := by
  obtain ⟨la, hq, hc⟩ := exists_linearAlgebra
  obtain ⟨prob, _, h⟩ := C107_simulated_probabilities (exampleEstimation la [] none)
    ((exampleEstimation la [] none).params ()) hq hc (Real.exp_pos _) [true, true, true] 1 (some (Real.exp 2))
    ((exampleInputOf Real.exp).wageOf (some 1) ⟨0, [2, 0], [some 2]⟩) m c rfl (le_refl _) (by simp [exampleEstimation])
    exampleFactor_lower (by simp [exampleEstimation]) (fun y hy => by
      cases hy
      exact exampleObservation_wf 1 (by omega) 2 (by omega) 1 (by omega) 2 (by norm_num) (by norm_num))
  obtain ⟨sim, h1, h2, _⟩ := h _ independentNormals n (by omega) _ (independentNormals_standard n 3 0 0)
  refine ⟨la, prob, sim, fun ω => ⟨_, (h1 ω).2⟩, ?_⟩
  refine (h2 (1 / 100) (by norm_num)).trans (ENNReal.ofReal_le_ofReal ?_)
  have : (100000 : ℝ) ≤ n := by exact_mod_cast hn
  rw [div_le_iff₀ (by positivity)]
  linarith

end

end Respy
