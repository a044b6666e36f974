import Verif.Lemmas.LikelihoodRatio
import Verif.Spec.Consistency

/-! Helper lemmas for C115: the highest likelihood among finitely many candidates. -/

open MeasureTheory ProbabilityTheory Filter

namespace Respy

noncomputable section

variable {C J : Nat} {E : Fin C → Type} [∀ c, MeasurableSpace (E c)] {ν : ∀ c, Measure (E c)} {f : ∀ c, E c → ℝ}
  {g : Fin J → ∀ c, E c → ℝ}

/-- The probability that one of finitely many candidates has a likelihood as high as that of the true distribution
decreases exponentially in the number of individuals for whom the distributions differ. -/
theorem candidates_bound (hf : ∀ c, Measurable (f c)) (hg : ∀ j c, Measurable (g j c)) (hf0 : ∀ c y, 0 ≤ f c y)
    (hg0 : ∀ j c y, 0 ≤ g j c y) (hf1 : ∀ c, ∫⁻ y, ENNReal.ofReal (f c y) ∂ν c = 1)
    (hg1 : ∀ j c, ∫⁻ y, ENNReal.ofReal (g j c y) ∂ν c = 1) (hpos : ∀ j c y, 0 < f c y → 0 < g j c y)
    (diff : Fin J → Fin C) (hdiff : ∀ j, ¬ f (diff j) =ᵐ[ν (diff j)] g j (diff j)) :
    ∃ ρ : ℝ, 0 ≤ ρ ∧ ρ < 1 ∧ ∀ {N : Nat} (kind : Fin N → Fin C) {Ω : Type} [MeasurableSpace Ω] (Q : Measure Ω)
      (X : ∀ i, Ω → E (kind i)), (∀ i, Measurable (X i)) → iIndepFun X Q →
      (∀ i, Q.map (X i) = (ν (kind i)).withDensity fun y => ENNReal.ofReal (f (kind i) y)) →
      Q.real {ω | ∃ j, ∑ i, Real.log (f (kind i) (X i ω)) ≤ ∑ i, Real.log (g j (kind i) (X i ω))} ≤
        ∑ j, ρ ^ countKind kind (diff j) := by
  classical
  let r : Fin J → Fin C → ℝ := fun j c => ∫ y, √(f c y * g j c y) ∂ν c
  have hr0 : ∀ j c, 0 ≤ r j c := fun j c => integral_nonneg fun _ => Real.sqrt_nonneg _
  have haff := fun j c => affinity_le_one (hf c) (hg j c) (hf0 c) (hg0 j c) (hf1 c) (hg1 j c)
  have hr1 : ∀ j c, r j c ≤ 1 := fun j c => (haff j c).2.1
  have hrlt : ∀ j, r j (diff j) < 1 := fun j =>
    lt_of_le_of_ne (hr1 j _) fun h => hdiff j ((haff j _).2.2.1 h)
  obtain ⟨ρ, h0, h1, h2⟩ : ∃ ρ : ℝ, 0 ≤ ρ ∧ ρ < 1 ∧ ∀ j, r j (diff j) ≤ ρ := by
    rcases isEmpty_or_nonempty (Fin J) with he | he
    · exact ⟨0, le_rfl, one_pos, fun j => he.elim j⟩
    · obtain ⟨j, hj⟩ := Finite.exists_max fun j => r j (diff j)
      exact ⟨_, hr0 j _, hrlt j, hj⟩
  refine ⟨ρ, h0, h1, fun {N} kind {Ω} _ Q X hX hindep hlaw => ?_⟩
  have : IsProbabilityMeasure Q := hindep.isProbabilityMeasure
  have hset : {ω | ∃ j, ∑ i, Real.log (f (kind i) (X i ω)) ≤ ∑ i, Real.log (g j (kind i) (X i ω))} =
      ⋃ j, {ω | ∑ i, Real.log (f (kind i) (X i ω)) ≤ ∑ i, Real.log (g j (kind i) (X i ω))} := by
    ext ω
    simp
  rw [hset]
  refine (measureReal_iUnion_fintype_le _).trans (Finset.sum_le_sum fun j _ => ?_)
  have hb := (likelihood_ratio_bounds (ν := fun i => ν (kind i)) hX hindep (fun i => hf (kind i))
    (fun i => hg j (kind i)) (fun i => hf0 (kind i)) (fun i => hg0 j (kind i)) (fun i => hf1 (kind i))
    (fun i => hg1 j (kind i)) (fun i => hpos j (kind i)) hlaw 0).1
  simp only [add_zero, neg_zero, zero_div, Real.exp_zero, one_mul] at hb
  refine hb.trans ?_
  have h3 : ∏ i : Fin N, r j (kind i) ≤ ∏ i : Fin N, if kind i = diff j then ρ else 1 := by
    refine Finset.prod_le_prod (fun i _ => hr0 j _) fun i _ => ?_
    split
    · rename_i he
      rw [he]
      exact h2 j
    · exact hr1 j _
  refine h3.trans (le_of_eq ?_)
  rw [Finset.prod_ite, Finset.prod_const, Finset.prod_const_one, mul_one]
  rfl

/-- If there are more and more individuals of the kinds for which the distributions differ, the probability vanishes. -/
theorem candidates_limit {ρ : ℝ} (h0 : 0 ≤ ρ) (h1 : ρ < 1) (kind : Nat → Fin C) (diff : Fin J → Fin C)
    (hmany : ∀ j, Tendsto (fun N => countKind (fun i : Fin N => kind i) (diff j)) atTop atTop) :
    Tendsto (fun N => ∑ j, ρ ^ countKind (fun i : Fin N => kind i) (diff j)) atTop (nhds 0) := by
  have h : Tendsto (fun N => ∑ j, ρ ^ countKind (fun i : Fin N => kind i) (diff j)) atTop
      (nhds (∑ _j : Fin J, (0 : ℝ))) :=
    tendsto_finsetSum _ fun j _ => (tendsto_pow_atTop_nhds_zero_of_lt_one h0 h1).comp (hmany j)
  simpa using h

/-- Bounds for all samples imply that the probability of the highest likelihood converges to one. -/
theorem candidates_converge (hf : ∀ c, Measurable (f c)) (hg : ∀ j c, Measurable (g j c)) {ρ : ℝ} (h0 : 0 ≤ ρ)
    (h1 : ρ < 1) (kind : Nat → Fin C) (diff : Fin J → Fin C)
    (hmany : ∀ j, Tendsto (fun N => countKind (fun i : Fin N => kind i) (diff j)) atTop atTop) {Ω : Type}
    [MeasurableSpace Ω] (Q : Measure Ω) [IsProbabilityMeasure Q] (X : ∀ i, Ω → E (kind i)) (hX : ∀ i, Measurable (X i))
    (hb : ∀ N : Nat, Q.real {ω | ∃ j, ∑ i : Fin N, Real.log (f (kind i) (X i ω)) ≤
      ∑ i : Fin N, Real.log (g j (kind i) (X i ω))} ≤ ∑ j, ρ ^ countKind (fun i : Fin N => kind i) (diff j)) :
    Tendsto (fun N => Q.real {ω | ∀ j, ∑ i : Fin N, Real.log (g j (kind i) (X i ω)) <
      ∑ i : Fin N, Real.log (f (kind i) (X i ω))}) atTop (nhds 1) := by
  have hlim := candidates_limit h0 h1 kind diff hmany
  have hle : ∀ N : Nat, 1 - ∑ j, ρ ^ countKind (fun i : Fin N => kind i) (diff j) ≤
      Q.real {ω | ∀ j, ∑ i : Fin N, Real.log (g j (kind i) (X i ω)) < ∑ i : Fin N, Real.log (f (kind i) (X i ω))} := by
    intro N
    have hmeas : MeasurableSet {ω | ∃ j, ∑ i : Fin N, Real.log (f (kind i) (X i ω)) ≤
        ∑ i : Fin N, Real.log (g j (kind i) (X i ω))} := by
      rw [Set.ofPred_exists]
      refine MeasurableSet.iUnion fun j => measurableSet_le ?_ ?_
      · exact Finset.measurable_fun_sum _ fun i _ => Real.measurable_log.comp ((hf _).comp (hX i))
      · exact Finset.measurable_fun_sum _ fun i _ => Real.measurable_log.comp ((hg _ _).comp (hX i))
    have hcompl : {ω | ∀ j, ∑ i : Fin N, Real.log (g j (kind i) (X i ω)) < ∑ i : Fin N, Real.log (f (kind i) (X i ω))} =
        {ω | ∃ j, ∑ i : Fin N, Real.log (f (kind i) (X i ω)) ≤ ∑ i : Fin N, Real.log (g j (kind i) (X i ω))}ᶜ := by
      ext ω
      simp
    rw [hcompl, probReal_compl_eq_one_sub hmeas]
    linarith [hb N]
  refine tendsto_of_tendsto_of_tendsto_of_le_of_le ?_ tendsto_const_nhds hle fun N => measureReal_le_one
  have := hlim.const_sub 1
  simpa using this

/-- Likelihoods which omit a factor `π` of the density which is the same for all candidates. -/
theorem candidates_weighted {π : ∀ c, E c → ℝ} (hf : ∀ c, Measurable fun y => f c y * π c y)
    (hg : ∀ j c, Measurable fun y => g j c y * π c y) (hf0 : ∀ c y, 0 ≤ f c y * π c y)
    (hg0 : ∀ j c y, 0 ≤ g j c y * π c y) (hf1 : ∀ c, ∫⁻ y, ENNReal.ofReal (f c y * π c y) ∂ν c = 1)
    (hg1 : ∀ j c, ∫⁻ y, ENNReal.ofReal (g j c y * π c y) ∂ν c = 1)
    (hpos : ∀ j c y, 0 < f c y * π c y → 0 < f c y ∧ 0 < π c y ∧ 0 < g j c y)
    (diff : Fin J → Fin C) (hdiff : ∀ j, ¬ (fun y => f (diff j) y * π (diff j) y) =ᵐ[ν (diff j)]
      fun y => g j (diff j) y * π (diff j) y) :
    ∃ ρ : ℝ, 0 ≤ ρ ∧ ρ < 1 ∧ ∀ {N : Nat} (kind : Fin N → Fin C) {Ω : Type} [MeasurableSpace Ω] (Q : Measure Ω)
      (X : ∀ i, Ω → E (kind i)), (∀ i, Measurable (X i)) → iIndepFun X Q →
      (∀ i, Q.map (X i) = (ν (kind i)).withDensity fun y => ENNReal.ofReal (f (kind i) y * π (kind i) y)) →
      Q.real {ω | ∃ j, ∑ i, Real.log (f (kind i) (X i ω)) ≤ ∑ i, Real.log (g j (kind i) (X i ω))} ≤
        ∑ j, ρ ^ countKind kind (diff j) := by
  obtain ⟨ρ, h0, h1, h2⟩ := candidates_bound (f := fun c y => f c y * π c y) (g := fun j c y => g j c y * π c y) hf hg
    hf0 hg0 hf1 hg1 (fun j c y h => mul_pos (hpos j c y h).2.2 (hpos j c y h).2.1) diff hdiff
  refine ⟨ρ, h0, h1, ?_⟩
  intro N kind Ω _ Q X hX hindep hlaw
  have : IsProbabilityMeasure Q := hindep.isProbabilityMeasure
  refine le_trans ?_ (h2 kind Q X hX hindep hlaw)
  have hae : ∀ᵐ ω ∂Q, ∀ i, 0 < f (kind i) (X i ω) * π (kind i) (X i ω) :=
    ae_all_iff.2 fun i => density_pos_ae (hX i) (hf (kind i)) (hlaw i)
  refine ENNReal.toReal_mono (measure_ne_top _ _) (measure_mono_ae ?_)
  filter_upwards [hae] with ω hω hle
  obtain ⟨j, hj⟩ : ∃ j, ∑ i, Real.log (f (kind i) (X i ω)) ≤ ∑ i, Real.log (g j (kind i) (X i ω)) := hle
  refine ⟨j, ?_⟩
  have e1 : ∀ i, Real.log (f (kind i) (X i ω) * π (kind i) (X i ω)) =
      Real.log (f (kind i) (X i ω)) + Real.log (π (kind i) (X i ω)) := fun i =>
    Real.log_mul (hpos j _ _ (hω i)).1.ne' (hpos j _ _ (hω i)).2.1.ne'
  have e2 : ∀ i, Real.log (g j (kind i) (X i ω) * π (kind i) (X i ω)) =
      Real.log (g j (kind i) (X i ω)) + Real.log (π (kind i) (X i ω)) := fun i =>
    Real.log_mul (hpos j _ _ (hω i)).2.2.ne' (hpos j _ _ (hω i)).2.1.ne'
  simp only [e1, e2, Finset.sum_add_distrib]
  linarith

end

end Respy
