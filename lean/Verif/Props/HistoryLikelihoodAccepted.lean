import Verif.Props.HistoryLikelihood
import Verif.Props.ProcessEstimate
import Verif.Props.ProcessSimulate
import Verif.Props.SolveFunction

/-!
# The likelihood of histories of accepted models

C113 for models given by parameters and options.
-/

open MeasureTheory ProbabilityTheory

namespace Respy

noncomputable section

variable {env : ProcessEnv} {m : UserModel} {p q : Processed} {ev : FormulaEval} {core : List CoreState}

/-- What the parameters of an accepted model mean for the likelihood. `x i k` is the score of type `k` in the
multinomial logit model of individual `i`
(`respy/likelihood.py:333-345`). -/
def Processed.hypothesis (p : Processed) (ev : FormulaEval) (senv : SolveEnv) (tau : ℝ)
    (V : Option Nat → CoreState → ℝ) {N : Nat} (K : Nat) (x : Fin N → Nat → ℝ) : Hypothesis N K where
  rewards := p.rewardParams senv
  tau := tau
  wage := (p.solveInput ev senv).wageOf
  nonpec := (p.solveInput ev senv).nonpecOf
  value := V
  weight := fun i k => typeWeight K (x i) k

theorem typeWeight_valid {K : Nat} (hK : 0 < K) (x : Nat → ℝ) :
    (∀ k, 0 < typeWeight K x k) ∧ ∑ k : Fin K, typeWeight K x k = 1 := by
  have hpos : 0 < ∑ s ∈ Finset.range K, Real.exp (x s) :=
    Finset.sum_pos (fun _ _ => Real.exp_pos _) ⟨0, Finset.mem_range.2 hK⟩
  refine ⟨fun k => div_pos (Real.exp_pos _) hpos, ?_⟩
  unfold typeWeight
  rw [Fin.sum_univ_eq_sum_range (fun k => Real.exp (x k) / ∑ s ∈ Finset.range K, Real.exp (x s)), ← Finset.sum_div,
    div_self hpos.ne']

theorem processed_hypothesis_valid (hp : processModel env m = some p) (hkeep : env.KeepsShape)
    (hnd : (Dict.keys m.params).Nodup)
    (hother : ∀ q ∈ m.params, mentionsShocks q.1 = true → ∃ c ∈ shockCategories, q.1.1 = c.toList)
    (hcs : ∀ d ∈ (p.buildSpec ev).denseIndices, ∀ s ∈ core,
      ∃ a : Nat, ((p.buildSpec ev).choiceSetAt d s)[a]? = some true)
    (hdiag : ∀ a < p.choices.choices.length, entry p.cholesky a a ≠ 0) (senv : SolveEnv) (tau : ℝ)
    (V : Option Nat → CoreState → ℝ) {N K : Nat} (hK : 0 < K) (x : Fin N → Nat → ℝ) :
    (p.hypothesis ev senv tau V K x).Valid (p.buildSpec ev) core := by
  obtain ⟨covs, h⟩ := processModel_from env m p hp
  have hmeas := h.measurement_length
  obtain ⟨hc1, hc2⟩ := h.cholesky_shape hkeep hnd hother
  refine ⟨⟨(hmeas.trans hc1.symm).le, fun row hr => (hmeas.trans (hc2 row hr).symm).le, fun d _ s _ =>
    (choiceSetAt_length p ev d s).trans hmeas.symm, hcs⟩, ?_, fun i k => (typeWeight_valid hK (x i)).1 k,
    fun i => (typeWeight_valid hK (x i)).2⟩
  exact uncertainWages_of_diagonal fun d _ s _ a ha => hdiag a (by
    have := (List.getElem?_eq_some_iff.1 ha).1
    rwa [choiceSetAt_length] at this)

/-- **C113 (partial).** Every supported model which is accepted, and other parameters with the same index and the same
maximum experiences: the likelihoods of the histories of all individuals are defined at both parameters and are
probability distributions. If independent individuals have histories with the distribution of the first parameters, the
probability that the log likelihood of the other parameters is higher by `k` is at most `exp (-k)`, and it vanishes
exponentially in the number of individuals whose histories have different distributions. The expected values of states
may be any numbers, and those of the solutions in particular. Missing: exogenous processes, for which characteristics
change over time, models whose creation fails (C86), more than one lag, shocks without variance. -/
theorem C113_likelihood_of_accepted_models_partial (hp : processModel env m = some p) {θ : Dict (Str × Str) ℝ}
    (hθ : m.SameIndex θ) (hev : ev.Contract) (hs : p.Supported m ev core)
    (hcore : createCore (p.buildSpec ev).core = some core) (hkeep : env.KeepsShape) (hnd : (Dict.keys m.params).Nodup)
    (hother : ∀ q ∈ m.params, mentionsShocks q.1 = true → ∃ c ∈ shockCategories, q.1.1 = c.toList)
    (hallowed : ∀ d ∈ (p.buildSpec ev).denseIndices, ∀ s ∈ core, ∃ c ∈ p.choices.choices, p.Allowed m ev d s c)
    (senv : SolveEnv) (tau₀ tau₁ : ℝ) (V₀ V₁ : Option Nat → CoreState → ℝ) {N : Nat} (x₀ x₁ : Fin N → Nat → ℝ)
    (ind : Fin N → Individual p.typeCount) (hind : ∀ i, (ind i).Valid (p.buildSpec ev) core) :
    ∃ q, processModel env { m with params := θ } = some q ∧
      ((∀ a < p.choices.choices.length, entry p.cholesky a a ≠ 0 ∧ entry q.cholesky a a ≠ 0) →
      ∃ f g : ∀ i, (Fin (ind i).periods → Fin p.choices.choices.length × ℝ) → ℝ,
        (∀ i, (p.hypothesis ev senv tau₀ V₀ p.typeCount x₀).Likelihood (p.buildSpec ev) ind i (f i) ∧
          (∫⁻ h, ENNReal.ofReal (f i h) ∂historyMeasure _ (ind i).periods) = 1) ∧
        (∀ i, (q.hypothesis ev senv tau₁ V₁ p.typeCount x₁).Likelihood (p.buildSpec ev) ind i (g i) ∧
          (∫⁻ h, ENNReal.ofReal (g i h) ∂historyMeasure _ (ind i).periods) = 1) ∧
        ∃ ρ : Fin N → ℝ, (∀ i, 0 ≤ ρ i ∧ ρ i ≤ 1 ∧ (ρ i = 1 ↔ f i =ᵐ[historyMeasure _ (ind i).periods] g i)) ∧
          ∀ {Ω : Type} [MeasurableSpace Ω] (Q : Measure Ω)
            (X : ∀ i, Ω → Fin (ind i).periods → Fin p.choices.choices.length × ℝ), (∀ i, Measurable (X i)) →
            iIndepFun X Q → (∀ i, Q.map (X i) = (historyMeasure _ (ind i).periods).withDensity
              fun h => ENNReal.ofReal (f i h)) →
            ∀ k : ℝ, Q.real {ω | ∑ i, Real.log (f i (X i ω)) + k ≤ ∑ i, Real.log (g i (X i ω))} ≤
              min (Real.exp (-k)) (Real.exp (-k / 2) * ∏ i, ρ i)) := by
  have h := processModel_sameIndex env m θ hθ.index hθ.max
  rw [hp] at h
  generalize hq : processModel env { m with params := θ } = oq at h
  cases h with
  | @some _ q hst =>
  refine ⟨q, rfl, fun hdiag => ?_⟩
  have wf := C82_processed_models_well_formed hp hev hs hcore
  have hcs : ∀ d ∈ (p.buildSpec ev).denseIndices, ∀ s ∈ core,
      ∃ a : Nat, ((p.buildSpec ev).choiceSetAt d s)[a]? = some true := by
    intro d hd s hmem
    obtain ⟨c, hc, hall⟩ := hallowed d hd s hmem
    obtain ⟨a, ha⟩ := List.mem_iff_getElem?.1 hc
    exact ⟨a, (C82_choice_sets_by_name hp hev hs.toDescribed hcore d hd s hmem a c ha).2 hall⟩
  have hK : 0 < p.typeCount := by
    unfold Processed.typeCount
    split <;> omega
  have hb := hst.buildSpec ev
  have h₀ := processed_hypothesis_valid (N := N) hp hkeep hnd hother hcs (fun a ha => (hdiag a ha).1) senv tau₀ V₀ hK x₀
  have h₁ : (q.hypothesis ev senv tau₁ V₁ p.typeCount x₁).Valid (p.buildSpec ev) core := by
    rw [hb]
    refine processed_hypothesis_valid hq hkeep (by unfold Dict.keys at hnd ⊢; exact hθ.index ▸ hnd) ?_
      (by rw [← hb]; exact hcs) (fun a ha => (hdiag a (by rw [hst.choices]; exact ha)).2) senv tau₁ V₁ hK x₁
    intro y hy
    have hm : y.1 ∈ m.params.map Prod.fst := hθ.index ▸ List.mem_map_of_mem (f := Prod.fst) hy
    obtain ⟨z, hz, he⟩ := List.mem_map.1 hm
    exact he ▸ hother z hz
  obtain ⟨c₀, hc₀⟩ := processModel_from env m p hp
  obtain ⟨c₁, hc₁⟩ := processModel_from env _ q hq
  have hn₀ : (p.hypothesis ev senv tau₀ V₀ p.typeCount x₀).rewards.measError.length = p.choices.choices.length :=
    hc₀.measurement_length
  have hn₁ : (q.hypothesis ev senv tau₁ V₁ p.typeCount x₁).rewards.measError.length = p.choices.choices.length := by
    rw [hst.choices]
    exact hc₁.measurement_length
  have hf := fun i => C113_distribution_with_types wf _ h₀.rewards h₀.uncertain tau₀
    (p.solveInput ev senv).wageOf (p.solveInput ev senv).nonpecOf V₀ (hind i).start (hind i).first
    (hind i).dense (h₀.positive i) (h₀.total i) _ (hind i).periods
  have hg := fun i => C113_distribution_with_types wf _ h₁.rewards h₁.uncertain tau₁
    (q.solveInput ev senv).wageOf (q.solveInput ev senv).nonpecOf V₁ (hind i).start (hind i).first
    (hind i).dense (h₁.positive i) (h₁.total i) _ (hind i).periods
  rw [hn₀] at hf
  rw [hn₁] at hg
  choose f f1 f2 f3 f4 f5 using hf
  choose g g1 g2 g3 g4 g5 using hg
  have hfl : ∀ i, (p.hypothesis ev senv tau₀ V₀ p.typeCount x₀).Likelihood (p.buildSpec ev) ind i (f i) :=
    fun i h => (f1 i h _).2 rfl
  have hgl : ∀ i, (q.hypothesis ev senv tau₁ V₁ p.typeCount x₁).Likelihood (p.buildSpec ev) ind i (g i) :=
    fun i h => (g1 i h _).2 rfl
  refine ⟨f, g, fun i => ⟨hfl i, f5 i⟩, fun i => ⟨hgl i, g5 i⟩, fun i => ∫ h, √(f i h * g i h)
    ∂historyMeasure _ (ind i).periods, fun i => ?_, fun Q X hX hindep hlaw k => ?_⟩
  · have haff := affinity_le_one (ν := historyMeasure _ (ind i).periods) (f2 i) (g2 i) (f3 i) (g3 i) (f5 i) (g5 i)
    exact ⟨integral_nonneg fun _ => Real.sqrt_nonneg _, haff.2.1, haff.2.2⟩
  · obtain ⟨b1, b2⟩ := likelihood_ratio_bounds hX hindep f2 g2 f3 g3 f5 g5 (fun i h hh => by
      have hw : (q.hypothesis ev senv tau₁ V₁ p.typeCount x₁).rewards.nWagesRaw =
          (p.hypothesis ev senv tau₀ V₀ p.typeCount x₀).rewards.nWagesRaw := by
        show q.choices.wWage.length = p.choices.wWage.length
        rw [hst.choices]
      rw [f4] at hh
      rw [g4, hw]
      exact hh) hlaw k
    exact le_min b2 b1

end

end Respy
