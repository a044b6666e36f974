import Mathlib.Probability.Independence.InfinitePi
import Verif.Props.Consistency
import Verif.Props.HistoryLikelihoodExample
import Verif.Props.ProcessEstimateExample

/-!
# C115 Example

Individuals of a model with a lagged choice, an observable and a restriction are observed for one period. Candidates
differ in the value of experience in the second period.
-/

open MeasureTheory ProbabilityTheory Filter

namespace Respy

noncomputable section

/-- A sequence of independent observations with given densities exists. -/
theorem observations_sequence {E : Nat → Type} [∀ i, MeasurableSpace (E i)] (ν : ∀ i, Measure (E i))
    (f : ∀ i, E i → ℝ) (hf1 : ∀ i, ∫⁻ y, ENNReal.ofReal (f i y) ∂ν i = 1) :
    ∃ (Q : Measure (∀ i, E i)) (X : ∀ i, (∀ i, E i) → E i), (∀ i, Measurable (X i)) ∧
      iIndepFun X Q ∧ ∀ i, Q.map (X i) = (ν i).withDensity fun y => ENNReal.ofReal (f i y) := by
  have hprob : ∀ i, IsProbabilityMeasure ((ν i).withDensity fun y => ENNReal.ofReal (f i y)) := fun i =>
    ⟨by rw [withDensity_apply _ MeasurableSet.univ, setLIntegral_univ, hf1 i]⟩
  refine ⟨Measure.infinitePi fun i => (ν i).withDensity fun y => ENNReal.ofReal (f i y), fun i ω => ω i,
    fun i => measurable_pi_apply i, iIndepFun_infinitePi (X := fun _ => id) (fun _ => measurable_id), fun i => ?_⟩
  exact (measurePreserving_eval_infinitePi (fun i => (ν i).withDensity fun y => ENNReal.ofReal (f i y)) i).map_eq

/-- The value of experience in `b` for candidate `j`. -/
def experienceValue (x : ℝ) (_ : Option Nat) (s : CoreState) : ℝ := if s.exp = [1] then x else 0

/-- In truth the next period has the value zero. There are ten candidates, for which experience has the values 1, ...,
10. The data distinguish them: the probability that the true values have the highest likelihood converges to one. All
hypotheses of the theorems of C115 hold. -/
example : ∃ (p : Processed) (core : List CoreState) (s : CoreState) (d : Option Nat)
    (f : (Fin 1 → Fin (p.rewardParams exampleSolveEnv).measError.length × ℝ) → ℝ) (g : Fin 10 → (Fin 1 → Fin (p.rewardParams exampleSolveEnv).measError.length × ℝ) → ℝ)
    (Q : Measure (Nat → Fin 1 → Fin (p.rewardParams exampleSolveEnv).measError.length × ℝ))
    (X : Nat → (Nat → Fin 1 → Fin (p.rewardParams exampleSolveEnv).measError.length × ℝ) → Fin 1 → Fin (p.rewardParams exampleSolveEnv).measError.length × ℝ),
    processModel unitEnv estimateUser = some p ∧ s ∈ core ∧
    (∀ h, IsHistoryLikelihood (p.rewardParams exampleSolveEnv) 1 (p.buildSpec textEval)
      (p.solveInput textEval exampleSolveEnv).wageOf (p.solveInput textEval exampleSolveEnv).nonpecOf
      (fun _ _ => 0) d s h (f h)) ∧
    (∀ (j : Fin 10) h, IsHistoryLikelihood (p.rewardParams exampleSolveEnv) 1 (p.buildSpec textEval)
      (p.solveInput textEval exampleSolveEnv).wageOf (p.solveInput textEval exampleSolveEnv).nonpecOf
      (experienceValue ((j : Nat) + 1)) d s h (g j h)) ∧
    iIndepFun X Q ∧
    (∀ i, Q.map (X i) = (historyMeasure (p.rewardParams exampleSolveEnv).measError.length 1).withDensity fun y => ENNReal.ofReal (f y)) ∧
    Tendsto (fun N => Q.real {ω | ∀ j, ∑ i : Fin N, Real.log (g j (X i ω)) < ∑ i : Fin N, Real.log (f (X i ω))}) atTop
      (nhds 1) := by
  obtain ⟨p, core, hp, a1, a2, -, -, -, hnd, hother, -, hall, -, -, -, -, -, htypes, -, la, hi, -, hfits⟩ :=
    estimateUser_hypotheses
  obtain ⟨p', hp', hcheck⟩ := (Option.any_eq_true _ _).1 estimateUser_check
  rw [hp] at hp'
  cases hp'
  unfold estimateCheck at hcheck
  simp only [Bool.and_eq_true] at hcheck
  have h1 := hcheck.1.1.1.1.1.1.1.1.1.1.1.1.1.1.1.1.1.1.1
  unfold exampleCheck at h1
  simp only [Bool.and_eq_true, decide_eq_true_eq] at h1
  obtain ⟨⟨⟨⟨⟨⟨_, b2⟩, b3⟩, b4⟩, b5⟩, b6⟩, _⟩ := h1
  have wf := C82_processed_models_well_formed hp textEval_contract a2 a1
  have hsets := C82_choice_sets_by_name hp textEval_contract a2.toDescribed a1
  have hdiag : ∀ a < p.choices.choices.length, entry p.cholesky a a ≠ 0 := fun a ha =>
    own_cholesky hp hnd hother (by decide +kernel) b2 a (by rwa [b2] at ha)
  have hcs : ∀ d ∈ (p.buildSpec textEval).denseIndices, ∀ s ∈ core, (p.buildSpec textEval).Admissible d s 1 :=
    fun d hd s hmem => (hsets d hd s hmem 1 "a".toList (by rw [b2]; rfl)).2
      (allowed_of_unrestricted estimateUser p _ d s _ b4 (by rw [b3]; decide))
  obtain ⟨hs, hrow⟩ := hfits.states ⟨0, ⟨⟨0, [0], [some 1]⟩, [1]⟩, 0, some 1⟩ (by simp [estimateEnv, estimateData])
  have hs : (⟨0, [0], [some 1]⟩ : CoreState) ∈ core := hs
  obtain ⟨d, c, e1, e2, e3, -⟩ := hrow 0 (by unfold Processed.typeCount; rw [if_pos htypes]; omega)
  have hd := mem_denseIndices_of_hasIndex e1
  have hb : (p.buildSpec textEval).Admissible d ⟨0, [0], [some 1]⟩ 0 := (hsets d hd _ hs 0 c e2).2 e3
  have hper : (p.buildSpec textEval).core.nPeriods = 3 := b6
  have hdelta : 0 < (p.rewardParams exampleSolveEnv).betaDelta := by
    obtain ⟨⟨delta, g1, -, g2⟩, -⟩ := C84_parameters_by_name (ev := textEval) hp hnd hother exampleSolveEnv
    have h : Dict.get? estimateUser.params ("delta".toList, "delta".toList) = some (1 / 2) := by
      change Dict.get? ((("delta".toList, "delta".toList), (1 / 2 : ℝ)) :: _) _ = _
      rw [Dict.get?, if_pos rfl]
    have h' : Dict.get? estimateUser.params ("beta".toList, "beta".toList) = none := by
      have hkeys : ("beta".toList, "beta".toList) ∉ Dict.keys estimateUser.params := by decide +kernel
      exact (Dict.get?_eq_none_iff _ _).2 hkeys
    rw [h] at g1
    cases g1
    rw [g2 _ List.mem_cons_self, h']
    norm_num
  let ind : Fin 1 → Individual 1 := fun _ => ⟨⟨0, [0], [some 1]⟩, fun _ => d, 1⟩
  have hind : ∀ c, (ind c).Valid (p.buildSpec textEval) core := fun c => ⟨hs, rfl, fun _ => hd, wf.periods⟩
  have hv := fun V : Option Nat → CoreState → ℝ => processed_hypothesis_valid (ev := textEval) (core := core) (N := 1) hp
    unitEnv_contracts.1 hnd hother (fun d hd s hmem => ⟨1, hcs d hd s hmem⟩) hdiag exampleSolveEnv 1 V Nat.one_pos
    fun _ _ => 0
  have hden := fun V : Option Nat → CoreState → ℝ => C113_distribution_of_histories wf _ (hv V).rewards (hv V).uncertain 1
    (p.solveInput textEval exampleSolveEnv).wageOf (p.solveInput textEval exampleSolveEnv).nonpecOf V hs rfl hd 1 wf.periods
  choose F F1 F2 F3 F4 F5 using hden
  have hF := fun V h => (F1 V h (F V h)).2 rfl
  have hlike : ∀ V c, (p.hypothesis textEval exampleSolveEnv 1 V 1 fun (_ : Fin 1) _ => 0).Likelihood (p.buildSpec textEval)
      ind c (F V) := by
    intro V c h
    refine ⟨fun _ => F V h, fun _ => hF V h, ?_⟩
    have := (hv V).total c
    rw [← Finset.sum_mul, this, one_mul]
  obtain ⟨Q, X, hX, hXi, hlaw⟩ := observations_sequence (fun _ => historyMeasure
    (p.rewardParams exampleSolveEnv).measError.length 1) (fun _ => F fun _ _ => 0) fun _ => F5 _
  refine ⟨p, core, _, d, F fun _ _ => 0, fun j => F (experienceValue ((j : Nat) + 1)), Q, X, hp, hs, hF _, fun j => hF _,
    hXi, hlaw, ?_⟩
  obtain ⟨ρ, _, _, _, hlim⟩ := C115_maximum_likelihood_is_consistent wf ind hind _
    (fun j : Fin 10 => p.hypothesis textEval exampleSolveEnv 1 (experienceValue ((j : Nat) + 1)) 1 fun (_ : Fin 1) _ => 0)
    (hv fun _ _ => 0) (fun j => hv _) rfl (fun j => rfl) (fun j => rfl) (fun _ => F fun _ _ => 0) (hlike _)
    (fun j _ => F (experienceValue ((j : Nat) + 1))) (fun j => hlike _) (fun _ => 0) fun j =>
      C115_expected_values_are_distinguished wf _ (hv fun _ _ => 0).rewards (hv fun _ _ => 0).uncertain one_pos hdelta
        _ _ (fun _ _ => 0) (experienceValue ((j : Nat) + 1)) hs rfl hd hb (hcs d hd _ hs) Nat.one_ne_zero (by
          unfold expectedNext experienceValue
          rw [if_neg (by rw [hper]; decide), if_neg (by rw [hper]; decide), if_pos (by decide)]
          positivity) (fun c hc hadm => by
          have hlt : c < 2 := by
            have := (List.getElem?_eq_some_iff.1 hadm).1
            rwa [choiceSetAt_length, b2] at this
          obtain rfl : c = 1 := by omega
          unfold expectedNext experienceValue
          rw [if_neg (by rw [hper]; decide), if_neg (by decide), if_neg (by rw [hper]; decide)])
        rfl _ _ (hF _) (hF (experienceValue ((j : Nat) + 1)))
  refine hlim (fun _ => 0) (fun j => ?_) Q X hX hXi hlaw
  have : (fun N => countKind (fun _ : Fin N => (0 : Fin 1)) 0) = fun N => N := funext fun N => by simp [countKind]
  rw [this]
  exact tendsto_id

/-- The same for individuals with two unobserved types and likelihoods which are mixtures. All hypotheses of
`C115_accepted_models_partial` hold. -/
example : ∃ (p : Processed) (core : List CoreState) (ind : Fin 1 → Individual p.typeCount)
    (f : ∀ c, (Fin (ind c).periods → Fin p.choices.choices.length × ℝ) → ℝ)
    (g : Fin 10 → ∀ c, (Fin (ind c).periods → Fin p.choices.choices.length × ℝ) → ℝ),
    processModel unitEnv estimateUser = some p ∧ 2 ≤ p.typeCount ∧
    (∀ c, (ind c).Valid (p.buildSpec textEval) core ∧ (ind c).periods = 1) ∧
    (∀ c, (p.hypothesis textEval exampleSolveEnv 1 (fun _ _ => 0) p.typeCount fun _ k => (k : ℝ)).Likelihood
      (p.buildSpec textEval) ind c (f c)) ∧
    (∀ (j : Fin 10) c, (p.hypothesis textEval exampleSolveEnv 1 (experienceValue ((j : Nat) + 1)) p.typeCount
      fun _ _ => 0).Likelihood (p.buildSpec textEval) ind c (g j c)) ∧
    ∃ (Q : Measure (∀ _ : Nat, Fin (ind 0).periods → Fin p.choices.choices.length × ℝ))
      (X : Nat → (∀ _ : Nat, Fin (ind 0).periods → Fin p.choices.choices.length × ℝ) →
        Fin (ind 0).periods → Fin p.choices.choices.length × ℝ), iIndepFun X Q ∧
      (∀ i, Q.map (X i) = (historyMeasure p.choices.choices.length (ind 0).periods).withDensity fun y =>
        ENNReal.ofReal (f 0 y)) ∧
      Tendsto (fun N => Q.real {ω | ∀ j, ∑ i : Fin N, Real.log (g j 0 (X i ω)) <
        ∑ i : Fin N, Real.log (f 0 (X i ω))}) atTop (nhds 1) := by
  obtain ⟨p, core, hp, a1, a2, -, -, -, hnd, hother, -, hall, -, -, -, -, -, htypes, -, la, hi, -, hfits⟩ :=
    estimateUser_hypotheses
  obtain ⟨p', hp', hcheck⟩ := (Option.any_eq_true _ _).1 estimateUser_check
  rw [hp] at hp'
  cases hp'
  unfold estimateCheck at hcheck
  simp only [Bool.and_eq_true] at hcheck
  have h1 := hcheck.1.1.1.1.1.1.1.1.1.1.1.1.1.1.1.1.1.1.1
  unfold exampleCheck at h1
  simp only [Bool.and_eq_true, decide_eq_true_eq] at h1
  obtain ⟨⟨⟨⟨⟨⟨_, b2⟩, b3⟩, b4⟩, b5⟩, b6⟩, _⟩ := h1
  have wf := C82_processed_models_well_formed hp textEval_contract a2 a1
  have hsets := C82_choice_sets_by_name hp textEval_contract a2.toDescribed a1
  have hdiag : ∀ a < p.choices.choices.length, entry p.cholesky a a ≠ 0 := fun a ha =>
    own_cholesky hp hnd hother (by decide +kernel) b2 a (by rwa [b2] at ha)
  have hcs : ∀ d ∈ (p.buildSpec textEval).denseIndices, ∀ s ∈ core, (p.buildSpec textEval).Admissible d s 1 :=
    fun d hd s hmem => (hsets d hd s hmem 1 "a".toList (by rw [b2]; rfl)).2
      (allowed_of_unrestricted estimateUser p _ d s _ b4 (by rw [b3]; decide))
  obtain ⟨hs, hrow⟩ := hfits.states ⟨0, ⟨⟨0, [0], [some 1]⟩, [1]⟩, 0, some 1⟩ (by simp [estimateEnv, estimateData])
  have hs : (⟨0, [0], [some 1]⟩ : CoreState) ∈ core := hs
  obtain ⟨d, c, e1, e2, e3, -⟩ := hrow 0 (by unfold Processed.typeCount; rw [if_pos htypes]; omega)
  have hd := mem_denseIndices_of_hasIndex e1
  have hb : (p.buildSpec textEval).Admissible d ⟨0, [0], [some 1]⟩ 0 := (hsets d hd _ hs 0 c e2).2 e3
  have hper : (p.buildSpec textEval).core.nPeriods = 3 := b6
  have hdelta : 0 < (p.rewardParams exampleSolveEnv).betaDelta := by
    obtain ⟨⟨delta, g1, -, g2⟩, -⟩ := C84_parameters_by_name (ev := textEval) hp hnd hother exampleSolveEnv
    have h : Dict.get? estimateUser.params ("delta".toList, "delta".toList) = some (1 / 2) := by
      change Dict.get? ((("delta".toList, "delta".toList), (1 / 2 : ℝ)) :: _) _ = _
      rw [Dict.get?, if_pos rfl]
    have h' : Dict.get? estimateUser.params ("beta".toList, "beta".toList) = none := by
      have hkeys : ("beta".toList, "beta".toList) ∉ Dict.keys estimateUser.params := by decide +kernel
      exact (Dict.get?_eq_none_iff _ _).2 hkeys
    rw [h] at g1
    cases g1
    rw [g2 _ List.mem_cons_self, h']
    norm_num
  have hval1 : ∀ j : Fin 10, expectedNext (p.buildSpec textEval) (fun _ _ => 0) d ⟨0, [0], [some 1]⟩ 0 <
      expectedNext (p.buildSpec textEval) (experienceValue ((j : Nat) + 1)) d ⟨0, [0], [some 1]⟩ 0 := by
    intro j
    unfold expectedNext experienceValue
    rw [if_neg (by rw [hper]; decide), if_neg (by rw [hper]; decide), if_pos (by decide)]
    positivity
  have hval2 : ∀ j : Fin 10, ∀ c, c ≠ 0 → (p.buildSpec textEval).Admissible d ⟨0, [0], [some 1]⟩ c →
      expectedNext (p.buildSpec textEval) (experienceValue ((j : Nat) + 1)) d ⟨0, [0], [some 1]⟩ c ≤
        expectedNext (p.buildSpec textEval) (fun _ _ => 0) d ⟨0, [0], [some 1]⟩ c := by
    intro j c hc hadm
    have hlt : c < 2 := by
      have := (List.getElem?_eq_some_iff.1 hadm).1
      rwa [choiceSetAt_length, b2] at this
    obtain rfl : c = 1 := by omega
    unfold expectedNext experienceValue
    rw [if_neg (by rw [hper]; decide), if_neg (by decide), if_neg (by rw [hper]; decide)]
  have hK : 0 < p.typeCount := by unfold Processed.typeCount; rw [if_pos htypes]; omega
  let ind : Fin 1 → Individual p.typeCount := fun _ => ⟨⟨0, [0], [some 1]⟩, fun _ => d, 1⟩
  have hind : ∀ c, (ind c).Valid (p.buildSpec textEval) core := fun c => ⟨hs, rfl, fun _ => hd, wf.periods⟩
  obtain ⟨q, hq, h⟩ := C115_accepted_models_partial (J := 10) (Θ := fun _ => estimateUser.params) hp
    (fun _ => ⟨rfl, fun _ => rfl⟩) textEval_contract a2 a1 unitEnv_contracts.1 hnd hother hall exampleSolveEnv 1 (fun _ => 1)
    (fun _ _ => 0) (fun j => experienceValue ((j : Nat) + 1)) (fun _ k => (k : ℝ)) (fun _ _ _ => 0) ind hind
  obtain rfl : q = fun _ => p := funext fun j => Option.some.inj ((hq j).symm.trans hp)
  obtain ⟨f, g, hf, hg, hlim⟩ := h fun a ha => ⟨hdiag a ha, fun _ => hdiag a ha⟩
  obtain ⟨covs, hproc⟩ := processModel_from unitEnv estimateUser p hp
  have hn : (p.rewardParams exampleSolveEnv).measError.length = p.choices.choices.length := hproc.measurement_length
  have hv := fun (V : Option Nat → CoreState → ℝ) (x : Fin 1 → Nat → ℝ) => processed_hypothesis_valid (ev := textEval)
    (core := core) hp unitEnv_contracts.1 hnd hother (fun d hd s hmem => ⟨1, hcs d hd s hmem⟩) hdiag exampleSolveEnv 1 V hK x
  have hden := Hypothesis.density wf hind (hv (fun _ _ => 0) fun _ k => (k : ℝ)) hn 0 (f 0) (hf 0)
  obtain ⟨Q, X, hX, hXi, hlaw⟩ := observations_sequence (fun _ => historyMeasure p.choices.choices.length (ind 0).periods)
    (fun _ => f 0) fun _ => hden.2.2.2
  refine ⟨p, core, ind, f, g, hp, by unfold Processed.typeCount; rwa [if_pos htypes], fun c => ⟨hind c, rfl⟩, hf, hg, Q, X,
    hXi, hlaw, ?_⟩
  obtain ⟨ρ, _, _, _, hlim⟩ := hlim (fun _ => 0) fun j =>
    C115_expected_values_are_distinguished wf _ (hv (fun _ _ => 0) fun _ k => (k : ℝ)).rewards
      (hv (fun _ _ => 0) fun _ k => (k : ℝ)).uncertain one_pos hdelta _ _ (fun _ _ => 0) (experienceValue ((j : Nat) + 1)) hs rfl
      hd hb (hcs d hd _ hs) Nat.one_ne_zero (hval1 j) (hval2 j) hn _ _
      (Hypothesis.likelihood_single wf hind (hv (fun _ _ => 0) fun _ k => (k : ℝ)) hn 0 hd (fun _ => rfl) (f 0) (hf 0))
      (Hypothesis.likelihood_single wf hind (hv (experienceValue ((j : Nat) + 1)) fun _ _ => 0) hn 0 hd
        (fun _ => rfl) (g j 0) (hg j 0))
  refine hlim (fun _ => 0) (fun j => ?_) Q X hX hXi hlaw
  have : (fun N => countKind (fun _ : Fin N => (0 : Fin 1)) 0) = fun N => N := funext fun N => by simp [countKind]
  rw [this]
  exact tendsto_id

end

end Respy
