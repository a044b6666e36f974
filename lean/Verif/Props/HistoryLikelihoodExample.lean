import Verif.Props.HistoriesExample
import Verif.Props.HistoryLikelihoodAccepted
import Verif.Props.SolveFunctionExample

/-!
# C113 Examples

Two parameters of a model with two types, an observable, a lagged choice and a restriction.
-/

open MeasureTheory ProbabilityTheory

namespace Respy

noncomputable section

/-- Independent observations with given densities exist. -/
theorem observations_exist {N : Nat} {E : Fin N → Type} [∀ i, MeasurableSpace (E i)] (ν : ∀ i, Measure (E i))
    (f : ∀ i, E i → ℝ) (hf1 : ∀ i, ∫⁻ y, ENNReal.ofReal (f i y) ∂ν i = 1) :
    ∃ (Q : Measure (∀ i, E i)) (X : ∀ i, (∀ i, E i) → E i), IsProbabilityMeasure Q ∧ (∀ i, Measurable (X i)) ∧
      iIndepFun X Q ∧ ∀ i, Q.map (X i) = (ν i).withDensity fun y => ENNReal.ofReal (f i y) := by
  have hprob : ∀ i, IsProbabilityMeasure ((ν i).withDensity fun y => ENNReal.ofReal (f i y)) := fun i =>
    ⟨by rw [withDensity_apply _ MeasurableSet.univ, setLIntegral_univ, hf1 i]⟩
  refine ⟨Measure.pi fun i => (ν i).withDensity fun y => ENNReal.ofReal (f i y), fun i ω => ω i, inferInstance,
    fun i => measurable_pi_apply i, iIndepFun_pi (X := fun _ => id) (fun _ => aemeasurable_id), fun i => ?_⟩
  exact (measurePreserving_eval (fun i => (ν i).withDensity fun y => ENNReal.ofReal (f i y)) i).map_eq

/-- A hundred individuals with histories according to the parameters of the model: the probability that halving all
parameters gives a log likelihood which is higher by ten is at most `exp (-10)`. All hypotheses of the theorems hold. -/
example : ∃ (p q : Processed) (core : List CoreState) (ind : Fin 100 → Individual p.typeCount),
    processModel unitEnv exampleUser = some p ∧
    processModel unitEnv { exampleUser with params := exampleTheta } = some q ∧ 2 ≤ p.typeCount ∧
    (∀ i, (ind i).Valid (p.buildSpec textEval) core ∧ (ind i).periods = 3) ∧
    ∃ f g : ∀ i, (Fin (ind i).periods → Fin p.choices.choices.length × ℝ) → ℝ,
      (∀ i, (p.hypothesis textEval exampleSolveEnv 1 (fun _ _ => 0) p.typeCount fun _ k => (k : ℝ)).Likelihood
        (p.buildSpec textEval) ind i (f i)) ∧
      (∀ i, (q.hypothesis textEval exampleSolveEnv 1 (fun _ _ => 1) p.typeCount fun _ _ => 0).Likelihood
        (p.buildSpec textEval) ind i (g i)) ∧
      ∃ (Q : Measure (∀ i, Fin (ind i).periods → Fin p.choices.choices.length × ℝ))
        (X : ∀ i, (∀ i, Fin (ind i).periods → Fin p.choices.choices.length × ℝ) →
          Fin (ind i).periods → Fin p.choices.choices.length × ℝ), IsProbabilityMeasure Q ∧
        Q.real {ω | ∑ i, Real.log (f i (X i ω)) + 10 ≤ ∑ i, Real.log (g i (X i ω))} ≤ Real.exp (-10) := by
  obtain ⟨p, hp, hcheck⟩ := (Option.any_eq_true _ _).1 ownUser_check
  unfold ownCheck at hcheck
  simp only [Bool.and_eq_true] at hcheck
  obtain ⟨⟨⟨⟨⟨⟨⟨⟨⟨⟨⟨⟨⟨⟨⟨⟨g1, g2⟩, g3⟩, g4⟩, g5⟩, g6⟩, g7⟩, g8⟩, g9⟩, g10⟩, g11⟩, g12⟩, g13⟩, g14⟩, g15⟩, g17⟩,
    g16⟩ := hcheck
  obtain ⟨core, a1, a2, a3, a4, a5⟩ := example_hypotheses _ p g1
  unfold exampleCheck at g1
  simp only [Bool.and_eq_true, decide_eq_true_eq] at g1
  obtain ⟨⟨⟨⟨⟨⟨_, b2⟩, b3⟩, b4⟩, b5⟩, b6⟩, _⟩ := g1
  have wf := C82_processed_models_well_formed hp textEval_contract a2 a1
  have htypes : 2 ≤ p.nTypes := (of_decide_eq_true g17).ge
  have hcount : p.typeCount = p.nTypes := if_pos htypes
  obtain ⟨s, hs, hs0⟩ := wf.covered 0 wf.periods
  obtain ⟨d, hd⟩ : ∃ d, d ∈ (p.buildSpec textEval).denseIndices := by
    by_contra hn
    push Not at hn
    have hgrid : denseGrid p.denseSpec = some [[0, 0], [0, 1], [1, 0], [1, 1]] := of_decide_eq_true g12
    have hg : (p.buildSpec textEval).grid = some [[0, 0], [0, 1], [1, 0], [1, 1]] := hgrid
    exact hn (some 0) ((mem_denseIndices hg _).2 ⟨0, rfl, by decide⟩)
  have hper : (p.buildSpec textEval).core.nPeriods = 3 := b6
  let ind : Fin 100 → Individual p.typeCount := fun _ => ⟨s, fun _ => d, 3⟩
  have hind : ∀ i, (ind i).Valid (p.buildSpec textEval) core := fun i => ⟨hs, hs0, fun _ => hd, hper.ge⟩
  obtain ⟨q, hq, h1⟩ := C113_likelihood_of_accepted_models_partial hp exampleTheta_index textEval_contract a2 a1
    unitEnv_contracts.1 (by decide +kernel) (exampleShocks _ (by decide +kernel)) a4 exampleSolveEnv 1 1 (fun _ _ => 0)
    (fun _ _ => 1) (fun _ k => (k : ℝ)) (fun _ _ => 0) ind hind
  have hqch : q.choices = p.choices :=
    (((C85_state_space_of_index unitEnv exampleUser exampleTheta exampleTheta_index).2 p q hp hq).1).symm
  obtain ⟨f, g, hf, hg, ρ, _, h2⟩ := h1 fun a ha =>
    ⟨own_cholesky hp (by decide +kernel) (exampleShocks _ (by decide +kernel)) (by decide +kernel) b2 a (by rwa [b2] at ha),
      own_cholesky hq (by decide +kernel) (exampleShocks _ (by decide +kernel)) (by decide +kernel)
        (by rw [hqch]; exact b2) a (by rwa [b2] at ha)⟩
  obtain ⟨Q, X, hQ, hX, hXi, hlaw⟩ := observations_exist (fun i => historyMeasure p.choices.choices.length (ind i).periods) f
    fun i => (hf i).2
  exact ⟨p, q, core, ind, hp, hq, hcount ▸ htypes, fun i => ⟨hind i, rfl⟩, f, g, fun i => (hf i).1, fun i => (hg i).1, Q, X, hQ,
    (h2 Q X hX hXi hlaw 10).trans (min_le_left _ _)⟩

/-- The probability of never working in the first three periods in the distribution of histories is the product of the
probabilities of the likelihood, and positive. All hypotheses of `C113_probabilities_of_events` hold. -/
example : ∃ (p : Processed) (core : List CoreState) (s : CoreState) (d : Option Nat)
    (f : (Fin 3 → Fin (p.rewardParams exampleSolveEnv).measError.length × ℝ) → ℝ) (l : Nat → ℝ), processModel unitEnv exampleUser = some p ∧ s ∈ core ∧
    (∀ h, IsHistoryLikelihood (p.rewardParams exampleSolveEnv) 1 (p.buildSpec textEval)
      (p.solveInput textEval exampleSolveEnv).wageOf (p.solveInput textEval exampleSolveEnv).nonpecOf (fun _ _ => 0) d s h
      (f h)) ∧ (∀ t < 3, 0 < l t) ∧
    ∫ h in {h | ∀ t : Fin 3, ((h t).1 : Nat) = 1}, f h ∂historyMeasure (p.rewardParams exampleSolveEnv).measError.length 3 =
      ∏ t ∈ Finset.range 3, l t := by
  obtain ⟨p, hp, hcheck⟩ := (Option.any_eq_true _ _).1 ownUser_check
  unfold ownCheck at hcheck
  simp only [Bool.and_eq_true] at hcheck
  obtain ⟨⟨⟨⟨⟨⟨⟨⟨⟨⟨⟨⟨⟨⟨⟨⟨g1, g2⟩, g3⟩, g4⟩, g5⟩, g6⟩, g7⟩, g8⟩, g9⟩, g10⟩, g11⟩, g12⟩, g13⟩, g14⟩, g15⟩, g17⟩,
    g16⟩ := hcheck
  obtain ⟨core, a1, a2, a3, a4, a5⟩ := example_hypotheses _ p g1
  unfold exampleCheck at g1
  simp only [Bool.and_eq_true, decide_eq_true_eq] at g1
  obtain ⟨⟨⟨⟨⟨⟨_, b2⟩, b3⟩, b4⟩, b5⟩, b6⟩, _⟩ := g1
  have hdiag : ∀ a < p.choices.choices.length, entry p.cholesky a a ≠ 0 := fun a ha =>
    own_cholesky hp (by decide +kernel) (exampleShocks _ (by decide +kernel)) (by decide +kernel) b2 a (by rwa [b2] at ha)
  have wf := C82_processed_models_well_formed hp textEval_contract a2 a1
  obtain ⟨s, hs, hs0⟩ := wf.covered 0 wf.periods
  have hgrid : denseGrid p.denseSpec = some [[0, 0], [0, 1], [1, 0], [1, 1]] := of_decide_eq_true g12
  have hg : (p.buildSpec textEval).grid = some [[0, 0], [0, 1], [1, 0], [1, 1]] := hgrid
  have hd : some 0 ∈ (p.buildSpec textEval).denseIndices := (mem_denseIndices hg _).2 ⟨0, rfl, by decide⟩
  have hper : (p.buildSpec textEval).core.nPeriods = 3 := b6
  have hadm : ∀ d ∈ (p.buildSpec textEval).denseIndices, ∀ s ∈ core, (p.buildSpec textEval).Admissible d s 1 :=
    fun d hd s hmem =>
      (C82_choice_sets_by_name hp textEval_contract a2.toDescribed a1 d hd s hmem 1 "a".toList (by rw [b2]; rfl)).2
        (allowed_of_unrestricted exampleUser p _ d s _ b4 (by rw [b3]; decide))
  have hv : ((p.hypothesis textEval exampleSolveEnv 1 (fun _ _ => 0) 1 fun (i : Fin 0) _ => i.elim0).Valid
      (p.buildSpec textEval) core) := processed_hypothesis_valid hp unitEnv_contracts.1 (by decide +kernel)
    (exampleShocks _ (by decide +kernel)) (fun d hd s hmem => ⟨1, hadm d hd s hmem⟩) hdiag exampleSolveEnv 1 _
    Nat.one_pos _
  have hmem : ∀ t < 3, coreAlong s (fun _ => 1) t ∈ core := by
    intro t
    induction t with
    | zero => exact fun _ => hs
    | succ t ih =>
      intro ht
      have h1 := ih (by omega)
      refine wf.closed _ h1 ?_ _ hd 1 (hadm _ hd _ h1)
      rw [coreAlong_period, hs0, hper]
      omega
  have hl : ∀ t, ∃ l : ℝ, t < 3 → 0 < l ∧ IsObservedProbability (p.rewardParams exampleSolveEnv) 1
      ((p.buildSpec textEval).choiceSetAt (some 0) (coreAlong s (fun _ => 1) t))
      ((p.solveInput textEval exampleSolveEnv).wageOf (some 0) (coreAlong s (fun _ => 1) t))
      ((p.solveInput textEval exampleSolveEnv).nonpecOf (some 0) (coreAlong s (fun _ => 1) t))
      (expectedNext (p.buildSpec textEval) (fun _ _ => 0) (some 0) (coreAlong s (fun _ => 1) t)) 1 none l := by
    intro t
    by_cases htt : t < 3
    · have hd1 := hadm _ hd _ (hmem t htt)
      obtain ⟨prob, h7, _⟩ := C107_distribution_of_choices_and_wages (p.rewardParams exampleSolveEnv).hi 1
        (p.rewardParams exampleSolveEnv).betaDelta (p.rewardParams exampleSolveEnv).nWagesRaw
        (p.rewardParams exampleSolveEnv).cholesky
        ((p.buildSpec textEval).choiceSetAt (some 0) (coreAlong s (fun _ => 1) t))
        (fun b => (p.rewardParams exampleSolveEnv).measError.getD b 0)
        ((p.solveInput textEval exampleSolveEnv).wageOf (some 0) (coreAlong s (fun _ => 1) t))
        ((p.solveInput textEval exampleSolveEnv).nonpecOf (some 0) (coreAlong s (fun _ => 1) t))
        (expectedNext (p.buildSpec textEval) (fun _ _ => 0) (some 0) (coreAlong s (fun _ => 1) t))
        (List.mem_of_getElem? hd1) (fun a h hav => hv.uncertain _ hd _ (hmem t htt) a h hav)
      obtain ⟨h8, h9, _⟩ := h7 1 hd1 none (fun h => by cases h)
      exact ⟨prob 1 none, fun _ => ⟨h9, (h8 _).2 rfl⟩⟩
    · exact ⟨0, fun h => absurd h htt⟩
  choose l hl using hl
  obtain ⟨f, hf, _⟩ := C113_distribution_of_histories wf _ hv.rewards hv.uncertain 1
    (p.solveInput textEval exampleSolveEnv).wageOf (p.solveInput textEval exampleSolveEnv).nonpecOf (fun _ _ => 0) hs hs0
    hd 3 hper.ge
  have hf' := fun h => (hf h (f h)).2 rfl
  refine ⟨p, core, s, some 0, f, l, hp, hs, hf', fun t ht => (hl t ht).1, ?_⟩
  have h1 := C113_probabilities_of_events wf _ hv.rewards hv.uncertain 1 _ _ _ hs hs0 hd 3 hper.ge f hf' (fun _ => 1)
    (fun _ => none) l fun t ht => ⟨hadm _ hd _ (hmem t ht), (fun _ hB => nomatch hB), (hl t ht).2⟩
  have hset : {h : Fin 3 → Fin (p.rewardParams exampleSolveEnv).measError.length × ℝ | ∀ t : Fin 3, ((h t).1 : Nat) = 1} =
      {h | ∀ t : Fin 3, ((h t).1 : Nat) = 1 ∧ ∀ B, (none : Option (Set ℝ)) = some B → (h t).2 ∈ B} := by
    ext h
    simp
  rw [hset]
  exact h1

end

end Respy
