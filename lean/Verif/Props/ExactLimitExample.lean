import Verif.Props.ExactLimit
import Verif.Props.ProcessEstimateExample

/-!
# C117: concrete cases
-/

open MeasureTheory ProbabilityTheory

namespace Respy

/-- With independent random numbers, any accuracy is reached with any probability below one if there are enough draws. -/
theorem SolvedCriterionApproaches.enough_draws {b : BuildSpec} {w m : Option Nat → CoreState → Nat → ℝ}
    {future : Option Nat → CoreState → List (Option Nat × ℝ)} {V : Option Nat → CoreState → ℝ}
    {solution : (n : Nat) → ((size seed t : Nat) → Fin n → Fin size → ℝ) → Option (SimSpace ℝ)}
    {estimation : SimSpace ℝ → Estimation Unit} (h : SolvedCriterionApproaches b w m future V solution estimation) :
    ∃ exact : ℝ, (∀ sp, IsExactCriterion b w m future V (estimation sp) () exact) ∧
      ∀ ε δ : ℝ, 0 < ε → 0 < δ → ∃ N, ∀ n, N ≤ n →
        ∃ value : ((k : Nat × Nat × Nat × Nat) → Fin k.1 → ℝ) → ℝ,
          (∀ ω, ∃ sp, solution n (fun size seed t i => ω (size, seed, t, i)) = some sp ∧
            ((estimation sp).withNumbers n fun _ size seed row i => ω (size, seed, row, i)).logLike () =
              some (value ω)) ∧
          independentNormals {ω | ε ≤ |value ω - exact|} ≤ ENNReal.ofReal δ := by
  obtain ⟨exact, hexact, hlim⟩ := h
  refine ⟨exact, hexact, fun ε δ hε hδ => ?_⟩
  obtain ⟨K, K', hK⟩ := hlim ε hε
  have hsmall : ∀ c : ℝ, ∃ N, ∀ n : Nat, N ≤ n → 0 < n ∧ c / n ≤ δ / 2 := by
    intro c
    obtain ⟨N, hN⟩ := exists_nat_gt (c / (δ / 2))
    refine ⟨N + 1, fun n hn => ⟨by omega, ?_⟩⟩
    have hn' : (N : ℝ) ≤ n := by exact_mod_cast (by omega : N ≤ n)
    have hpos : (0 : ℝ) < n := by exact_mod_cast (by omega : 0 < n)
    rw [div_le_iff₀ hpos]
    rw [div_lt_iff₀ (by linarith)] at hN
    nlinarith
  obtain ⟨N, hN⟩ := hsmall K
  obtain ⟨N', hN'⟩ := hsmall K'
  refine ⟨max N N', fun n hn => ?_⟩
  obtain ⟨hn0, h1⟩ := hN n ((le_max_left _ _).trans hn)
  obtain ⟨_, h2⟩ := hN' n ((le_max_right _ _).trans hn)
  obtain ⟨value, hvalue, hQ⟩ := hK _ independentNormals n n hn0 hn0 (fun size seed t i ω => ω (size, seed, t, i))
    (independentNormals_standard n) (fun _ size seed row i ω => ω (size, seed, row, i))
    (fun _ size seed row => independentNormals_standard n size seed row)
  refine ⟨value, hvalue, hQ.trans ((add_le_add (ENNReal.ofReal_le_ofReal h1) (ENNReal.ofReal_le_ofReal h2)).trans ?_)⟩
  rw [← ENNReal.ofReal_add (by linarith) (by linarith), add_halves]

/-- `C117_accepted_models_partial` for a model with two types and data with an observed wage. -/
example : ∃ p la hi bt, processModel unitEnv estimateUser = some p ∧ buildSpace (p.buildSpec textEval) = some bt ∧
    ∃ exact : ℝ, ∀ ε δ : ℝ, 0 < ε → 0 < δ → ∃ N, ∀ n, N ≤ n →
      ∃ value : ((k : Nat × Nat × Nat × Nat) → Fin k.1 → ℝ) → ℝ,
        (∀ ω, ∃ sp, (p.solveInput textEval (exampleSolveEnv.withNumbers p.nPeriods n
            fun size seed t i => ω (size, seed, t, i))).solveModel (p.buildSpec textEval) (fun _ => some [])
          (kw94 bt.space firstRandom Real.sqrt (fun _ _ => []) (expShocks Real.exp 1 p.choices.wWage.length p.cholesky))
            0 (fun bt => initialValues bt.space) id id = some sp ∧
          ((p.estimation textEval (estimateEnv la hi) (some sp)).withNumbers n fun _ size seed row i =>
            ω (size, seed, row, i)).logLike () = some (value ω)) ∧
        independentNormals {ω | ε ≤ |value ω - exact|} ≤ ENNReal.ofReal δ := by
  obtain ⟨p, core, hp, h1, h2, h3, h4, h5, h6, h7, h8, h9, _, _, _, _, _, _, _, la, hi, _, he⟩ :=
    estimateUser_hypotheses
  have hsmall := estimateUser_small
  rw [hp] at hsmall
  simp only [Option.any_some, Bool.and_eq_true, decide_eq_true_eq] at hsmall
  obtain ⟨⟨⟨_, g2⟩, g3⟩, _⟩ := hsmall
  rw [h1] at g2
  simp only [Option.any_some, decide_eq_true_eq] at g2
  have hdelta : p.discount.delta = 1 / 2 := by
    obtain ⟨⟨delta, e1, e2, -⟩, -⟩ := C84_parameters_by_name (ev := textEval) hp h6 h7 exampleSolveEnv
    have h : Dict.get? estimateUser.params ("delta".toList, "delta".toList) = some (1 / 2) := by
      unfold estimateUser exampleUser
      dsimp only [List.cons_append]
      rw [Dict.get?, if_pos rfl]
    rw [h] at e1
    cases e1
    exact e2
  obtain ⟨bt, V, hbt, _, h⟩ := C117_accepted_models_partial hp textEval_contract h2 h1 h3 h4 h5 h6 h7 exampleSolveEnv
    h8.sizes h9 (by rw [hdelta]; norm_num) (no_interpolation g3 g2) firstRandom firstRandom_contract Real.sqrt
    (fun _ _ => []) 1 0 (fun bt => initialValues bt.space) (fun bt => SameShape.refl _) id id (estimateEnv la hi) he
  obtain ⟨exact, _, hlim⟩ := h.enough_draws
  exact ⟨p, la, hi, bt, hp, hbt, exact, hlim⟩

/-- `C117_models_with_processes_partial` for a model with an exogenous process. -/
example : ∃ p la bt, processModel unitEnv exogenousUser = some p ∧ buildSpace (p.buildSpec textEval) = some bt ∧
    ∃ exact : ℝ, ∀ ε δ : ℝ, 0 < ε → 0 < δ → ∃ N, ∀ n, N ≤ n →
      ∃ value : ((k : Nat × Nat × Nat × Nat) → Fin k.1 → ℝ) → ℝ,
        (∀ ω, ∃ sp, (p.solveInput textEval (exampleSolveEnv.withNumbers p.nPeriods n
            fun size seed t i => ω (size, seed, t, i))).solveModel (p.buildSpec textEval)
            ((p.solveInput textEval (exampleSolveEnv.withNumbers p.nPeriods n
              fun size seed t i => ω (size, seed, t, i))).transitions p.exogenousParams (p.buildSpec textEval))
          (kw94 bt.space firstRandom Real.sqrt (fun _ _ => []) (expShocks Real.exp 1 p.choices.wWage.length p.cholesky))
            0 (fun bt => initialValues bt.space) id id = some sp ∧
          ((p.estimation textEval { estimateEnv la 1 with data := [⟨7, ⟨⟨1, [1], []⟩, [1, 0]⟩, 1, none⟩] }
            (some sp)).withNumbers n fun _ size seed row i => ω (size, seed, row, i)).logLike () = some (value ω)) ∧
        independentNormals {ω | ε ≤ |value ω - exact|} ≤ ENNReal.ofReal δ := by
  obtain ⟨p, core, hp, h1, h2, h3, h4, h5, h6, h7, h8, h9, h10, h11, h12, _, la, he⟩ := exogenousUser_hypotheses
  have hsmall := exogenousUser_small
  rw [hp] at hsmall
  simp only [Option.any_some, Bool.and_eq_true] at hsmall
  obtain ⟨⟨g2, g3⟩, _⟩ := hsmall
  rw [h1] at g2
  have g2 : core.length * 4 ≤ p.points := of_decide_eq_true g2
  have g3 := of_decide_eq_true g3
  have hdelta : p.discount.delta = 1 / 2 := by
    obtain ⟨⟨delta, e1, e2, -⟩, -⟩ := C84_parameters_by_name (ev := textEval) hp h9 h10 exampleSolveEnv
    have h : Dict.get? exogenousUser.params ("delta".toList, "delta".toList) = some (1 / 2) := by
      unfold exogenousUser
      dsimp only
      rw [Dict.get?, if_pos rfl]
    rw [h] at e1
    cases e1
    exact e2
  obtain ⟨bt, V, hbt, _, h⟩ := C117_models_with_processes_partial hp textEval_contract h2 h1 h3 [("able".toList, 2)] h4
    h5 h6 h7 h8 h9 h10 exampleSolveEnv h11.sizes h12 (by rw [hdelta]; norm_num) (no_interpolation g3 g2) firstRandom
    firstRandom_contract Real.sqrt (fun _ _ => []) 1 0 (fun bt => initialValues bt.space)
    (fun bt => SameShape.refl _) id id _ he
  obtain ⟨exact, _, hlim⟩ := h.enough_draws
  exact ⟨p, la, bt, hp, hbt, exact, hlim⟩

end Respy
