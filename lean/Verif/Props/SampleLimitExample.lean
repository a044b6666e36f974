import Verif.Props.ProcessEstimateExample
import Verif.Props.ProcessSimulateExample
import Verif.Props.SampleLimit

/-!
# C119: concrete cases
-/

open MeasureTheory ProbabilityTheory

namespace Respy

noncomputable section

/-- With enough draws, all rows of a sample follow the model with any accuracy and probability. -/
theorem SampleApproaches.enough_draws {G : Type} {b : BuildSpec} {core : List CoreState}
    {w m : Option Nat → CoreState → Nat → ℝ} {future : Option Nat → CoreState → List (Option Nat × ℝ)}
    {V : Option Nat → CoreState → ℝ}
    {solution : (n : Nat) → ((size seed t : Nat) → Fin n → Fin size → ℝ) → Option (SimSpace ℝ)}
    {simulation : SimSpace ℝ → Simulation ℝ G Unit} {g : G} {C : ℝ}
    (h : SampleApproaches b core w m future V solution simulation g C) (ε η : ℝ) (hε : 0 < ε) (hη : 0 < η) :
    ∃ N, ∀ n, N ≤ n → ∃ (sp : _ → SimSpace ℝ) (out : _ → List (SimRow ℝ)),
      (∀ ω, solution n (fun size seed t i => ω (size, seed, t, i)) = some (sp ω) ∧
        ∃ g', (simulation (sp ω)).run () g = (some (out ω), g')) ∧
      independentNormals {ω | ∃ row ∈ out ω,
        ¬ RowNearlyFollows b core ((simulation (sp ω)).rewards ()) w m future V ε row} ≤ ENNReal.ofReal η := by
  obtain ⟨N, hN⟩ := exists_draws (C := C) hε hη
  refine ⟨N, fun n hn => ?_⟩
  obtain ⟨sp, out, h1, h2⟩ := h _ independentNormals n (hN n hn).1 _ (independentNormals_standard n)
  exact ⟨sp, out, fun ω => ⟨(h1 ω).1, (h1 ω).2.1⟩, (h2 ε hε).trans (ENNReal.ofReal_le_ofReal (hN n hn).2)⟩

/-- There are draws for which the sample has a row and its rows follow the model up to any error. -/
theorem SampleApproaches.exists_row {G : Type} {b : BuildSpec} {core : List CoreState}
    {w m : Option Nat → CoreState → Nat → ℝ} {future : Option Nat → CoreState → List (Option Nat × ℝ)}
    {V : Option Nat → CoreState → ℝ}
    {solution : (n : Nat) → ((size seed t : Nat) → Fin n → Fin size → ℝ) → Option (SimSpace ℝ)}
    {simulation : SimSpace ℝ → Simulation ℝ G Unit} {g : G} {C : ℝ}
    (h : SampleApproaches b core w m future V solution simulation g C)
    (hin : ∀ sp, 0 < (simulation sp).input.length) (hper : ∀ sp, 0 < (simulation sp).nPeriods) (ε : ℝ) (hε : 0 < ε) :
    ∃ sp out g' row, (simulation sp).run () g = (some out, g') ∧ row ∈ out ∧
      RowNearlyFollows b core ((simulation sp).rewards ()) w m future V ε row := by
  obtain ⟨N, hN⟩ := exists_draws (C := C) (ε := ε) (η := 1 / 2) hε (by norm_num)
  obtain ⟨sp, out, h1, h2⟩ := h _ independentNormals N (hN N le_rfl).1 _ (independentNormals_standard N)
  have h3 := (h2 ε hε).trans (ENNReal.ofReal_le_ofReal (hN N le_rfl).2)
  by_contra hcon
  have hall : {ω | ∃ row ∈ out ω, ¬ RowNearlyFollows b core ((simulation (sp ω)).rewards ()) w m future V ε row} =
      Set.univ := by
    refine Set.eq_univ_of_forall fun ω => ?_
    obtain ⟨_, ⟨g', h4⟩, h5, _⟩ := h1 ω
    have hlen : (0, 0) ∈ panelIndex (simulation (sp ω)).input.length (simulation (sp ω)).nPeriods := by
      unfold panelIndex
      exact List.mem_flatMap.2 ⟨0, List.mem_range.2 (hin _), List.mem_map.2 ⟨0, List.mem_range.2 (hper _), rfl⟩⟩
    rw [← h5] at hlen
    obtain ⟨row, hrow, _⟩ := List.mem_map.1 hlen
    exact ⟨row, hrow, fun hnear => hcon ⟨sp ω, out ω, g', row, h4, hrow, hnear⟩⟩
  rw [hall, measure_univ] at h3
  have : (1 : ENNReal) ≤ ENNReal.ofReal (1 / 2) := h3
  rw [← ENNReal.ofReal_one, ENNReal.ofReal_le_ofReal_iff (by norm_num)] at this
  norm_num at this

theorem exampleUser_points : (processModel exampleEnv exampleUser).any (fun p =>
    (createCore (p.buildSpec textEval).core).any (fun core => decide (core.length * 4 ≤ p.points)) &&
    decide (denseGrid p.denseSpec = some [[0, 0], [0, 1], [1, 0], [1, 1]]) && decide (p.nPeriods = 3)) = true := by
  decide +kernel

theorem exogenousUser_unit_samplable : (processModel unitEnv exogenousUser).any (fun p =>
    samplableCheck exogenousUser p && decide (p.nPeriods = 3) && decide (p.choices.choices.length = 2) &&
    (exampleSimulate 3 2).input.all
      (rowAllowedCheck ((p.buildSpec textEval).initialLevels p.denseLevels))) = true := by decide +kernel

theorem exampleUser_sample_approaches : ∃ p core bt V C, processModel exampleEnv exampleUser = some p ∧
    buildSpace (p.buildSpec textEval) = some bt ∧ p.nPeriods = 3 ∧
    ∀ g, SampleApproaches (p.buildSpec textEval) core (p.solveInput textEval exampleSolveEnv).wageOf
      (p.solveInput textEval exampleSolveEnv).nonpecOf (fun d _ => [(d, 1)]) V
      (fun n z => (p.solveInput textEval (exampleSolveEnv.withNumbers p.nPeriods n z)).solveModel (p.buildSpec textEval)
        (fun _ => some []) (kw94 bt.space firstRandom Real.sqrt (fun _ _ => [])
          (expShocks Real.exp 1 p.choices.wWage.length p.cholesky)) 0 (fun bt => initialValues bt.space) id id)
      (fun sp => p.simulation textEval exampleSolveEnv (exampleSimulate 4 2) (some sp)) g C := by
  obtain ⟨p, core, hp, h1, h2, h3, h8, h9, _, s1, s2, _⟩ := exampleUser_hypotheses
  have h6 : (Dict.keys exampleUser.params).Nodup := by decide +kernel
  have h7 := exampleShocks exampleUser (by decide +kernel)
  have hsmall := exampleUser_points
  rw [hp] at hsmall
  simp only [Option.any_some, Bool.and_eq_true] at hsmall
  obtain ⟨⟨g2, g3⟩, g4⟩ := hsmall
  rw [h1] at g2
  have g2 : core.length * 4 ≤ p.points := of_decide_eq_true g2
  have g3 := of_decide_eq_true g3
  have hdelta : p.discount.delta = 1 / 2 := by
    obtain ⟨⟨delta, e1, e2, -⟩, -⟩ := C84_parameters_by_name (ev := textEval) hp h6 h7 exampleSolveEnv
    have h : Dict.get? exampleUser.params ("delta".toList, "delta".toList) = some (1 / 2) := by
      unfold exampleUser
      dsimp only
      rw [Dict.get?, if_pos rfl]
    rw [h] at e1
    cases e1
    exact e2
  obtain ⟨bt, V, C, hbt, _, h⟩ := C119_accepted_models_partial hp textEval_contract h2 h1 h3 (fun _ _ h1 h2 => ⟨h1, h2⟩) h6 h7 exampleSolveEnv
    h8.sizes h9 (by rw [hdelta]; norm_num) (no_interpolation g3 g2) firstRandom firstRandom_contract Real.sqrt
    (fun _ _ => []) 1 0 (fun bt => initialValues bt.space) (fun bt => SameShape.refl _) id id (fun _ _ => Iff.rfl)
    (fun _ _ => Iff.rfl)
  exact ⟨p, core, bt, V, C, hp, hbt, of_decide_eq_true g4, fun g => h (exampleSimulate 4 2) s1 s2 g⟩

/-- `C119_accepted_models_partial` for a model with two types, an observable, an experience and a lagged choice: with
enough draws all alternatives in a sample are optimal up to a fifth with a probability of 99 percent. -/
example : ∃ p core bt V, processModel exampleEnv exampleUser = some p ∧ buildSpace (p.buildSpec textEval) = some bt ∧
    ∀ g, ∃ N, ∀ n, N ≤ n → ∃ (sp : _ → SimSpace ℝ) (out : _ → List (SimRow ℝ)),
      (∀ ω, (p.solveInput textEval (exampleSolveEnv.withNumbers p.nPeriods n
          fun size seed t i => ω (size, seed, t, i))).solveModel (p.buildSpec textEval) (fun _ => some [])
          (kw94 bt.space firstRandom Real.sqrt (fun _ _ => []) (expShocks Real.exp 1 p.choices.wWage.length p.cholesky))
            0 (fun bt => initialValues bt.space) id id = some (sp ω) ∧
        ∃ g', (p.simulation textEval exampleSolveEnv (exampleSimulate 4 2) (some (sp ω))).run () g = (some (out ω), g')) ∧
      independentNormals {ω | ∃ row ∈ out ω, ¬ RowNearlyFollows (p.buildSpec textEval) core
        (p.rewardParams exampleSolveEnv) (p.solveInput textEval exampleSolveEnv).wageOf
        (p.solveInput textEval exampleSolveEnv).nonpecOf (fun d _ => [(d, 1)]) V (1 / 10) row} ≤
        ENNReal.ofReal (1 / 100) := by
  obtain ⟨p, core, bt, V, C, hp, hbt, _, h⟩ := exampleUser_sample_approaches
  exact ⟨p, core, bt, V, hp, hbt, fun g => (h g).enough_draws (1 / 10) (1 / 100) (by norm_num) (by norm_num)⟩

/-- `C119_clear_alternatives` for a row of a sample: the hypotheses hold with an error of one tenth. -/
example : ∃ p core bt V sp out g' row, processModel exampleEnv exampleUser = some p ∧
    buildSpace (p.buildSpec textEval) = some bt ∧
    (p.simulation textEval exampleSolveEnv (exampleSimulate 4 2) (some sp)).run () 0 = (some out, g') ∧ row ∈ out ∧
    RowNearlyFollows (p.buildSpec textEval) core (p.rewardParams exampleSolveEnv)
      (p.solveInput textEval exampleSolveEnv).wageOf (p.solveInput textEval exampleSolveEnv).nonpecOf
      (fun d _ => [(d, 1)]) V (1 / 10) row := by
  obtain ⟨p, core, bt, V, C, hp, hbt, hn, h⟩ := exampleUser_sample_approaches
  obtain ⟨sp, out, g', row, h1, h2, h3⟩ := (h 0).exists_row (fun _ => by simp [Processed.simulation, exampleSimulate])
    (fun _ => by simp [Processed.simulation, hn]) (1 / 10) (by norm_num)
  exact ⟨p, core, bt, V, sp, out, g', row, hp, hbt, h1, h2, h3⟩

/-- `C119_models_with_processes_partial` for a model with an exogenous process. -/
example : ∃ p core bt V, processModel unitEnv exogenousUser = some p ∧ buildSpace (p.buildSpec textEval) = some bt ∧
    ∀ g, ∃ N, ∀ n, N ≤ n → ∃ (sp : _ → SimSpace ℝ) (out : _ → List (SimRow ℝ)),
      (∀ ω, (p.solveInput textEval (exampleSolveEnv.withNumbers p.nPeriods n
          fun size seed t i => ω (size, seed, t, i))).solveModel (p.buildSpec textEval)
          ((p.solveInput textEval (exampleSolveEnv.withNumbers p.nPeriods n
            fun size seed t i => ω (size, seed, t, i))).transitions p.exogenousParams (p.buildSpec textEval))
          (kw94 bt.space firstRandom Real.sqrt (fun _ _ => []) (expShocks Real.exp 1 p.choices.wWage.length p.cholesky))
            0 (fun bt => initialValues bt.space) id id = some (sp ω) ∧
        ∃ g', (p.simulation textEval exampleSolveEnv (exampleSimulate 3 2) (some (sp ω))).run () g = (some (out ω), g')) ∧
      independentNormals {ω | ∃ row ∈ out ω, ¬ RowNearlyFollows (p.buildSpec textEval) core
        (p.rewardParams exampleSolveEnv) (p.solveInput textEval exampleSolveEnv).wageOf
        (p.solveInput textEval exampleSolveEnv).nonpecOf
        (fun d s => (exogenousGrid (p.exogenous.map fun e => e.2.length)).map fun e =>
          ((p.buildSpec textEval).successor d e, levelProbability p.exogenousParams (p.covariates textEval d s) e))
        V (1 / 10) row} ≤ ENNReal.ofReal (1 / 100) := by
  obtain ⟨p, core, hp, h1, h2, h3, h4, h5, h6, h7, _, h9, h10, h11, h12, _⟩ := exogenousUser_hypotheses
  have hsmall := exogenousUser_small
  rw [hp] at hsmall
  simp only [Option.any_some, Bool.and_eq_true] at hsmall
  obtain ⟨⟨g2, g3⟩, _⟩ := hsmall
  rw [h1] at g2
  have g2 : core.length * 4 ≤ p.points := of_decide_eq_true g2
  have g3 := of_decide_eq_true g3
  have hsam := exogenousUser_unit_samplable
  rw [hp] at hsam
  simp only [Option.any_some, Bool.and_eq_true, decide_eq_true_eq] at hsam
  obtain ⟨⟨⟨s1, s2⟩, s3⟩, s4⟩ := hsam
  have hdelta : p.discount.delta = 1 / 2 := by
    obtain ⟨⟨delta, e1, e2, -⟩, -⟩ := C84_parameters_by_name (ev := textEval) hp h9 h10 exampleSolveEnv
    have h : Dict.get? exogenousUser.params ("delta".toList, "delta".toList) = some (1 / 2) := by
      unfold exogenousUser
      dsimp only
      rw [Dict.get?, if_pos rfl]
    rw [h] at e1
    cases e1
    exact e2
  obtain ⟨bt, V, _, hbt, _, h⟩ := C119_models_with_processes_partial hp textEval_contract h2 h1 h3 [("able".toList, 2)] h4
    h5 h6 h7 h9 h10 exampleSolveEnv h11.sizes h12 (by rw [hdelta]; norm_num) (no_interpolation g3 g2) firstRandom
    firstRandom_contract Real.sqrt (fun _ _ => []) 1 0 (fun bt => initialValues bt.space)
    (fun bt => SameShape.refl _) id id (fun _ _ => Iff.rfl) (fun _ _ => Iff.rfl)
  refine ⟨p, core, bt, V, hp, hbt, fun g => ?_⟩
  exact (h (exampleSimulate 3 2) (samplable_of_check _ p hp s1 _) (exampleSimulate_fits p 3 2 s2 s3 s4) g).enough_draws
    (1 / 10) (1 / 100) (by norm_num) (by norm_num)

end

end Respy
