import Verif.Props.DrawLimit
import Verif.Props.ProcessEstimateExample

/-!
# C116: concrete cases of accepted models
-/

open MeasureTheory ProbabilityTheory

namespace Respy

/-- `C116_accepted_models_partial` for a model with two types and data with an observed wage. -/
example : ∃ p sp, processModel unitEnv estimateUser = some p ∧ ∃ la hi, ∃ exact : ℝ, ∀ ε : ℝ, 0 < ε → ∃ K : ℝ, ∀ n,
    0 < n → ∃ value : ((k : Nat × Nat × Nat × Nat) → Fin k.1 → ℝ) → ℝ,
      (∀ ω, ((p.estimation textEval (estimateEnv la hi) (some sp)).withNumbers n fun _ size seed row i =>
        ω (size, seed, row, i)).logLike () = some (value ω)) ∧
      independentNormals {ω | ε ≤ |value ω - exact|} ≤ ENNReal.ofReal (K / n) := by
  obtain ⟨p, core, hp, hcore, hs, hexo, hk, hl, hnd, hother, hfit, hall, hpts, _, _, _, _, _, _, la, hi, _, he⟩ :=
    estimateUser_hypotheses
  obtain ⟨bt, sp, V, _, _, _, h⟩ := C116_accepted_models_partial hp textEval_contract hs hcore hexo hk hl hnd hother
    exampleSolveEnv hfit hall hpts firstRandom firstRandom_contract id (fun _ _ => []) 100 0
    (fun bt => initialValues bt.space) (fun bt => SameShape.refl _) id id (estimateEnv la hi) he
  obtain ⟨exact, _, hlim⟩ := h
  refine ⟨p, sp, hp, la, hi, exact, fun ε hε => ?_⟩
  obtain ⟨K, hK⟩ := hlim ε hε
  exact ⟨K, fun n hn => hK _ independentNormals n hn (fun _ size seed row i ω => ω (size, seed, row, i))
    (fun _ size seed row => independentNormals_standard n size seed row)⟩

/-- `C116_accepted_models_with_processes_partial` for a model with an exogenous process; the estimation is that of
`C84_criterion_of_exogenous_models_partial`. -/
example : ∃ p sp, processModel unitEnv exogenousUser = some p ∧ ∃ la, ∃ exact : ℝ, ∀ ε : ℝ, 0 < ε → ∃ K : ℝ, ∀ n,
    0 < n → ∃ value : ((k : Nat × Nat × Nat × Nat) → Fin k.1 → ℝ) → ℝ,
      (∀ ω, ((p.estimation textEval { estimateEnv la 1 with data := [⟨7, ⟨⟨1, [1], []⟩, [1, 0]⟩, 1, none⟩] }
        (some sp)).withNumbers n fun _ size seed row i => ω (size, seed, row, i)).logLike () = some (value ω)) ∧
      independentNormals {ω | ε ≤ |value ω - exact|} ≤ ENNReal.ofReal (K / n) := by
  obtain ⟨p, core, hp, hcore, hs, hexo, hnt, hobs, hnames, hk, hl, hnd, hother, hfit, hall, hpts, la, he⟩ :=
    exogenousUser_hypotheses
  obtain ⟨bt, sp, V, _, _, _, h⟩ := C116_accepted_models_with_processes_partial hp textEval_contract hs hcore hexo
    [("able".toList, 2)] hnt hobs hnames hk hl hnd hother
    exampleSolveEnv hfit hall hpts firstRandom firstRandom_contract id (fun _ _ => []) 100 0
    (fun bt => initialValues bt.space) (fun bt => SameShape.refl _) id id _ he
  obtain ⟨exact, _, hlim⟩ := h
  refine ⟨p, sp, hp, la, exact, fun ε hε => ?_⟩
  obtain ⟨K, hK⟩ := hlim ε hε
  exact ⟨K, fun n hn => hK _ independentNormals n hn (fun _ size seed row i ω => ω (size, seed, row, i))
    (fun _ size seed row => independentNormals_standard n size seed row)⟩

end Respy
