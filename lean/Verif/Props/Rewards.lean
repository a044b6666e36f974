import Verif.Lemmas.Rewards
import Verif.Props.EndToEnd
import Verif.Props.StateSpace
import Mathlib.Algebra.Order.Ring.Rat
import Mathlib.Algebra.Field.Rat

/-!
# C71: rewards and shocks of the solution

The arrays of wages, non-pecuniary rewards and shocks which the solution uses are the ones of the model,
and together with C70: from the parameters to the value function.
-/

set_option linter.unusedSectionVars false

namespace Respy

variable {K : Type _} [Field K] [LinearOrder K] [IsStrictOrderedRing K]

/-- **C71.** In a sound state space the objects of all dense keys are computed without an exception.
Row `i`, column `j` of the wages of a dense key is the exponential of `Σ β x` with the covariates of the
`i`-th state of the dense key and the parameters of the `j`-th admissible alternative (one if there are
no parameters), non-pecuniary rewards are `Σ β x` (zero if there are no parameters), and the draws are
the shocks of the admissible alternatives, computed from standard normal numbers which are the same for
all dense keys of a period with the same number of alternatives. -/
theorem C71_objects_of_parameters (b : BuildSpec) (core : List CoreState) (wf : b.WF core)
    (tr : Option (Dict Nat (List Bool))) (bt : Built) (h : bt.Sound b core tr) (inp : SolveInput K)
    (hinp : inp.WF b core) (transition : Dict Nat (List (Nat × List K))) :
    ∃ par, inp.paramObjects bt transition = some par ∧ par.delta = inp.delta ∧
      par.transition = transition ∧
      ∀ (k : Nat) c sts, bt.space.complexes[k]? = some c → bt.states[k]? = some sts →
        ∃ wages nonpecs draws, Dict.get? par.wages k = some wages ∧
          Dict.get? par.nonpecs k = some nonpecs ∧ Dict.get? par.draws k = some draws ∧
          (∀ (i j : Nat) s a, sts[i]? = some s → (validChoices c.choiceSet)[j]? = some a →
            (wages[i]?).bind (·[j]?) = some (inp.wageOf c.dense s a) ∧
            (nonpecs[i]?).bind (·[j]?) = some (inp.nonpecOf c.dense s a)) ∧
          draws.length = (inp.baseOf c.period (c.choiceSet.count true)).length ∧
          ∀ (i j : Nat) z a, (inp.baseOf c.period (c.choiceSet.count true))[i]? = some z →
            (validChoices c.choiceSet)[j]? = some a →
            (draws[i]?).bind (·[j]?) = some (shockOf inp.exp inp.lo inp.hi inp.cholesky inp.nWages
              c.choiceSet (shocksOf c.choiceSet z) a) := by
  obtain ⟨par, h1, h2, h3, hfit⟩ := hinp.paramsFit wf h transition
  refine ⟨par, h1, h2, h3, ?_⟩
  intro k c sts hk hsts
  refine ⟨_, _, _, hfit.wages k c sts hk hsts, hfit.nonpecs k c sts hk hsts, (hfit.draws k c hk).1, ?_,
    ?_, ?_⟩
  · intro i j s a hi hj
    simp [List.getElem?_map, hi, hj]
  · simp [SolveInput.transformedRows]
  · intro i j z a hi hj
    simp [SolveInput.transformedRows, List.getElem?_map, hi, hj]

/-- **C70 and C71 together (partial).** From the parameters to the value function: for a well-formed
model and inputs which fit, the state space is created, the objects are created, the backward induction
succeeds, and the stored values are the value function for the rewards `exp (Σ β x)`, `Σ β x` and the
shocks of the model. Missing: as in `C70_solution_is_value_function_partial`; exogenous processes are
the subject of `C70_exogenous_solution_partial`. -/
theorem C70_solution_from_parameters_partial (b : BuildSpec) (core : List CoreState) (wf : b.WF core)
    (hexo : b.exogLevels = [])
    (hpts : ∀ t, (core.filter fun s => decide (s.period = t)).length * b.denseIndices.length ≤
      b.points) (inp : SolveInput K) (hinp : inp.WF b core) (hdelta : inp.delta ≠ 0) :
    ∃ bt par, buildSpace b = some bt ∧ inp.paramObjects bt [] = some par ∧
      ∀ (interp : Interpolation K) (seed : Nat) (ev0 : Dict Nat (List K)),
        SameShape (initialValues bt.space) ev0 →
        (solveBackward bt.space interp par seed ev0).2 = true ∧
        ∃ V, IsValueFunction b core inp.delta inp.wageOf inp.nonpecOf inp.shocks
            (fun d _ => [(d, 1)]) V ∧
          ∀ d ∈ b.denseIndices, ∀ s ∈ core,
            bt.ValueAt (solveBackward bt.space interp par seed ev0).1 d s (V d s) := by
  obtain ⟨bt, hbuild, hsnd⟩ := buildSpace_noExogenous b core wf hexo
  obtain ⟨par, h1, h2, h3, hfit⟩ := hinp.paramsFit wf hsnd []
  refine ⟨bt, par, hbuild, h1, ?_⟩
  intro interp seed ev0 hs
  obtain ⟨hok, V, hV, hval⟩ := hsnd.solution wf hpts interp par _ _ _ (fun d _ => [(d, (1 : K))]) (by
    intro d hd s _ fp hfp
    simp only [List.mem_singleton] at hfp
    subst hfp; exact hd) hfit (hsnd.continuationIs par) (by rw [h2]; exact hdelta) seed ev0 hs
  rw [h2] at hV
  exact ⟨hok, V, hV.of_rows, hval⟩

/-! A concrete case: the model `exampleSpec` with two types. -/

/-- The example model with two types. -/
def exampleBuild : BuildSpec where
  core := exampleSpec
  restrCore := exampleRestr
  restr := fun _ => exampleRestr
  grid := some [[0], [1]]
  exogLevels := []
  points := 1000

/-- Rewards of the first two choices depend on experience and type and there is one draw of zeros. -/
def exampleInputOf {K : Type _} [Field K] (exp : K → K) : SolveInput K where
  exp := exp
  lo := -100
  hi := 100
  rewards := { wage := fun a => if a < 2 then some [("exp_a".toList, 1 / 2), ("type".toList, 2)] else none
               nonpec := fun a => if a = 2 then some [("constant".toList, 3)] else none }
  covariates := fun d s name =>
    some (if name = "exp_a".toList then (((s.exp[0]?).getD 0 : Nat) : K)
      else if name = "type".toList then ((d.getD 0 : Nat) : K) else 1)
  cholesky := [[1, 0, 0], [1 / 2, 1, 0], [0, 0, 1]]
  nWages := 2
  delta := 95 / 100
  base := fun n _ => List.replicate 3 [List.replicate n 0]
  sizes := [3, 2, 1]
  seed := 7

/-- Rational inputs; the exponential function is replaced by a rational function. -/
def exampleInput : SolveInput ℚ := exampleInputOf fun x => 1 + x

theorem exampleInputOf_wf (exp : K → K) (b : BuildSpec) (core : List CoreState)
    (hn : b.core.nPeriods = 3) (hcs : ∀ d s, b.choiceSetAt d s = choiceSet exampleRestr s) :
    (exampleInputOf exp).WF b core := by
  refine ⟨?_, ?_, ?_, ?_, ?_, ?_⟩
  · intro a beta hb item hi d _ s _
    rfl
  · intro a beta hb item hi d _ s _
    rfl
  · intro d _ s _
    rw [hcs]
    have h1 : (choiceSet exampleRestr s) =
      [!defaultInadmissible exampleSpec s 0, !defaultInadmissible exampleSpec s 1, true] := rfl
    rw [h1]
    show _ ∈ [3, 2, 1]
    cases defaultInadmissible exampleSpec s 0 <;> cases defaultInadmissible exampleSpec s 1 <;> decide
  · intro n seed
    refine ⟨by rw [hn]; rfl, ?_⟩
    intro arr ha row hr
    have := List.eq_of_mem_replicate ha
    subst this
    simp only [List.mem_singleton] at hr
    subst hr; simp
  · intro row hr
    have hr : row ∈ [[1, 0, 0], [1 / 2, 1, 0], [0, 0, (1 : K)]] := hr
    simp only [List.mem_cons, List.not_mem_nil, or_false] at hr
    rcases hr with rfl | rfl | rfl <;> rfl
  · intro d _ s _; rw [hcs]; rfl

theorem exampleBuild_wf : ∃ core, exampleBuild.WF core ∧ core.length ≤ 100 := by
  have hc : ∃ core, createCore exampleSpec = some core ∧ core.length ≤ 100 := by
    cases h : createCore exampleSpec with
    | none => exact absurd h (by decide +kernel)
    | some core =>
      refine ⟨core, rfl, ?_⟩
      have : (createCore exampleSpec).all (fun c => decide (c.length ≤ 100)) = true := by decide +kernel
      rw [h] at this
      simpa using this
  obtain ⟨core, hc, hl⟩ := hc
  refine ⟨core, C70_unfiltered_models_well_formed exampleBuild core exampleSpec_wf (by decide) rfl hc
    (by decide) exampleSpec_lowest (fun grid hg => ?_) (fun _ => rfl) rfl ?_, hl⟩
  · cases hg
    exact ⟨by simp, by decide⟩
  intro c formulas hc hf
  match c, hc with
  | 0, _ => simp [exampleBuild, exampleRestr] at hf; subst hf; simp [exampleBuild]
  | 1, _ => simp [exampleBuild, exampleRestr] at hf; subst hf; simp [exampleBuild]

/-- The hypotheses are met by the example. -/
example : ∃ core, exampleBuild.WF core ∧ exampleBuild.exogLevels = [] ∧
    (∀ t, (core.filter fun s => decide (s.period = t)).length * exampleBuild.denseIndices.length ≤
      exampleBuild.points) ∧ exampleInput.WF exampleBuild core ∧ exampleInput.delta ≠ 0 := by
  obtain ⟨core, wf, hl⟩ := exampleBuild_wf
  have hcs : ∀ d s, exampleBuild.choiceSetAt d s = choiceSet exampleRestr s := by
    intro d s; cases d <;> rfl
  refine ⟨core, wf, rfl, ?_, ?_, by decide +kernel⟩
  · intro t
    have h1 := List.length_filter_le (fun s : CoreState => decide (s.period = t)) core
    have h2 : exampleBuild.denseIndices.length = 2 := rfl
    have h3 : exampleBuild.points = 1000 := rfl
    rw [h2, h3]; omega
  · exact exampleInputOf_wf _ exampleBuild core rfl hcs

end Respy
