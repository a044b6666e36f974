import Verif.Props.InterpolationPoints
import Verif.Props.Comparative

/-!
# C100: a concrete model
-/

namespace Respy

/-- The example without restrictions and with seventeen interpolation points. -/
noncomputable def fewPointsUser : UserModel := { exampleUser with points := 17, negativeChoiceSet := [] }

/-- A test of the properties of the model. -/
noncomputable def fewPointsCheck (p : Processed) : Bool :=
  supportedCheck fewPointsUser p && decide (p.choices.choices = ["b".toList, "a".toList]) &&
  decide (p.choices.wExp = ["b".toList]) && decide (p.userRestrictions fewPointsUser "a".toList = []) &&
  decide (p.nPeriods = 3) && decide (p.points = 17) && decide (p.exogenous.length = 0) &&
  reprocessableCheck fewPointsUser p && decide (denseGrid p.denseSpec = some [[0, 0], [0, 1], [1, 0], [1, 1]]) &&
  (createCore (p.buildSpec textEval).core).any fun core =>
    decide (((p.buildSpec textEval).statesOfPeriod core 2).length = 24)

theorem fewPointsUser_check : (processModel exampleEnv fewPointsUser).any fewPointsCheck = true := by decide +kernel

theorem fewPointsUser_hypotheses : ∃ p core, processModel exampleEnv fewPointsUser = some p ∧
    fewPointsUser.Reprocessable p ∧ createCore (p.buildSpec textEval).core = some core ∧
    p.Supported fewPointsUser textEval core ∧ p.exogenous = [] ∧ exampleSolveEnv.Fits (p.buildSpec textEval) core ∧
    (∀ d ∈ (p.buildSpec textEval).denseIndices, ∀ s ∈ core,
      ∃ c ∈ p.choices.choices, p.Allowed fewPointsUser textEval d s c) ∧
    (∀ δ : ℝ, (p.buildSpec textEval).PointsSuffice core δ) ∧ (p.buildSpec textEval).Interpolates core 2 := by
  obtain ⟨p, hp, hcheck⟩ := (Option.any_eq_true _ _).1 fewPointsUser_check
  unfold fewPointsCheck at hcheck
  simp only [Bool.and_eq_true] at hcheck
  obtain ⟨⟨⟨⟨⟨⟨⟨⟨⟨h1, h2⟩, h3⟩, h4⟩, h5⟩, h6⟩, h7⟩, h8⟩, h9⟩, h10⟩ := hcheck
  have h2 := of_decide_eq_true h2
  have h3 := of_decide_eq_true h3
  have h4 := of_decide_eq_true h4
  have h5 := of_decide_eq_true h5
  have hpts : (p.buildSpec textEval).points = 17 := of_decide_eq_true h6
  obtain ⟨core, hcore, hs⟩ := supported_of_check _ p h1
  have hall : ∀ d s, p.Allowed fewPointsUser textEval d s "a".toList := fun d s =>
    allowed_of_unrestricted _ p _ d s _ h4 (by rw [h3]; decide)
  refine ⟨p, core, hp, reprocessable_of_check _ _ h8, hcore, hs, List.length_eq_zero_iff.1 (of_decide_eq_true h7),
    exampleSolveEnv_fits p core h5 (by rw [h2]; rfl), fun d _ s _ => ⟨"a".toList, by rw [h2]; simp, hall d s⟩, ?_, ?_⟩
  · intro δ _ t _ _
    rw [hpts]
    omega
  · rw [hcore] at h10
    have h10 := of_decide_eq_true h10
    have hden : (p.buildSpec textEval).denseIndices = [some 0, some 1, some 2, some 3] := by
      have : (p.buildSpec textEval).grid = some [[0, 0], [0, 1], [1, 0], [1, 1]] := of_decide_eq_true h9
      unfold BuildSpec.denseIndices
      rw [this]; rfl
    refine ⟨by rw [hpts, h10]; decide, ?_⟩
    have hsub : (p.buildSpec textEval).groupsOfPeriod core 2 ⊆
        [some 0, some 1, some 2, some 3].product [[true, true], [false, true]] := by
      intro g hg
      obtain ⟨hd, s, hsc, _, he⟩ := (mem_groupsOfPeriod ..).1 hg
      refine List.mem_product.2 ?_
      refine ⟨hden ▸ hd, ?_⟩
      have hone := (C82_choice_sets_by_name hp textEval_contract hs.toDescribed hcore g.1 hd s hsc 1 "a".toList
        (by rw [h2]; rfl)).2 (hall _ _)
      have hlen : ((p.buildSpec textEval).choiceSetAt g.1 s).length = 2 := by
        have : p.choices.choices.length = 2 := by rw [h2]; rfl
        rw [← this]
        cases g.1 <;> simp [BuildSpec.choiceSetAt, choiceSet, Processed.buildSpec, Processed.restrictions]
      rw [he] at hone hlen
      match hg2 : g.2 with
      | [x, y] =>
        rw [hg2] at hone
        cases hone
        cases x <;> simp
      | [] => rw [hg2] at hlen; cases hlen
      | [_] => rw [hg2] at hlen; cases hlen
      | _ :: _ :: _ :: _ => rw [hg2] at hlen; simp at hlen
    have hle := ((List.nodup_dedup _).subperm hsub).length_le
    have h8 : ([some 0, some 1, some 2, some 3].product [[true, true], [false, true]]).length = 8 := rfl
    rw [hpts]
    unfold BuildSpec.groupsOfPeriod at hle ⊢
    omega

/-- Other parameters with the index of `fewPointsUser`. -/
theorem fewPoints_index : fewPointsUser.SameIndex exampleTheta :=
  ⟨exampleTheta_index.index, exampleTheta_index.max⟩

/-- The hypotheses of `C100_solve_function_partial` hold, the last period is interpolated, and the model is solved at two
vectors of parameters with the same simulated states. -/
example : ∃ (p : Processed) (core : List CoreState) (solve : Dict (Str × Str) ℝ → Option (SimSpace ℝ)) (bt : Built)
      (states : Nat → Option Nat × List Bool → List CoreState)
      (simulated : Nat → Option Nat × List Bool → CoreState → Bool),
    processModel exampleEnv fewPointsUser = some p ∧ (p.buildSpec textEval).Interpolates core 2 ∧
    getSolveFunc exampleEnv textEval exampleRoutines fewPointsUser = some solve ∧
    buildSpace (p.buildSpec textEval) = some bt ∧
    ∀ θ ∈ [fewPointsUser.params, exampleTheta], ∃ q, processModel exampleEnv { fewPointsUser with params := θ } = some q ∧
      (q.discount.delta ≠ 0 → ∃ par ev1 V,
        solve θ = some (bt.simSpace (p.buildSpec textEval) par ev1 id id) ∧
        IsInterpolatedSolutionAt (p.buildSpec textEval) core q.discount.delta (q.solveInput textEval exampleSolveEnv).wageOf
          (q.solveInput textEval exampleSolveEnv).nonpecOf (q.solveInput textEval exampleSolveEnv).shocks
          (fun d _ => [(d, 1)]) (expectedShock Real.exp 1 q.choices.wWage.length q.cholesky) id (fun _ _ => []) states
          simulated V) := by
  obtain ⟨p, core, hp, hr, hcore, hs, hexo, hfit, hall, hpts, hint⟩ := fewPointsUser_hypotheses
  obtain ⟨solve, bt, states, simulated, h1, h2, h3⟩ := C100_solve_function_partial hp hr exampleRoutines
    textEval_contract hs hcore hexo (fun _ _ h1 h2 => ⟨h1, h2⟩) (by decide +kernel) (exampleShocks _ (by decide +kernel))
    hfit firstRandom_contract (fun _ => SameShape.refl _)
  refine ⟨p, core, solve, bt, states, simulated, hp, hint, h1, h2, ?_⟩
  have main : ∀ θ, fewPointsUser.SameIndex θ → ∃ q,
      processModel exampleEnv { fewPointsUser with params := θ } = some q ∧
      (q.discount.delta ≠ 0 → ∃ par ev1 V,
        solve θ = some (bt.simSpace (p.buildSpec textEval) par ev1 id id) ∧
        IsInterpolatedSolutionAt (p.buildSpec textEval) core q.discount.delta (q.solveInput textEval exampleSolveEnv).wageOf
          (q.solveInput textEval exampleSolveEnv).nonpecOf (q.solveInput textEval exampleSolveEnv).shocks
          (fun d _ => [(d, 1)]) (expectedShock Real.exp 1 q.choices.wWage.length q.cholesky) id (fun _ _ => []) states
          simulated V) := by
    intro θ hθ
    obtain ⟨q, solve', sp, _, hq, hsolve, hsp, _⟩ := C85_solution_at_parameters_partial hp hr exampleRoutines θ
      hθ textEval_contract hs hcore hexo (fun _ _ h1 h2 => ⟨h1, h2⟩) (by decide +kernel)
      (exampleShocks _ (by decide +kernel)) hfit hall (fun _ _ => hpts _) firstRandom_contract
      (fun _ => SameShape.refl _)
    rw [h1] at hsolve
    cases hsolve
    refine ⟨q, hq, fun hd => ?_⟩
    obtain ⟨par, ev1, V, e1, e2, _⟩ := h3 θ hθ q hq hd sp hsp
    exact ⟨par, ev1, V, by rw [hsp, e1]; rfl, e2⟩
  intro θ hθ
  rcases List.mem_cons.1 hθ with rfl | hθ
  · exact main _ ⟨rfl, fun _ => rfl⟩
  · rw [List.mem_singleton.1 hθ]
    exact main _ fewPoints_index

end Respy
