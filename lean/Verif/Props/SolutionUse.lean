import Verif.Props.InterpolatedSolution
import Verif.Props.LogLike
import Verif.Props.SimulateModel

/-!
# C73 and C79 for all solutions

Simulated samples and the criterion function of models which are solved with interpolation or with a
discount factor of zero.
-/

set_option linter.unusedSectionVars false

namespace Respy

section General

variable {K : Type} [Field K] [LinearOrder K] [IsStrictOrderedRing K] {G P : Type}

/-- **C73** for all solutions of models without exogenous processes: any number of interpolation points
with which the model can be solved and any discount factor. Solving and simulating succeed, and the sample
is a balanced panel which follows the model with the values `V`, which solve the model with
interpolation. -/
theorem C73_sample_of_any_solution (b : BuildSpec) (core : List CoreState) (wf : b.WF core)
    (hexo : b.exogLevels = []) (hb : b.StartsInCore) (levels : List (List Nat))
    (hlev : b.DenseLevels levels) (hnd : ∀ l ∈ levels, l.Nodup)
    (hcs : ∀ d ∈ b.denseIndices, ∀ s ∈ core, ∃ a : Nat, (b.choiceSetAt d s)[a]? = some true)
    (inp : SolveInput K) (hinp : inp.WF b core) (hpts : b.PointsSuffice core inp.delta)
    (rng : InterpolationRandom) (hrng : rng.Contract) (sqrt : K → K)
    (ols : List K → List (List K) → List K) (maxLog : K) (seed : Nat)
    (ev0 : Built → Dict Nat (List K)) (hev0 : ∀ bt, SameShape (initialValues bt.space) (ev0 bt))
    (vc ko : List Nat → List Nat) (hvc : ∀ l x, x ∈ vc l ↔ x ∈ l) (hko : ∀ l x, x ∈ ko l ↔ x ∈ l) :
    ∃ bt sp V, buildSpace b = some bt ∧
      inp.solveModel b (fun _ => some []) (kw94 bt.space rng sqrt ols
        (expShocks inp.exp maxLog inp.nWages inp.cholesky)) seed ev0 vc ko = some sp ∧
      IsSolution b core inp.delta inp.wageOf inp.nonpecOf inp.shocks (fun d _ => [(d, 1)])
        (expectedShock inp.exp maxLog inp.nWages inp.cholesky) sqrt ols V ∧
      ∀ (sim : Simulation K G P) (params : P), sim.solve params = some sp →
        sim.Fits b core levels params → ∀ g,
        SampleFollows b core inp.wageOf inp.nonpecOf (fun d _ => [(d, 1)]) V sim params g := by
  obtain ⟨bt, par, hbuild, h1, hsol⟩ := solution_all b core wf hexo inp hinp hcs hpts rng hrng sqrt ols maxLog
  obtain ⟨hok, V, hVF, hV⟩ := hsol seed (ev0 bt) (hev0 bt)
  obtain ⟨bt', hbuild', hsnd⟩ := buildSpace_noExogenous b core wf hexo
  rw [hbuild] at hbuild'; cases hbuild'
  obtain ⟨par', h1', _, _, hfit⟩ := hinp.paramsFit wf hsnd []
  rw [h1] at h1'; cases h1'
  refine ⟨bt, bt.simSpace b par (solveBackward bt.space (kw94 bt.space rng sqrt ols
    (expShocks inp.exp maxLog inp.nWages inp.cholesky)) par seed (ev0 bt)).1 vc ko, V, hbuild, ?_, hVF, ?_⟩
  · unfold SolveInput.solveModel
    simp only [hbuild, h1, Option.bind_eq_bind, Option.bind_some, hok, if_true]
  · intro sim params hsolve hfits g
    exact (hsnd.solved_noExogenous wf hexo hbuild (hlev.nodup hnd) hfit).sampleFollows hb levels hlev
      ((hev0 bt).trans (backwardLoop_shape _ _ _ _ _ _)) hV vc ko hvc hko sim params hsolve hfits g

/-- **C80.** `solve` returns a solution if and only if the interpolation points suffice, and raises an exception
otherwise: a model is never used with values of a period which could not be computed. -/
theorem C80_model_solved_iff (b : BuildSpec) (core : List CoreState) (wf : b.WF core)
    (hexo : b.exogLevels = [])
    (hcs : ∀ d ∈ b.denseIndices, ∀ s ∈ core, ∃ a : Nat, (b.choiceSetAt d s)[a]? = some true)
    (inp : SolveInput K) (hinp : inp.WF b core)
    (rng : InterpolationRandom) (hrng : rng.Contract) (sqrt : K → K)
    (ols : List K → List (List K) → List K) (maxLog : K) :
    ∃ bt, buildSpace b = some bt ∧
      ∀ (seed : Nat) (ev0 : Built → Dict Nat (List K)), SameShape (initialValues bt.space) (ev0 bt) →
        ∀ vc ko : List Nat → List Nat,
        ((inp.solveModel b (fun _ => some []) (kw94 bt.space rng sqrt ols
          (expShocks inp.exp maxLog inp.nWages inp.cholesky)) seed ev0 vc ko).isSome ↔
            b.PointsSuffice core inp.delta) := by
  by_cases hd : inp.delta = 0
  · obtain ⟨bt, par, h1, h2, h3⟩ := C80_zero_discount_factor b core wf hexo inp hinp hd
    refine ⟨bt, h1, fun seed ev0 hs vc ko => ⟨fun _ h => absurd hd h, fun _ => ?_⟩⟩
    obtain ⟨g1, _⟩ := h3 (kw94 bt.space rng sqrt ols
      (expShocks inp.exp maxLog inp.nWages inp.cholesky)) seed (ev0 bt) hs
    unfold SolveInput.solveModel
    simp only [h1, h2, Option.bind_eq_bind, Option.bind_some, g1, if_true, Option.isSome_some]
  · obtain ⟨bt, par, h1, h2, h3⟩ := C80_solution_with_interpolation b core wf hexo inp hinp hd hcs rng hrng
      sqrt ols maxLog
    refine ⟨bt, h1, fun seed ev0 hs vc ko => ?_⟩
    obtain ⟨g1, _⟩ := h3 seed (ev0 bt) hs
    have hps : b.PointsSuffice core inp.delta ↔ _ := ⟨fun h => g1.2 (h hd), fun h _ => g1.1 h⟩
    rw [hps]
    unfold SolveInput.solveModel
    simp only [h1, h2, Option.bind_eq_bind, Option.bind_some]
    split
    · rename_i h; simpa using h
    · rename_i h; simpa using h

end General

section Reals

variable {G P : Type}

/-- **C73** for all solutions of models with exogenous processes. -/
theorem C73_exogenous_sample_of_any_solution (b : BuildSpec) (core : List CoreState) (wf : b.WF core)
    (static : List (List Nat)) (hx : b.ExogWF static) (hb : b.StartsInCore)
    (hcs : ∀ d ∈ b.denseIndices, ∀ s ∈ core, ∃ a : Nat, (b.choiceSetAt d s)[a]? = some true)
    (inp : SolveInput ℝ) (hinp : inp.WF b core) (hpts : b.PointsSuffice core inp.delta)
    (ep : ExogenousParams) (hep : ep.map List.length = b.exogLevels) (hlev : ∀ levels ∈ ep, levels ≠ [])
    (hcov : ∀ levels ∈ ep, ∀ beta ∈ levels, ∀ item ∈ beta, ∀ d ∈ b.denseIndices, ∀ s ∈ core,
      (inp.covariates d s item.1).isSome)
    (rng : InterpolationRandom) (hrng : rng.Contract) (sqrt : ℝ → ℝ)
    (ols : List ℝ → List (List ℝ) → List ℝ) (maxLog : ℝ) (seed : Nat)
    (ev0 : Built → Dict Nat (List ℝ)) (hev0 : ∀ bt, SameShape (initialValues bt.space) (ev0 bt))
    (vc ko : List Nat → List Nat) (hvc : ∀ l x, x ∈ vc l ↔ x ∈ l) (hko : ∀ l x, x ∈ ko l ↔ x ∈ l) :
    ∃ bt sp V, buildSpace b = some bt ∧
      inp.solveModel b (inp.transitions ep b) (kw94 bt.space rng sqrt ols
        (expShocks inp.exp maxLog inp.nWages inp.cholesky)) seed ev0 vc ko = some sp ∧
      IsSolution b core inp.delta inp.wageOf inp.nonpecOf inp.shocks
        (fun d s => (exogenousGrid b.exogLevels).map fun e =>
          (b.successor d e, levelProbability ep (inp.covariates d s) e))
        (expectedShock inp.exp maxLog inp.nWages inp.cholesky) sqrt ols V ∧
      ∀ (sim : Simulation ℝ G P) (params : P), sim.solve params = some sp →
        sim.Fits b core (static ++ b.exogLevels.map List.range) params → ∀ g,
        SampleFollows b core inp.wageOf inp.nonpecOf
          (fun d s => (exogenousGrid b.exogLevels).map fun e =>
            (b.successor d e, levelProbability ep (inp.covariates d s) e)) V sim params g := by
  obtain ⟨bt0, tr0, par0, hbuild0, ht0, hp0, hsol⟩ := solution_all_exogenous b core wf static hx inp hinp ep
    hep hlev hcov hcs hpts rng hrng sqrt ols maxLog
  obtain ⟨bt, reps, hbuild, hsnd, htr, hdpc⟩ := buildSpace_exogenous b core wf static hx
  rw [hbuild0] at hbuild; cases hbuild
  obtain ⟨transition, ht, hfit⟩ := inp.transitions_fit ep b core wf static hx hep hcov bt0 reps hsnd hdpc
  rw [ht0] at ht; cases ht
  obtain ⟨par, h1, h2, h3, hpf⟩ := hinp.paramsFit wf hsnd tr0
  rw [hp0] at h1; cases h1
  obtain ⟨hok, V, hVF, hV⟩ := hsol seed (ev0 bt0) (hev0 bt0)
  refine ⟨bt0, bt0.simSpace b par0 (solveBackward bt0.space (kw94 bt0.space rng sqrt ols
    (expShocks inp.exp maxLog inp.nWages inp.cholesky)) par0 seed (ev0 bt0)).1 vc ko, V, hbuild0, ?_, hVF, ?_⟩
  · unfold SolveInput.solveModel
    simp only [hbuild0, ht0, hp0, Option.bind_eq_bind, Option.bind_some, hok, if_true]
  · intro sim params hsolve hfits g
    have hprob := fun d s => (C19_level_probabilities ep hlev (inp.covariates d s)).2
    have hne : exogenousGrid b.exogLevels ≠ [] := by
      intro h0
      have := hprob none ⟨0, [], []⟩
      rw [hep, h0] at this
      simp at this
    refine (hsnd.solved_exogenous wf hx htr hdpc hpf
      (fun d s e => levelProbability ep (inp.covariates d s) e) (by rw [h3]; exact hfit) hne ?_).sampleFollows
      hb _ ?_ ((hev0 bt0).trans (backwardLoop_shape _ _ _ _ _ _)) hV vc ko hvc hko sim params hsolve hfits g
    · intro d _ s _
      by_contra hcon
      push Not at hcon
      have := hprob d s
      rw [hep, List.map_congr_left (g := fun _ => (0 : ℝ)) (fun e he => hcon e he)] at this
      simp at this
    · unfold BuildSpec.DenseLevels
      rw [hx.grid]

/-- **C79** for all solutions of models without exogenous processes: any number of interpolation points
with which the model can be solved and any discount factor. -/
theorem C79_criterion_of_any_solution (b : BuildSpec) (core : List CoreState) (wf : b.WF core)
    (hexo : b.exogLevels = []) (levels : List (List Nat)) (hlev : b.DenseLevels levels)
    (hnd : ∀ l ∈ levels, l.Nodup)
    (hcs : ∀ d ∈ b.denseIndices, ∀ s ∈ core, ∃ a : Nat, (b.choiceSetAt d s)[a]? = some true)
    (e : Estimation P) :
    ∃ bt size source, buildSpace b = some bt ∧ ∀ (inp : SolveInput ℝ), inp.WF b core →
      b.PointsSuffice core inp.delta → ∀ (rng : InterpolationRandom), rng.Contract →
      ∀ (sqrt : ℝ → ℝ) (ols : List ℝ → List (List ℝ) → List ℝ) (maxLog : ℝ) (seed : Nat)
        (ev0 : Built → Dict Nat (List ℝ)),
      (∀ bt, SameShape (initialValues bt.space) (ev0 bt)) → ∀ (vc ko : List Nat → List Nat),
      ∃ sp V, inp.solveModel b (fun _ => some []) (kw94 bt.space rng sqrt ols
          (expShocks inp.exp maxLog inp.nWages inp.cholesky)) seed ev0 vc ko = some sp ∧
        IsSolution b core inp.delta inp.wageOf inp.nonpecOf inp.shocks (fun d _ => [(d, 1)])
          (expectedShock inp.exp maxLog inp.nWages inp.cholesky) sqrt ols V ∧
        ∀ params : P, e.solve params = some sp → e.Fits b core inp.wageOf params →
          CriterionFollows b inp.wageOf inp.nonpecOf (fun d _ => [(d, 1)]) V size source e params := by
  obtain ⟨bt, hbuild, hsnd⟩ := buildSpace_noExogenous b core wf hexo
  let rows := (e.located (bt.simSpace b ⟨[], [], [], 0, []⟩ [] id id)).getD []
  refine ⟨bt, e.sizeOf bt.space.complexes rows, e.sourceOf rows, hbuild, ?_⟩
  intro inp hinp hpts rng hrng sqrt ols maxLog seed ev0 hev0 vc ko
  obtain ⟨bt', par, hbuild', h1, hsol⟩ :=
    solution_all b core wf hexo inp hinp hcs hpts rng hrng sqrt ols maxLog
  rw [hbuild] at hbuild'; cases hbuild'
  obtain ⟨hok, V, hVF, hV⟩ := hsol seed (ev0 bt) (hev0 bt)
  obtain ⟨par', h1', _, _, hfit⟩ := hinp.paramsFit wf hsnd []
  rw [h1] at h1'; cases h1'
  refine ⟨bt.simSpace b par (solveBackward bt.space (kw94 bt.space rng sqrt ols
    (expShocks inp.exp maxLog inp.nWages inp.cholesky)) par seed (ev0 bt)).1 vc ko, V, ?_, hVF, ?_⟩
  · unfold SolveInput.solveModel
    simp only [hbuild, h1, Option.bind_eq_bind, Option.bind_some, hok, if_true]
  · intro params hsolve hfits
    exact (hsnd.solved_noExogenous wf hexo hbuild (hlev.nodup hnd) hfit).criterion
      ((hev0 bt).trans (backwardLoop_shape _ _ _ _ _ _)) hV vc ko e params hsolve hfits rows rfl

/-- **C79** for all solutions of models with exogenous processes. -/
theorem C79_exogenous_criterion_of_any_solution (b : BuildSpec) (core : List CoreState) (wf : b.WF core)
    (static : List (List Nat)) (hx : b.ExogWF static)
    (hcs : ∀ d ∈ b.denseIndices, ∀ s ∈ core, ∃ a : Nat, (b.choiceSetAt d s)[a]? = some true)
    (e : Estimation P) :
    ∃ bt size source, buildSpace b = some bt ∧ ∀ (inp : SolveInput ℝ), inp.WF b core →
      b.PointsSuffice core inp.delta →
      ∀ (ep : ExogenousParams), ep.map List.length = b.exogLevels → (∀ levels ∈ ep, levels ≠ []) →
      (∀ levels ∈ ep, ∀ beta ∈ levels, ∀ item ∈ beta, ∀ d ∈ b.denseIndices, ∀ s ∈ core,
        (inp.covariates d s item.1).isSome) → ∀ (rng : InterpolationRandom), rng.Contract →
      ∀ (sqrt : ℝ → ℝ) (ols : List ℝ → List (List ℝ) → List ℝ) (maxLog : ℝ) (seed : Nat)
        (ev0 : Built → Dict Nat (List ℝ)),
      (∀ bt, SameShape (initialValues bt.space) (ev0 bt)) → ∀ (vc ko : List Nat → List Nat),
      ∃ sp V, inp.solveModel b (inp.transitions ep b) (kw94 bt.space rng sqrt ols
          (expShocks inp.exp maxLog inp.nWages inp.cholesky)) seed ev0 vc ko = some sp ∧
        IsSolution b core inp.delta inp.wageOf inp.nonpecOf inp.shocks
          (fun d s => (exogenousGrid b.exogLevels).map fun e =>
            (b.successor d e, levelProbability ep (inp.covariates d s) e))
          (expectedShock inp.exp maxLog inp.nWages inp.cholesky) sqrt ols V ∧
        ∀ params : P, e.solve params = some sp → e.Fits b core inp.wageOf params →
          CriterionFollows b inp.wageOf inp.nonpecOf
            (fun d s => (exogenousGrid b.exogLevels).map fun e =>
              (b.successor d e, levelProbability ep (inp.covariates d s) e)) V size source e params := by
  obtain ⟨bt, reps, hbuild, hsnd, htr, hdpc⟩ := buildSpace_exogenous b core wf static hx
  let rows := (e.located (bt.simSpace b ⟨[], [], [], 0, []⟩ [] id id)).getD []
  refine ⟨bt, e.sizeOf bt.space.complexes rows, e.sourceOf rows, hbuild, ?_⟩
  intro inp hinp hpts ep hep hlev hcov rng hrng sqrt ols maxLog seed ev0 hev0 vc ko
  obtain ⟨bt0, tr0, par0, hbuild0, ht0, hp0, hsol⟩ := solution_all_exogenous b core wf static hx inp hinp ep
    hep hlev hcov hcs hpts rng hrng sqrt ols maxLog
  rw [hbuild] at hbuild0; cases hbuild0
  obtain ⟨transition, ht, hfit⟩ := inp.transitions_fit ep b core wf static hx hep hcov bt reps hsnd hdpc
  rw [ht0] at ht; cases ht
  obtain ⟨par, h1, h2, h3, hpf⟩ := hinp.paramsFit wf hsnd tr0
  rw [hp0] at h1; cases h1
  obtain ⟨hok, V, hVF, hV⟩ := hsol seed (ev0 bt) (hev0 bt)
  refine ⟨bt.simSpace b par0 (solveBackward bt.space (kw94 bt.space rng sqrt ols
    (expShocks inp.exp maxLog inp.nWages inp.cholesky)) par0 seed (ev0 bt)).1 vc ko, V, ?_, hVF, ?_⟩
  · unfold SolveInput.solveModel
    simp only [hbuild, ht0, hp0, Option.bind_eq_bind, Option.bind_some, hok, if_true]
  · intro params hsolve hfits
    have hprob := fun d s => (C19_level_probabilities ep hlev (inp.covariates d s)).2
    have hne : exogenousGrid b.exogLevels ≠ [] := by
      intro h0
      have := hprob none ⟨0, [], []⟩
      rw [hep, h0] at this
      simp at this
    refine (hsnd.solved_exogenous wf hx htr hdpc hpf
      (fun d s e => levelProbability ep (inp.covariates d s) e) (by rw [h3]; exact hfit) hne ?_).criterion
      ((hev0 bt).trans (backwardLoop_shape _ _ _ _ _ _)) hV vc ko e params hsolve hfits rows rfl
    intro d _ s _
    by_contra hcon
    push Not at hcon
    have := hprob d s
    rw [hep, List.map_congr_left (g := fun _ => (0 : ℝ)) (fun e he => hcon e he)] at this
    simp at this

end Reals

/-! Concrete cases: the models with thirty interpolation points, of which the last two periods are
interpolated. -/

section Examples

theorem pointsBuild_suffices {K : Type _} [Field K] (core : List CoreState) (wf : exampleBuild.WF core)
    (delta : K) : (pointsBuild 30).PointsSuffice core delta := by
  have hsz := pointsBuild_sizes 30 core wf
  simp only [List.range_succ, List.range_zero, List.nil_append, List.cons_append, List.map_cons,
    List.map_nil, List.cons.injEq, Prod.mk.injEq, and_true] at hsz
  obtain ⟨⟨a1, a2⟩, ⟨b1, b2⟩, c1, c2⟩ := hsz
  have hp : (pointsBuild 30).points = 30 := rfl
  intro _ t ht _
  have ht : t < 3 := ht
  rw [hp]
  match t with
  | 0 => omega
  | 1 => omega
  | 2 => omega

theorem exogenousPointsBuild_suffices (core : List CoreState) (wf : exogenousBuild.WF core) (delta : ℝ) :
    exogenousPointsBuild.PointsSuffice core delta := by
  have hsz := exogenousPointsBuild_sizes core wf
  simp only [List.range_succ, List.range_zero, List.nil_append, List.cons_append, List.map_cons,
    List.map_nil, List.cons.injEq, Prod.mk.injEq, and_true] at hsz
  obtain ⟨⟨a1, a2⟩, ⟨b1, b2⟩, c1, c2⟩ := hsz
  have hp : exogenousPointsBuild.points = 30 := rfl
  intro _ t ht _
  have ht : t < 3 := ht
  rw [hp]
  match t with
  | 0 => omega
  | 1 => omega
  | 2 => omega

/-- The hypotheses of `C73_sample_of_any_solution`. -/
example : ∃ core, (pointsBuild 30).WF core ∧ (pointsBuild 30).exogLevels = [] ∧
    (pointsBuild 30).StartsInCore ∧ (pointsBuild 30).DenseLevels [[0, 1]] ∧ (∀ l ∈ [[0, 1]], l.Nodup) ∧
    (∀ d ∈ (pointsBuild 30).denseIndices, ∀ s ∈ core,
      ∃ a : Nat, ((pointsBuild 30).choiceSetAt d s)[a]? = some true) ∧
    exampleInput.WF (pointsBuild 30) core ∧ (pointsBuild 30).PointsSuffice core exampleInput.delta ∧
    firstRandom.Contract ∧
    (∀ bt : Built, SameShape (initialValues bt.space) (initialValues bt.space : Dict Nat (List ℚ))) ∧
    (∀ (l : List Nat) x, x ∈ l.eraseDups ↔ x ∈ l) ∧
    ∀ sp, (exampleRun (K := ℚ) (fun x => 1 + x) 1 (equalWeights ((pointsBuild 30).initialLevels [[0, 1]]))
      sp).Fits (pointsBuild 30) core [[0, 1]] () := by
  obtain ⟨core, wf, hl⟩ := exampleBuild_wf
  have hcs : ∀ d s, (pointsBuild 30).choiceSetAt d s = choiceSet exampleRestr s := by
    intro d s; cases d <;> rfl
  exact ⟨core, pointsBuild_wf 30 core wf, rfl, exampleSpec_starts _ rfl, rfl, by decide,
    fun d _ s _ => ⟨2, by rw [hcs]; rfl⟩, exampleInputOf_wf _ _ core rfl hcs, pointsBuild_suffices core wf _,
    firstRandom_contract, fun bt => SameShape.refl _, fun l x => mem_eraseDups l x,
    fun sp => exampleRun_fits _ _ _ rfl hcs [[0, 1]] (by simp) sp⟩

/-- The hypotheses of `C79_criterion_of_any_solution`. -/
example : ∃ core la, (pointsBuild 30).WF core ∧ (pointsBuild 30).exogLevels = [] ∧
    (pointsBuild 30).DenseLevels [[0, 1]] ∧ (∀ l ∈ [[0, 1]], l.Nodup) ∧
    (∀ d ∈ (pointsBuild 30).denseIndices, ∀ s ∈ core,
      ∃ a : Nat, ((pointsBuild 30).choiceSetAt d s)[a]? = some true) ∧
    (exampleInputOf Real.exp).WF (pointsBuild 30) core ∧
    (pointsBuild 30).PointsSuffice core (exampleInputOf Real.exp).delta ∧
    ∀ sp, (exampleEstimation la [] sp).Fits (pointsBuild 30) core (exampleInputOf Real.exp).wageOf () := by
  obtain ⟨core, wf, hl⟩ := exampleBuild_wf
  obtain ⟨la, hq, hc⟩ := exists_linearAlgebra
  have hcs : ∀ d s, (pointsBuild 30).choiceSetAt d s = choiceSet exampleRestr s := by
    intro d s; cases d <;> rfl
  refine ⟨core, la, pointsBuild_wf 30 core wf, rfl, rfl, by decide, fun d _ s _ => ⟨2, by rw [hcs]; rfl⟩,
    exampleInputOf_wf _ _ core rfl hcs, pointsBuild_suffices core wf _,
    fun sp => exampleEstimation_fits la hq hc _ _ (pointsBuild_wf 30 core wf) rfl hcs [] ?_ sp⟩
  intro t ht
  match t, ht with
  | 0, _ => exact ⟨0, by omega, 0, rfl, rfl⟩
  | 1, _ => exact ⟨1, by omega, 1, rfl, rfl⟩

/-- The hypotheses of `C73_exogenous_sample_of_any_solution` and
`C79_exogenous_criterion_of_any_solution`. -/
example : ∃ core la, exogenousPointsBuild.WF core ∧ exogenousPointsBuild.ExogWF [[0, 1]] ∧
    exogenousPointsBuild.StartsInCore ∧
    (∀ d ∈ exogenousPointsBuild.denseIndices, ∀ s ∈ core,
      ∃ a : Nat, (exogenousPointsBuild.choiceSetAt d s)[a]? = some true) ∧
    (exampleInputOf Real.exp).WF exogenousPointsBuild core ∧
    exogenousPointsBuild.PointsSuffice core (exampleInputOf Real.exp).delta ∧
    exampleLevels.map List.length = exogenousPointsBuild.exogLevels ∧
    (∀ levels ∈ exampleLevels, levels ≠ []) ∧
    (∀ levels ∈ exampleLevels, ∀ beta ∈ levels, ∀ item ∈ beta, ∀ d ∈ exogenousPointsBuild.denseIndices,
      ∀ s ∈ core, ((exampleInputOf Real.exp).covariates d s item.1).isSome) ∧
    (∀ sp, (exampleRun Real.exp 2 (equalWeights (exogenousPointsBuild.initialLevels [[0, 1], [0, 1]]))
      sp).Fits exogenousPointsBuild core ([[0, 1]] ++ exogenousPointsBuild.exogLevels.map List.range) ()) ∧
    ∀ sp, (exampleEstimation la [1] sp).Fits exogenousPointsBuild core (exampleInputOf Real.exp).wageOf () := by
  obtain ⟨core, wf, hl⟩ := exogenousBuild_wf
  obtain ⟨la, hq, hc⟩ := exists_linearAlgebra
  have hcs : ∀ d s, exogenousPointsBuild.choiceSetAt d s = choiceSet exampleRestr s := by
    intro d s; cases d <;> rfl
  have wf' : exogenousPointsBuild.WF core := 
    ⟨wf.spec, wf.created, wf.periods, wf.covered, wf.several, wf.compatible, wf.distinct, wf.closed⟩
  refine ⟨core, la, wf', ⟨by simp [exogenousPointsBuild, exogenousBuild], rfl, by simp, fun _ => rfl⟩,
    exampleSpec_starts _ rfl, fun d _ s _ => ⟨2, by rw [hcs]; rfl⟩, exampleInputOf_wf _ _ core rfl hcs,
    exogenousPointsBuild_suffices core wf _, rfl, by simp [exampleLevels], fun _ _ _ _ _ _ _ _ _ _ => rfl,
    fun sp => exampleRun_fits _ _ _ rfl hcs [[0, 1], [0, 1]] (by simp) sp,
    fun sp => exampleEstimation_fits la hq hc _ _ wf' rfl hcs [1] ?_ sp⟩
  intro t ht
  match t, ht with
  | 0, _ => exact ⟨1, by omega, 1, rfl, rfl⟩
  | 1, _ => exact ⟨3, by omega, 3, rfl, rfl⟩

end Examples

end Respy
