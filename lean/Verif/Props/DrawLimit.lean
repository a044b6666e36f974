import Verif.Lemmas.DrawLimit
import Verif.Props.MonteCarlo
import Verif.Props.ProcessEstimate
import Verif.Props.SolutionUse

/-!
# C116: the criterion function with many draws

With more draws, the value of the criterion function approaches the mean of the exact log likelihoods of the data.
-/

open MeasureTheory ProbabilityTheory

namespace Respy

noncomputable section

section
variable {P : Type}

/-- **C116.** Models without exogenous processes, with or without interpolation and for any discount factor: for a given
solution of the model, the value of the criterion function with standard normal random numbers is the mean of the exact
individual log likelihoods up to an error of at most `ε`, except with a probability of at most a constant over the number
of draws. The draws of different observations need not be independent. -/
theorem C116_criterion_with_many_draws (b : BuildSpec) (core : List CoreState) (wf : b.WF core)
    (hexo : b.exogLevels = []) (levels : List (List Nat)) (hlev : b.DenseLevels levels)
    (hnd : ∀ l ∈ levels, l.Nodup)
    (hcs : ∀ d ∈ b.denseIndices, ∀ s ∈ core, ∃ a : Nat, (b.choiceSetAt d s)[a]? = some true)
    (e : Estimation P) :
    ∃ bt, buildSpace b = some bt ∧ ∀ (inp : SolveInput ℝ), inp.WF b core →
      b.PointsSuffice core inp.delta → ∀ (rng : InterpolationRandom), rng.Contract →
      ∀ (sqrt : ℝ → ℝ) (ols : List ℝ → List (List ℝ) → List ℝ) (maxLog : ℝ) (seed : Nat)
        (ev0 : Built → Dict Nat (List ℝ)),
      (∀ bt, SameShape (initialValues bt.space) (ev0 bt)) → ∀ (vc ko : List Nat → List Nat),
      ∃ sp V, inp.solveModel b (fun _ => some []) (kw94 bt.space rng sqrt ols
          (expShocks inp.exp maxLog inp.nWages inp.cholesky)) seed ev0 vc ko = some sp ∧
        IsSolution b core inp.delta inp.wageOf inp.nonpecOf inp.shocks (fun d _ => [(d, 1)])
          (expectedShock inp.exp maxLog inp.nWages inp.cholesky) sqrt ols V ∧
        ∀ params : P, e.solve params = some sp → e.Fits b core inp.wageOf params →
          CriterionApproaches b inp.wageOf inp.nonpecOf (fun d _ => [(d, 1)]) V e params := by
  obtain ⟨bt, hbuild, hsnd⟩ := buildSpace_noExogenous b core wf hexo
  refine ⟨bt, hbuild, ?_⟩
  intro inp hinp hpts rng hrng sqrt ols maxLog seed ev0 hev0 vc ko
  obtain ⟨bt', par, hbuild', h1, hsol⟩ :=
    solution_all b core wf hexo inp hinp hcs hpts rng hrng sqrt ols maxLog
  rw [hbuild] at hbuild'; cases hbuild'
  obtain ⟨hok, V, hVF, hV⟩ := hsol seed (ev0 bt) (hev0 bt)
  obtain ⟨par', h1', _, _, hfit⟩ := hinp.paramsFit wf hsnd []
  rw [h1] at h1'; cases h1'
  refine ⟨bt.simSpace b par (solveBackward bt.space (kw94 bt.space rng sqrt ols
    (expShocks inp.exp maxLog inp.nWages inp.cholesky)) par seed (ev0 bt)).1 vc ko, V, ?_, hVF, ?_⟩
  · unfold SolveInput.solveModel
    simp only [hbuild, h1, Option.bind_eq_bind, Option.bind_some, hok, if_true]
  · intro params hsolve hfits
    exact (hsnd.solved_noExogenous wf hexo hbuild (hlev.nodup hnd) hfit).criterion_approaches
      ((hev0 bt).trans (backwardLoop_shape _ _ _ _ _ _)) hV vc ko e params hsolve hfits

/-- **C116** for models with exogenous processes. -/
theorem C116_exogenous_criterion_with_many_draws (b : BuildSpec) (core : List CoreState) (wf : b.WF core)
    (static : List (List Nat)) (hx : b.ExogWF static)
    (hcs : ∀ d ∈ b.denseIndices, ∀ s ∈ core, ∃ a : Nat, (b.choiceSetAt d s)[a]? = some true)
    (e : Estimation P) :
    ∃ bt, buildSpace b = some bt ∧ ∀ (inp : SolveInput ℝ), inp.WF b core →
      b.PointsSuffice core inp.delta →
      ∀ (ep : ExogenousParams), ep.map List.length = b.exogLevels → (∀ levels ∈ ep, levels ≠ []) →
      (∀ levels ∈ ep, ∀ beta ∈ levels, ∀ item ∈ beta, ∀ d ∈ b.denseIndices, ∀ s ∈ core,
        (inp.covariates d s item.1).isSome) → ∀ (rng : InterpolationRandom), rng.Contract →
      ∀ (sqrt : ℝ → ℝ) (ols : List ℝ → List (List ℝ) → List ℝ) (maxLog : ℝ) (seed : Nat)
        (ev0 : Built → Dict Nat (List ℝ)),
      (∀ bt, SameShape (initialValues bt.space) (ev0 bt)) → ∀ (vc ko : List Nat → List Nat),
      ∃ sp V, inp.solveModel b (inp.transitions ep b) (kw94 bt.space rng sqrt ols
          (expShocks inp.exp maxLog inp.nWages inp.cholesky)) seed ev0 vc ko = some sp ∧
        IsSolution b core inp.delta inp.wageOf inp.nonpecOf inp.shocks
          (fun d s => (exogenousGrid b.exogLevels).map fun e =>
            (b.successor d e, levelProbability ep (inp.covariates d s) e))
          (expectedShock inp.exp maxLog inp.nWages inp.cholesky) sqrt ols V ∧
        ∀ params : P, e.solve params = some sp → e.Fits b core inp.wageOf params →
          CriterionApproaches b inp.wageOf inp.nonpecOf
            (fun d s => (exogenousGrid b.exogLevels).map fun e =>
              (b.successor d e, levelProbability ep (inp.covariates d s) e)) V e params := by
  obtain ⟨bt, reps, hbuild, hsnd, htr, hdpc⟩ := buildSpace_exogenous b core wf static hx
  refine ⟨bt, hbuild, ?_⟩
  intro inp hinp hpts ep hep hlev hcov rng hrng sqrt ols maxLog seed ev0 hev0 vc ko
  obtain ⟨bt0, tr0, par0, hbuild0, ht0, hp0, hsol⟩ := solution_all_exogenous b core wf static hx inp hinp ep
    hep hlev hcov hcs hpts rng hrng sqrt ols maxLog
  rw [hbuild] at hbuild0; cases hbuild0
  obtain ⟨transition, ht, hfit⟩ := inp.transitions_fit ep b core wf static hx hep hcov bt reps hsnd hdpc
  rw [ht0] at ht; cases ht
  obtain ⟨par, h1, h2, h3, hpf⟩ := hinp.paramsFit wf hsnd tr0
  rw [hp0] at h1; cases h1
  obtain ⟨hok, V, hVF, hV⟩ := hsol seed (ev0 bt) (hev0 bt)
  refine ⟨bt.simSpace b par0 (solveBackward bt.space (kw94 bt.space rng sqrt ols
    (expShocks inp.exp maxLog inp.nWages inp.cholesky)) par0 seed (ev0 bt)).1 vc ko, V, ?_, hVF, ?_⟩
  · unfold SolveInput.solveModel
    simp only [hbuild, ht0, hp0, Option.bind_eq_bind, Option.bind_some, hok, if_true]
  · intro params hsolve hfits
    have hprob := fun d s => (C19_level_probabilities ep hlev (inp.covariates d s)).2
    have hne : exogenousGrid b.exogLevels ≠ [] := by
      intro h0
      have := hprob none ⟨0, [], []⟩
      rw [hep, h0] at this
      simp at this
    refine (hsnd.solved_exogenous wf hx htr hdpc hpf
      (fun d s e => levelProbability ep (inp.covariates d s) e) (by rw [h3]; exact hfit) hne ?_).criterion_approaches
      ((hev0 bt).trans (backwardLoop_shape _ _ _ _ _ _)) hV vc ko e params hsolve hfits
    intro d _ s _
    by_contra hcon
    push Not at hcon
    have := hprob d s
    rw [hep, List.map_congr_left (g := fun _ => (0 : ℝ)) (fun e he => hcon e he)] at this
    simp at this

end

section
variable {env : ProcessEnv} {m : UserModel} {p : Processed} {ev : FormulaEval} {core : List CoreState}

theorem criterionAt_approaches (p : Processed) (ev : FormulaEval) (e : EstimateEnv) (b : BuildSpec)
    (w n : Option Nat → CoreState → Nat → ℝ) (future : Option Nat → CoreState → List (Option Nat × ℝ))
    (V : Option Nat → CoreState → ℝ) (sp : SimSpace ℝ)
    (h : CriterionApproaches b w n future V (p.criterionAt ev e) sp) :
    CriterionApproaches b w n future V (p.estimation ev e (some sp)) () := h

/-- **C116 (partial).** The criterion function of every supported model without exogenous processes which is accepted
approaches the mean of the exact log likelihoods of the data. Missing: as in
`C84_criterion_of_accepted_models_partial`. -/
theorem C116_accepted_models_partial (hp : processModel env m = some p) (hev : ev.Contract)
    (hs : p.Supported m ev core) (hcore : createCore (p.buildSpec ev).core = some core)
    (hexo : p.exogenous = []) (hkeep : env.KeepsShape) (hlow : env.LowerTriangular)
    (hnd : (Dict.keys m.params).Nodup)
    (hother : ∀ q ∈ m.params, mentionsShocks q.1 = true → ∃ c ∈ shockCategories, q.1.1 = c.toList)
    (senv : SolveEnv) (hfit : senv.Fits (p.buildSpec ev) core)
    (hallowed : ∀ d ∈ (p.buildSpec ev).denseIndices, ∀ s ∈ core, ∃ c ∈ p.choices.choices, p.Allowed m ev d s c)
    (hpts : (p.buildSpec ev).PointsSuffice core p.discount.delta)
    (rng : InterpolationRandom) (hrng : rng.Contract) (sqrt : ℝ → ℝ) (ols : List ℝ → List (List ℝ) → List ℝ)
    (maxLog : ℝ) (seed : Nat)
    (ev0 : Built → Dict Nat (List ℝ)) (hev0 : ∀ bt, SameShape (initialValues bt.space) (ev0 bt))
    (vc ko : List Nat → List Nat) (e : EstimateEnv)
    (he : e.Fits p m ev core (p.solveInput ev senv).wageOf) :
    ∃ bt sp V, buildSpace (p.buildSpec ev) = some bt ∧
      (p.solveInput ev senv).solveModel (p.buildSpec ev) (fun _ => some []) (kw94 bt.space rng sqrt ols
        (expShocks Real.exp maxLog p.choices.wWage.length p.cholesky)) seed ev0 vc ko = some sp ∧
      IsSolution (p.buildSpec ev) core p.discount.delta (p.solveInput ev senv).wageOf
        (p.solveInput ev senv).nonpecOf (p.solveInput ev senv).shocks (fun d _ => [(d, 1)])
        (expectedShock Real.exp maxLog p.choices.wWage.length p.cholesky) sqrt ols V ∧
      CriterionApproaches (p.buildSpec ev) (p.solveInput ev senv).wageOf (p.solveInput ev senv).nonpecOf
        (fun d _ => [(d, 1)]) V (p.estimation ev e (some sp)) () := by
  have hcs : ∀ d ∈ (p.buildSpec ev).denseIndices, ∀ s ∈ core,
      ∃ a : Nat, ((p.buildSpec ev).choiceSetAt d s)[a]? = some true := by
    intro d hd s hmem
    obtain ⟨c, hc, hall⟩ := hallowed d hd s hmem
    obtain ⟨a, ha⟩ := List.mem_iff_getElem?.1 hc
    exact ⟨a, (C82_choice_sets_by_name hp hev hs.toDescribed hcore d hd s hmem a c ha).2 hall⟩
  obtain ⟨bt, hbuild, hsol⟩ := C116_criterion_with_many_draws (p.buildSpec ev) core
    (C82_processed_models_well_formed hp hev hs hcore) (by simp [Processed.buildSpec, hexo])
    p.denseLevels (denseLevels_grid p ev) (denseLevels_nodup p) hcs (p.criterionAt ev e)
  obtain ⟨sp, V, h1, h2, h3⟩ := hsol (p.solveInput ev senv)
    (C82_solve_input_well_formed hp hs hcore (denseColumns_static p hexo) hkeep hnd hother senv hfit)
    hpts rng hrng sqrt ols maxLog seed ev0 hev0 vc ko
  refine ⟨bt, sp, V, hbuild, h1, h2, criterionAt_approaches _ _ _ _ _ _ _ _ _ (h3 sp rfl ?_)⟩
  exact criterionAt_fits _ _ _ _ _ _
    (EstimateEnv.Fits.estimation hp hev hs hcore hkeep hlow hnd hother e _ he (some sp))

/-- **C116 (partial)** for models with exogenous processes, if these come last among the observables and there are no
types. -/
theorem C116_accepted_models_with_processes_partial (hp : processModel env m = some p) (hev : ev.Contract)
    (hs : p.Supported m ev core) (hcore : createCore (p.buildSpec ev).core = some core)
    (hexo : p.exogenous ≠ []) (static : List (Str × Nat)) (htypes : p.nTypes < 2)
    (hobs : p.observables.map (fun o => (o.1, o.2.length)) = static ++ p.exogenous.map fun o => (o.1, o.2.length))
    (hnames : ∀ e ∈ p.exogenous, ∀ level ∈ e.2, ∀ item ∈ level.2, item.1 ∈ p.columns true)
    (hkeep : env.KeepsShape) (hlow : env.LowerTriangular) (hnd : (Dict.keys m.params).Nodup)
    (hother : ∀ q ∈ m.params, mentionsShocks q.1 = true → ∃ c ∈ shockCategories, q.1.1 = c.toList)
    (senv : SolveEnv) (hfit : senv.Fits (p.buildSpec ev) core)
    (hallowed : ∀ d ∈ (p.buildSpec ev).denseIndices, ∀ s ∈ core, ∃ c ∈ p.choices.choices, p.Allowed m ev d s c)
    (hpts : (p.buildSpec ev).PointsSuffice core p.discount.delta)
    (rng : InterpolationRandom) (hrng : rng.Contract) (sqrt : ℝ → ℝ) (ols : List ℝ → List (List ℝ) → List ℝ)
    (maxLog : ℝ) (seed : Nat)
    (ev0 : Built → Dict Nat (List ℝ)) (hev0 : ∀ bt, SameShape (initialValues bt.space) (ev0 bt))
    (vc ko : List Nat → List Nat) (e : EstimateEnv)
    (he : e.Fits p m ev core (p.solveInput ev senv).wageOf) :
    let future := fun d s => (exogenousGrid (p.exogenous.map fun e => e.2.length)).map fun e =>
      ((p.buildSpec ev).successor d e, levelProbability p.exogenousParams (p.covariates ev d s) e)
    ∃ bt sp V, buildSpace (p.buildSpec ev) = some bt ∧
      (p.solveInput ev senv).solveModel (p.buildSpec ev)
        ((p.solveInput ev senv).transitions p.exogenousParams (p.buildSpec ev)) (kw94 bt.space rng sqrt ols
        (expShocks Real.exp maxLog p.choices.wWage.length p.cholesky)) seed ev0 vc ko = some sp ∧
      IsSolution (p.buildSpec ev) core p.discount.delta (p.solveInput ev senv).wageOf
        (p.solveInput ev senv).nonpecOf (p.solveInput ev senv).shocks future
        (expectedShock Real.exp maxLog p.choices.wWage.length p.cholesky) sqrt ols V ∧
      CriterionApproaches (p.buildSpec ev) (p.solveInput ev senv).wageOf (p.solveInput ev senv).nonpecOf
        future V (p.estimation ev e (some sp)) () := by
  intro future
  obtain ⟨covs, h⟩ := processModel_from env m p hp
  have hcs : ∀ d ∈ (p.buildSpec ev).denseIndices, ∀ s ∈ core,
      ∃ a : Nat, ((p.buildSpec ev).choiceSetAt d s)[a]? = some true := by
    intro d hd s hmem
    obtain ⟨c, hc, hall⟩ := hallowed d hd s hmem
    obtain ⟨a, ha⟩ := List.mem_iff_getElem?.1 hc
    exact ⟨a, (C82_choice_sets_by_name hp hev hs.toDescribed hcore d hd s hmem a c ha).2 hall⟩
  have hlen := denseColumns_exogenous p static htypes hobs
  have hgrid := exogenous_grid p ev hexo static htypes hobs
  obtain ⟨bt, hbuild, hsol⟩ := C116_exogenous_criterion_with_many_draws (p.buildSpec ev) core
    (C82_processed_models_well_formed hp hev hs hcore) _ (exogenous_wf p ev hexo static htypes hobs) hcs
    (p.criterionAt ev e)
  obtain ⟨sp, V, h1, h2, h3⟩ := hsol (p.solveInput ev senv)
    (C82_solve_input_well_formed hp hs hcore hlen hkeep hnd hother senv hfit)
    hpts p.exogenousParams (by simp [Processed.exogenousParams, Processed.buildSpec, Function.comp_def])
    (by
      intro levels hl
      obtain ⟨e, he, rfl⟩ := List.mem_map.1 hl
      intro hne
      exact h.exogenous_ne e he (List.map_eq_nil_iff.1 hne))
    (by
      intro levels hl beta hb item hi d hd s hmem
      obtain ⟨e, he, rfl⟩ := List.mem_map.1 hl
      obtain ⟨level, hlev, rfl⟩ := List.mem_map.1 hb
      refine hs.column h hcore hlen d hd s hmem _ ?_
      have hg : denseGrid p.denseSpec = some _ := hgrid
      rw [hg]
      exact hnames e he level hlev item hi)
    rng hrng sqrt ols maxLog seed ev0 hev0 vc ko
  refine ⟨bt, sp, V, hbuild, h1, h2, criterionAt_approaches _ _ _ _ _ _ _ _ _ (h3 sp rfl ?_)⟩
  exact criterionAt_fits _ _ _ _ _ _
    (EstimateEnv.Fits.estimation hp hev hs hcore hkeep hlow hnd hother e _ he (some sp))

end

/-! ### Concrete cases -/

/-- `C116_criterion_with_many_draws` for a model with two types, of which the last two periods are interpolated, and
independent draws. -/
example : ∃ (la : ∀ n, LinearAlgebra n) (sp : SimSpace ℝ) (exact : ℝ), ∀ δ : ℝ, 0 < δ → ∃ N, ∀ n, N ≤ n →
    ∃ value : ((k : Nat × Nat × Nat × Nat) → Fin k.1 → ℝ) → ℝ,
      (∀ ω, ((exampleEstimation la [] (some sp)).withNumbers n fun _ size seed row i => ω (size, seed, row, i)).logLike ()
        = some (value ω)) ∧
      independentNormals {ω | 1 / 100 ≤ |value ω - exact|} ≤ ENNReal.ofReal δ := by
  obtain ⟨core, wf, hl⟩ := exampleBuild_wf
  obtain ⟨la, hq, hc⟩ := exists_linearAlgebra
  have hcs : ∀ d s, (pointsBuild 30).choiceSetAt d s = choiceSet exampleRestr s := by
    intro d s; cases d <;> rfl
  have hfits : ∀ sp, (exampleEstimation la [] sp).Fits (pointsBuild 30) core (exampleInputOf Real.exp).wageOf () := by
    refine fun sp => exampleEstimation_fits la hq hc _ _ (pointsBuild_wf 30 core wf) rfl hcs [] ?_ sp
    intro t ht
    match t, ht with
    | 0, _ => exact ⟨0, by omega, 0, rfl, rfl⟩
    | 1, _ => exact ⟨1, by omega, 1, rfl, rfl⟩
  have hmain := fun e : Estimation Unit => C116_criterion_with_many_draws (pointsBuild 30) core
    (pointsBuild_wf 30 core wf) rfl [[0, 1]] rfl (by decide) (fun d _ s _ => ⟨2, by rw [hcs]; rfl⟩) e
  have hev0 : ∀ bt : Built, SameShape (initialValues bt.space) (initialValues bt.space : Dict Nat (List ℝ)) :=
    fun bt => SameShape.refl _
  obtain ⟨bt, hbuild, h⟩ := hmain (exampleEstimation la [] none)
  obtain ⟨sp, V, hsp, _, _⟩ := h (exampleInputOf Real.exp) (exampleInputOf_wf _ _ core rfl hcs)
    (pointsBuild_suffices core wf _) firstRandom firstRandom_contract id (fun _ _ => []) 100 0
    (fun bt => initialValues bt.space) hev0 id id
  obtain ⟨bt', hbuild', h'⟩ := hmain (exampleEstimation la [] (some sp))
  rw [hbuild] at hbuild'; cases hbuild'
  obtain ⟨sp', V', hsp', _, happ⟩ := h' (exampleInputOf Real.exp) (exampleInputOf_wf _ _ core rfl hcs)
    (pointsBuild_suffices core wf _) firstRandom firstRandom_contract id (fun _ _ => []) 100 0
    (fun bt => initialValues bt.space) hev0 id id
  rw [hsp] at hsp'; cases hsp'
  obtain ⟨exact, _, hlim⟩ := happ () rfl (hfits _)
  obtain ⟨K, hK⟩ := hlim (1 / 100) (by norm_num)
  refine ⟨la, sp, exact, fun δ hδ => ?_⟩
  obtain ⟨N, hN⟩ := exists_nat_gt (K / δ)
  refine ⟨N + 1, fun n hn => ?_⟩
  obtain ⟨value, h1, h2⟩ := hK _ independentNormals n (by omega) (fun _ size seed row i ω => ω (size, seed, row, i))
    (fun _ size seed row => independentNormals_standard n size seed row)
  refine ⟨value, h1, h2.trans (ENNReal.ofReal_le_ofReal ?_)⟩
  have hn' : (N : ℝ) ≤ n := by exact_mod_cast (by omega : N ≤ n)
  have hpos : (0 : ℝ) < n := by exact_mod_cast (by omega : 0 < n)
  rw [div_le_iff₀ hpos]
  rw [div_lt_iff₀ hδ] at hN
  nlinarith

end

end Respy
