import Verif.Props.SolveFunctionExample

/-!
# C100 The states which are simulated do not depend on the parameters
-/

namespace Respy

/-- Solutions of one model at different inputs: the states of the groups of interpolated periods and the states which are
simulated are the same for all of them. -/
theorem solved_at_same_states {K : Type} [Field K] [LinearOrder K] [IsStrictOrderedRing K] {b : BuildSpec}
    {core : List CoreState} (wf : b.WF core) {bt : Built} {tr : Option (Dict Nat (List Bool))}
    (hbuild : buildSpace b = some bt) (hsnd : bt.Sound b core tr)
    (rng : InterpolationRandom) (hrng : rng.Contract) (seed : Nat) (inp : SolveInput K) (hinp : inp.WF b core)
    (hdelta : inp.delta ≠ 0) (transitions : Built → Option (Dict Nat (List (Nat × List K))))
    {future : Option Nat → CoreState → List (Option Nat × K)}
    (hmem : ∀ d ∈ b.denseIndices, ∀ s ∈ core, ∀ fp ∈ future d s, fp.1 ∈ b.denseIndices)
    (hcont : ∀ par : ParamObjects K, transitions bt = some par.transition → ContinuationIs bt par future)
    (sqrt : K → K) (ols : List K → List (List K) → List K) (maxLog : K) (ev0 : Built → Dict Nat (List K))
    (hev0 : ∀ bt, SameShape (initialValues bt.space) (ev0 bt)) (vc ko : List Nat → List Nat) (sp : SimSpace K)
    (hsol : inp.solveModel b transitions (kw94 bt.space rng sqrt ols
      (expShocks inp.exp maxLog inp.nWages inp.cholesky)) seed ev0 vc ko = some sp) :
    ∃ par ev V, sp = bt.simSpace b par ev vc ko ∧
      IsInterpolatedSolutionAt b core inp.delta inp.wageOf inp.nonpecOf inp.shocks future
        (expectedShock inp.exp maxLog inp.nWages inp.cholesky) sqrt ols bt.statesOfGroup
        (bt.simulatedOfGroup rng seed) V ∧
      ∀ d ∈ b.denseIndices, ∀ s ∈ core, bt.ValueAt ev d s (V d s) := by
  unfold SolveInput.solveModel at hsol
  simp only [hbuild, Option.bind_eq_bind, Option.bind_some] at hsol
  obtain ⟨transition, ht, hsol⟩ := Option.bind_eq_some_iff.1 hsol
  obtain ⟨par, p1, p2, p3, hfit⟩ := hinp.paramsFit wf hsnd transition
  rw [p1, Option.bind_some] at hsol
  split at hsol
  · rename_i ok
    cases hsol
    obtain ⟨V, hV, hval⟩ := hsnd.interpolatedSolutionAt wf rng hrng inp.exp sqrt ols maxLog inp.nWages
      inp.cholesky par _ _ _ future hmem hfit (hcont par (by rw [ht, p3])) (by rw [p2]; exact hdelta) hinp.choices seed
      (ev0 bt) (hev0 bt) ok
    rw [p2] at hV
    exact ⟨par, _, V, rfl, hV.of_rows, hval⟩
  · cases hsol

/-- **C100.** The states of interpolated periods which are simulated do not depend on the parameters: there is one
selection of states for each period, each dense index and each choice set such that all solutions of the model, for all
rewards, shocks and discount factors, satisfy the Bellman equation in the selected states and are interpolated in the
other states. -/
theorem C100_same_simulated_states {K : Type} [Field K] [LinearOrder K] [IsStrictOrderedRing K] (b : BuildSpec)
    (core : List CoreState) (wf : b.WF core) (hexo : b.exogLevels = []) (rng : InterpolationRandom) (hrng : rng.Contract)
    (seed : Nat) :
    ∃ (bt : Built) (states : Nat → Option Nat × List Bool → List CoreState)
      (simulated : Nat → Option Nat × List Bool → CoreState → Bool), buildSpace b = some bt ∧
      ∀ inp : SolveInput K, inp.WF b core → inp.delta ≠ 0 → ∀ (sqrt : K → K) (ols : List K → List (List K) → List K)
        (maxLog : K) (ev0 : Built → Dict Nat (List K)), (∀ bt, SameShape (initialValues bt.space) (ev0 bt)) →
        ∀ (vc ko : List Nat → List Nat) (sp : SimSpace K), inp.solveModel b (fun _ => some []) (kw94 bt.space rng sqrt ols
          (expShocks inp.exp maxLog inp.nWages inp.cholesky)) seed ev0 vc ko = some sp →
        ∃ par ev V, sp = bt.simSpace b par ev vc ko ∧
          IsInterpolatedSolutionAt b core inp.delta inp.wageOf inp.nonpecOf inp.shocks (fun d _ => [(d, 1)])
            (expectedShock inp.exp maxLog inp.nWages inp.cholesky) sqrt ols states simulated V ∧
          ∀ d ∈ b.denseIndices, ∀ s ∈ core, bt.ValueAt ev d s (V d s) := by
  obtain ⟨bt, hbuild, hsnd⟩ := buildSpace_noExogenous b core wf hexo
  refine ⟨bt, bt.statesOfGroup, bt.simulatedOfGroup rng seed, hbuild, ?_⟩
  intro inp hinp hdelta sqrt ols maxLog ev0 hev0 vc ko sp hsol
  refine solved_at_same_states wf hbuild hsnd rng hrng seed inp hinp hdelta (fun _ => some []) ?_
    (fun par _ => hsnd.continuationIs par) sqrt ols maxLog ev0 hev0 vc ko sp hsol
  intro d hd s _ fp hfp
  rw [List.mem_singleton.1 hfp]
  exact hd

/-- **C100** with exogenous processes: the selection does not depend on the parameters of the processes either. -/
theorem C100_same_simulated_states_with_processes (b : BuildSpec) (core : List CoreState) (wf : b.WF core)
    (static : List (List Nat)) (hx : b.ExogWF static) (rng : InterpolationRandom) (hrng : rng.Contract) (seed : Nat) :
    ∃ (bt : Built) (states : Nat → Option Nat × List Bool → List CoreState)
      (simulated : Nat → Option Nat × List Bool → CoreState → Bool), buildSpace b = some bt ∧
      ∀ inp : SolveInput ℝ, inp.WF b core → inp.delta ≠ 0 →
        ∀ ep : ExogenousParams, ep.map List.length = b.exogLevels → (∀ levels ∈ ep, levels ≠ []) →
        (∀ levels ∈ ep, ∀ beta ∈ levels, ∀ item ∈ beta, ∀ d ∈ b.denseIndices, ∀ s ∈ core,
          (inp.covariates d s item.1).isSome) →
        ∀ (sqrt : ℝ → ℝ) (ols : List ℝ → List (List ℝ) → List ℝ)
        (maxLog : ℝ) (ev0 : Built → Dict Nat (List ℝ)), (∀ bt, SameShape (initialValues bt.space) (ev0 bt)) →
        ∀ (vc ko : List Nat → List Nat) (sp : SimSpace ℝ), inp.solveModel b (inp.transitions ep b)
          (kw94 bt.space rng sqrt ols (expShocks inp.exp maxLog inp.nWages inp.cholesky)) seed ev0 vc ko = some sp →
        ∃ par ev V, sp = bt.simSpace b par ev vc ko ∧
          IsInterpolatedSolutionAt b core inp.delta inp.wageOf inp.nonpecOf inp.shocks
            (fun d s => (exogenousGrid b.exogLevels).map fun e =>
              (b.successor d e, levelProbability ep (inp.covariates d s) e))
            (expectedShock inp.exp maxLog inp.nWages inp.cholesky) sqrt ols states simulated V ∧
          ∀ d ∈ b.denseIndices, ∀ s ∈ core, bt.ValueAt ev d s (V d s) := by
  obtain ⟨bt, reps, hbuild, hsnd, htr, hdpc⟩ := buildSpace_exogenous b core wf static hx
  refine ⟨bt, bt.statesOfGroup, bt.simulatedOfGroup rng seed, hbuild, ?_⟩
  intro inp hinp hdelta ep hep hlev hcov sqrt ols maxLog ev0 hev0 vc ko sp hsol
  obtain ⟨transition, ht, hfit⟩ := inp.transitions_fit ep b core wf static hx hep hcov bt reps hsnd hdpc
  have hgrid : exogenousGrid b.exogLevels ≠ [] := by
    intro h0
    have := (C19_level_probabilities ep hlev fun _ => none).2
    rw [hep, h0] at this
    simp at this
  refine solved_at_same_states wf hbuild hsnd rng hrng seed inp hinp hdelta _ ?_ (fun par hpar =>
    hsnd.continuationIs_exogenous htr hgrid par (fun d s e => levelProbability ep (inp.covariates d s) e) (by
      rw [ht] at hpar
      rw [← Option.some.inj hpar]
      exact hfit)) sqrt ols maxLog ev0 hev0 vc ko sp hsol
  obtain ⟨grid, hg⟩ : ∃ grid, b.grid = some grid := ⟨_, hx.grid⟩
  intro d hd s _ fp hfp
  obtain ⟨e, he, rfl⟩ := List.mem_map.1 hfp
  obtain ⟨i, rfl, hlt⟩ := (mem_denseIndices hg _).1 hd
  obtain ⟨d', q1, q2, _⟩ := hx.successor_spec hg i _ (List.getElem?_eq_getElem hlt) e he
  simp only [q1]
  exact (mem_denseIndices hg _).2 ⟨d', rfl, q2⟩

variable {env : ProcessEnv} {m : UserModel} {p : Processed} {ev : FormulaEval} {core : List CoreState}

/-- The inputs of the solution at parameters with the same index. -/
theorem solveInput_sameIndex {q : Processed} {θ : Dict (Str × Str) ℝ} (hθ : m.SameIndex θ) (h : SameStructure p q)
    (hq : processModel env { m with params := θ } = some q)
    (hs : p.Supported m ev core) (hcore : createCore (p.buildSpec ev).core = some core)
    (hlen : ∀ grid, denseGrid q.denseSpec = some grid → ∀ point ∈ grid,
      (denseColumns q.denseSpec).length ≤ point.length) (hkeep : env.KeepsShape) (hnd : (Dict.keys m.params).Nodup)
    (hother : ∀ q ∈ m.params, mentionsShocks q.1 = true → ∃ c ∈ shockCategories, q.1.1 = c.toList) (senv : SolveEnv)
    (hfit : senv.Fits (p.buildSpec ev) core) : (q.solveInput ev senv).WF (p.buildSpec ev) core := by
  have hb := h.buildSpec ev
  rw [hb] at hcore hfit ⊢
  refine C82_solve_input_well_formed hq (h.supported (m := m) (m' := { m with params := θ }) rfl hs) hcore hlen hkeep
    (by unfold Dict.keys at hnd ⊢; exact hθ.index ▸ hnd) ?_ senv hfit
  intro x hx
  have hm : x.1 ∈ m.params.map Prod.fst := hθ.index ▸ List.mem_map_of_mem (f := Prod.fst) hx
  obtain ⟨y, hy, he⟩ := List.mem_map.1 hm
  exact he ▸ hother y hy

/-- **C100 (partial).** The function `solve` of a model without exogenous processes simulates the same states at all
parameters: there is one selection of states such that the values which `solve` returns at any parameters satisfy the
Bellman equation in the selected states of interpolated periods and are interpolated in the others.

Missing: what is missing in `C85`. For exogenous processes see `C100_solve_function_with_processes_partial`. -/
theorem C100_solve_function_partial (hp : processModel env m = some p) (hr : m.Reprocessable p)
    (r : SolveRoutines) (hev : ev.Contract)
    (hs : p.Supported m ev core) (hcore : createCore (p.buildSpec ev).core = some core)
    (hexo : p.exogenous = []) (hkeep : env.KeepsShape) (hnd : (Dict.keys m.params).Nodup)
    (hother : ∀ q ∈ m.params, mentionsShocks q.1 = true → ∃ c ∈ shockCategories, q.1.1 = c.toList)
    (hfit : r.senv.Fits (p.buildSpec ev) core) (hrng : r.rng.Contract)
    (hev0 : ∀ bt, SameShape (initialValues bt.space) (r.ev0 bt)) :
    ∃ (solve : Dict (Str × Str) ℝ → Option (SimSpace ℝ)) (bt : Built)
      (states : Nat → Option Nat × List Bool → List CoreState)
      (simulated : Nat → Option Nat × List Bool → CoreState → Bool), getSolveFunc env ev r m = some solve ∧
      buildSpace (p.buildSpec ev) = some bt ∧
      ∀ θ, m.SameIndex θ → ∀ q, processModel env { m with params := θ } = some q → q.discount.delta ≠ 0 →
        ∀ sp, solve θ = some sp →
        ∃ par ev1 V, sp = bt.simSpace (p.buildSpec ev) par ev1 r.valueCounts r.keyOrder ∧
          IsInterpolatedSolutionAt (p.buildSpec ev) core q.discount.delta (q.solveInput ev r.senv).wageOf
            (q.solveInput ev r.senv).nonpecOf (q.solveInput ev r.senv).shocks (fun d _ => [(d, 1)])
            (expectedShock Real.exp r.maxLog q.choices.wWage.length q.cholesky) r.sqrt r.ols states simulated V ∧
          ∀ d ∈ (p.buildSpec ev).denseIndices, ∀ s ∈ core, bt.ValueAt ev1 d s (V d s) := by
  obtain ⟨bt, states, simulated, hbuild, hall⟩ := C100_same_simulated_states (K := ℝ) (p.buildSpec ev) core
    (C82_processed_models_well_formed hp hev hs hcore) (by simp [Processed.buildSpec, hexo]) r.rng hrng r.seed
  have hsolve : getSolveFunc env ev r m = some fun params =>
      (processModel env (m.reprocessed p params)).bind fun q => p.solveWith q ev r := by
    unfold getSolveFunc
    simp only [hp, hbuild, Option.bind_eq_bind, Option.bind_some]
    rfl
  refine ⟨_, bt, states, simulated, hsolve, hbuild, ?_⟩
  intro θ hθ q hq hdelta sp hsp
  obtain ⟨q0, _, hq0, _, h, _⟩ := reprocess_other hp hr θ hθ
  rw [hq] at hq0
  cases hq0
  obtain ⟨q1, _, hq1, _, _, hsol⟩ := C85_solve_function_partial hp hr r _ hsolve θ hθ
  rw [hq] at hq1
  cases hq1
  rw [hsol] at hsp
  have hexo' : q.exogenous = [] := by
    have := congrArg List.length (groupsShape_lengths h.exogenous)
    simp only [List.length_map, hexo, List.length_nil] at this
    exact List.length_eq_zero_iff.1 this.symm
  unfold Processed.solveWith at hsp
  rw [← h.buildSpec ev] at hsp
  simp only [hbuild, Option.bind_some, hexo', if_true] at hsp
  exact hall (q.solveInput ev r.senv) (solveInput_sameIndex hθ h hq hs hcore (denseColumns_static q hexo') hkeep hnd
    hother r.senv hfit) hdelta r.sqrt r.ols r.maxLog r.ev0 hev0 r.valueCounts r.keyOrder sp hsp

/-- **C100 (partial)** for models with exogenous processes, if these come last among the observables and there are no
types. -/
theorem C100_solve_function_with_processes_partial (hp : processModel env m = some p) (hr : m.Reprocessable p)
    (r : SolveRoutines) (hev : ev.Contract)
    (hs : p.Supported m ev core) (hcore : createCore (p.buildSpec ev).core = some core)
    (hexo : p.exogenous ≠ []) (static : List (Str × Nat)) (htypes : p.nTypes < 2)
    (hobs : p.observables.map (fun o => (o.1, o.2.length)) = static ++ p.exogenous.map fun o => (o.1, o.2.length))
    (hnames : ∀ e ∈ p.exogenous, ∀ level ∈ e.2, ∀ item ∈ level.2, item.1 ∈ p.columns true)
    (hkeep : env.KeepsShape) (hnd : (Dict.keys m.params).Nodup)
    (hother : ∀ q ∈ m.params, mentionsShocks q.1 = true → ∃ c ∈ shockCategories, q.1.1 = c.toList)
    (hfit : r.senv.Fits (p.buildSpec ev) core) (hrng : r.rng.Contract)
    (hev0 : ∀ bt, SameShape (initialValues bt.space) (r.ev0 bt)) :
    ∃ (solve : Dict (Str × Str) ℝ → Option (SimSpace ℝ)) (bt : Built)
      (states : Nat → Option Nat × List Bool → List CoreState)
      (simulated : Nat → Option Nat × List Bool → CoreState → Bool), getSolveFunc env ev r m = some solve ∧
      buildSpace (p.buildSpec ev) = some bt ∧
      ∀ θ, m.SameIndex θ → ∀ q, processModel env { m with params := θ } = some q → q.discount.delta ≠ 0 →
        ∀ sp, solve θ = some sp →
        ∃ par ev1 V, sp = bt.simSpace (p.buildSpec ev) par ev1 r.valueCounts r.keyOrder ∧
          IsInterpolatedSolutionAt (p.buildSpec ev) core q.discount.delta (q.solveInput ev r.senv).wageOf
            (q.solveInput ev r.senv).nonpecOf (q.solveInput ev r.senv).shocks
            (fun d s => (exogenousGrid (p.exogenous.map fun e => e.2.length)).map fun e =>
              ((p.buildSpec ev).successor d e, levelProbability q.exogenousParams (p.covariates ev d s) e))
            (expectedShock Real.exp r.maxLog q.choices.wWage.length q.cholesky) r.sqrt r.ols states simulated V ∧
          ∀ d ∈ (p.buildSpec ev).denseIndices, ∀ s ∈ core, bt.ValueAt ev1 d s (V d s) := by
  obtain ⟨bt, states, simulated, hbuild, hall⟩ := C100_same_simulated_states_with_processes (p.buildSpec ev) core
    (C82_processed_models_well_formed hp hev hs hcore) _ (exogenous_wf p ev hexo static htypes hobs) r.rng hrng r.seed
  have hsolve : getSolveFunc env ev r m = some fun params =>
      (processModel env (m.reprocessed p params)).bind fun q => p.solveWith q ev r := by
    unfold getSolveFunc
    simp only [hp, hbuild, Option.bind_eq_bind, Option.bind_some]
    rfl
  refine ⟨_, bt, states, simulated, hsolve, hbuild, ?_⟩
  intro θ hθ q hq hdelta sp hsp
  obtain ⟨q0, _, hq0, _, h, _⟩ := reprocess_other hp hr θ hθ
  rw [hq] at hq0
  cases hq0
  obtain ⟨q1, _, hq1, _, _, hsol⟩ := C85_solve_function_partial hp hr r _ hsolve θ hθ
  rw [hq] at hq1
  cases hq1
  rw [hsol] at hsp
  obtain ⟨hexo', htypes', hobs', hnames'⟩ := h.processes hexo htypes hobs hnames
  unfold Processed.solveWith at hsp
  rw [← h.buildSpec ev] at hsp
  simp only [hbuild, Option.bind_some, hexo', if_false] at hsp
  have hlen : (p.exogenous.map fun e => e.2.length) = q.exogenous.map fun e => e.2.length := by
    have := congrArg (List.map Prod.snd) (groupsShape_lengths h.exogenous)
    rwa [List.map_map, List.map_map] at this
  obtain ⟨covs, hfrom⟩ := processModel_from _ _ _ hq
  have hcols := denseColumns_exogenous q static htypes' hobs'
  rw [h.covariates]
  refine hall (q.solveInput ev r.senv) (solveInput_sameIndex hθ h hq hs hcore hcols hkeep hnd
    hother r.senv hfit) hdelta q.exogenousParams ?_ ?_ ?_ r.sqrt r.ols r.maxLog r.ev0 hev0 r.valueCounts r.keyOrder sp hsp
  · show _ = p.exogenous.map fun e => e.2.length
    rw [hlen]
    simp [Processed.exogenousParams, Function.comp_def]
  · intro levels hl hne
    obtain ⟨e, he, rfl⟩ := List.mem_map.1 hl
    exact hfrom.exogenous_ne e he (List.map_eq_nil_iff.1 hne)
  · intro levels hl beta hb item hi d hd s hmem
    obtain ⟨e, he, rfl⟩ := List.mem_map.1 hl
    obtain ⟨level, hlev, rfl⟩ := List.mem_map.1 hb
    have hs' := h.supported (m := m) (m' := { m with params := θ }) rfl hs
    rw [h.buildSpec ev] at hd hcore
    refine hs'.column hfrom hcore hcols d hd s hmem _ ?_
    have hg : denseGrid q.denseSpec = some _ := exogenous_grid q ev hexo' static htypes' hobs'
    rw [hg]
    exact hnames' e he level hlev item hi

end Respy
