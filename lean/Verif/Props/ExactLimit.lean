import Verif.Lemmas.ExactLimit
import Verif.Props.DrawLimit

/-!
# C117: the criterion function with many draws for the solution and for the likelihood

With more draws for both, the value of the criterion function approaches the mean of the exact log likelihoods of the
data in a model which is solved with the distribution of the shocks.
-/

open MeasureTheory ProbabilityTheory

namespace Respy

noncomputable section

variable {env : ProcessEnv} {m : UserModel} {p : Processed} {ev : FormulaEval} {core : List CoreState}

/-- With a discount factor of zero the future has no weight. -/
theorem discount_zero {env : ProcessEnv} {m : UserModel} {p : Processed} (ev : FormulaEval)
    (hp : processModel env m = some p) (hnd : (Dict.keys m.params).Nodup)
    (hother : ∀ q ∈ m.params, mentionsShocks q.1 = true → ∃ c ∈ shockCategories, q.1.1 = c.toList) (senv : SolveEnv)
    (h0 : p.discount.delta = 0) : p.discount.betaDelta = 0 := by
  obtain ⟨⟨delta, -, e2, e3⟩, -⟩ := C84_parameters_by_name (ev := ev) hp hnd hother senv
  have h1 : p.discount.delta = delta := e2
  have h2 : p.discount.betaDelta = _ := e3 _ (List.mem_cons_self ..)
  rw [h2, ← h1, h0, mul_zero]

/-- Without a weight on the future, exact likelihoods do not depend on the values of later periods. -/
theorem IsExactCriterion.of_zero {P : Type} {b : BuildSpec} {w m : Option Nat → CoreState → Nat → ℝ}
    {future : Option Nat → CoreState → List (Option Nat × ℝ)} {V V' : Option Nat → CoreState → ℝ} {e : Estimation P}
    {params : P} {exact : ℝ} (h0 : (e.params params).betaDelta = 0)
    (h : IsExactCriterion b w m future V e params exact) : IsExactCriterion b w m future V' e params exact := by
  obtain ⟨term, x, hterm, hrest⟩ := h
  refine ⟨term, x, fun r hr t ht => ?_, hrest⟩
  obtain ⟨d, hd, ⟨C, hC, hprob⟩, hpos⟩ := hterm r hr t ht
  refine ⟨d, hd, ⟨C, hC, ?_⟩, hpos⟩
  rw [h0] at hprob ⊢
  simpa only [zero_mul] using hprob

theorem solved_criterion_approaches (wf : (p.buildSpec ev).WF core) (senv : SolveEnv) (hdelta : 0 ≤ p.discount.delta)
    (hzero : p.discount.delta = 0 → p.discount.betaDelta = 0)
    {future : Option Nat → CoreState → List (Option Nat × ℝ)} (hfut : IsTransition (p.buildSpec ev) core future)
    {bt : Built} {tr : Dict Nat (List (Nat × List ℝ))} (vc ko : List Nat → List Nat)
    (solution : (n : Nat) → ((size seed t : Nat) → Fin n → Fin size → ℝ) → Option (SimSpace ℝ))
    (hsol : ∀ n z, ∃ par values V', solution n z = some (bt.simSpace (p.buildSpec ev) par values vc ko) ∧
      bt.Solved (p.buildSpec ev) core par (p.solveInput ev senv).wageOf (p.solveInput ev senv).nonpecOf future ∧
      par.transition = tr ∧ SameShape (initialValues bt.space) values ∧
      (∀ d ∈ (p.buildSpec ev).denseIndices, ∀ s ∈ core, bt.ValueAt values d s (V' d s)) ∧
      (p.discount.delta ≠ 0 → IsValueFunction (p.buildSpec ev) core p.discount.delta (p.solveInput ev senv).wageOf
        (p.solveInput ev senv).nonpecOf (p.solveInput ev (senv.withNumbers p.nPeriods n z)).shocks future V') ∧
      (p.discount.delta = 0 → ∀ d ∈ (p.buildSpec ev).denseIndices, ∀ s ∈ core, V' d s = 0))
    (e : EstimateEnv) (hfits : ∀ sp, (p.estimation ev e (some sp)).Fits (p.buildSpec ev) core
      (p.solveInput ev senv).wageOf ()) :
    ∃ V, IsExpectedValueFunction (p.buildSpec ev) core p.discount.delta (p.solveInput ev senv).wageOf
        (p.solveInput ev senv).nonpecOf (fun _ => (p.solveInput ev senv).shockLaw) future V ∧
      SolvedCriterionApproaches (p.buildSpec ev) (p.solveInput ev senv).wageOf (p.solveInput ev senv).nonpecOf future V
        solution fun sp => p.estimation ev e (some sp) := by
  obtain ⟨V, C, hV, hC, hmain⟩ := more_draws (p.buildSpec ev) core wf p ev senv p.discount.delta hdelta future hfut
  obtain ⟨par0, _, _, _, hs0, htr0, _⟩ := hsol 1 fun _ _ _ _ _ => 0
  have hnear : ∃ U : Option Nat → CoreState → ℝ, (p.discount.delta ≠ 0 → U = V) ∧ (p.discount.delta = 0 → U = 0) := by
    by_cases h0 : p.discount.delta = 0
    · exact ⟨0, fun h => absurd h0 h, fun _ => rfl⟩
    · exact ⟨V, fun _ => rfl, fun h => absurd h h0⟩
  obtain ⟨U, hUV, hU0⟩ := hnear
  obtain ⟨exact, hexact, hlim⟩ := hs0.criterion_near hfut U vc ko (p.criterionAt ev e) (fun _ => rfl) (fun _ _ => rfl)
    fun sp => criterionAt_fits _ _ _ _ _ _ (hfits sp)
  refine ⟨V, hV, exact, fun sp => ?_, fun ε hε => ?_⟩
  · have h : IsExactCriterion _ _ _ _ U (p.estimation ev e (some sp)) () exact := hexact sp
    by_cases h0 : p.discount.delta = 0
    · exact h.of_zero (hzero h0)
    · rwa [hUV h0] at h
  obtain ⟨K', η, hη, hbound⟩ := hlim ε hε
  refine ⟨C / η ^ 2, K', ?_⟩
  intro Ω _ Q _ n n' hn hn' Z hZ Z' hZ'
  choose par values V' h1 h2 h3 h4 h5 h6 h7 using fun ω => hsol n fun size seed t i => Z size seed t i ω
  obtain ⟨value, hvalue, hQ⟩ := hbound Ω Q n' hn' Z' hZ' _ V' fun ω => by
    obtain ⟨draws, hfit⟩ := (h2 ω).fit
    exact ⟨par ω, draws, values ω, hfit, (h2 ω).cont, (h3 ω).trans htr0.symm, h4 ω, h5 ω, rfl⟩
  refine ⟨value, fun ω => ⟨_, h1 ω, hvalue ω⟩, hQ.trans (add_le_add ?_ le_rfl)⟩
  by_cases h0 : p.discount.delta = 0
  · refine (measure_mono_null (t := ∅) ?_ measure_empty).le.trans bot_le
    rintro ω ⟨d, hd, s, hs, hle⟩
    rw [h7 ω h0 d hd s hs, hU0 h0] at hle
    simp only [Pi.zero_apply, sub_zero, abs_zero] at hle
    exact absurd hle (not_le.2 hη)
  · rw [hUV h0]
    refine (hmain Ω Q n hn Z hZ V' (fun ω => h6 ω h0) η hη).trans ?_
    rw [div_div, mul_comm]

/-- **C117 (partial).** A supported model without exogenous processes and interpolation and with a discount factor
of at least zero is accepted. It is solved with `n` draws, and the criterion function uses `n'` draws. Then its value is the mean
of the exact log likelihoods of the data up to an error of at most `ε`, except with a probability of at most
`K / n + K' / n'`. The exact likelihoods are those of the model which is solved with the distribution of the shocks.
Missing: as in `C106_accepted_models_partial` and `C116_accepted_models_partial`, except that
the discount factor may be zero. -/
theorem C117_accepted_models_partial (hp : processModel env m = some p) (hev : ev.Contract)
    (hs : p.Supported m ev core) (hcore : createCore (p.buildSpec ev).core = some core)
    (hexo : p.exogenous = []) (hkeep : env.KeepsShape) (hlow : env.LowerTriangular)
    (hnd : (Dict.keys m.params).Nodup)
    (hother : ∀ q ∈ m.params, mentionsShocks q.1 = true → ∃ c ∈ shockCategories, q.1.1 = c.toList)
    (senv : SolveEnv)
    (hsizes : ∀ d ∈ (p.buildSpec ev).denseIndices, ∀ s ∈ core, ((p.buildSpec ev).choiceSetAt d s).count true ∈ senv.sizes)
    (hallowed : ∀ d ∈ (p.buildSpec ev).denseIndices, ∀ s ∈ core, ∃ c ∈ p.choices.choices, p.Allowed m ev d s c)
    (hdelta : 0 ≤ p.discount.delta) (hno : ∀ t, ¬ (p.buildSpec ev).Interpolates core t)
    (rng : InterpolationRandom) (hrng : rng.Contract) (sqrt : ℝ → ℝ) (ols : List ℝ → List (List ℝ) → List ℝ)
    (maxLog : ℝ) (seed : Nat)
    (ev0 : Built → Dict Nat (List ℝ)) (hev0 : ∀ bt, SameShape (initialValues bt.space) (ev0 bt))
    (vc ko : List Nat → List Nat) (e : EstimateEnv)
    (he : e.Fits p m ev core (p.solveInput ev senv).wageOf) :
    ∃ bt V, buildSpace (p.buildSpec ev) = some bt ∧
      IsExpectedValueFunction (p.buildSpec ev) core p.discount.delta (p.solveInput ev senv).wageOf
        (p.solveInput ev senv).nonpecOf (fun _ => (p.solveInput ev senv).shockLaw) (fun d _ => [(d, 1)]) V ∧
      SolvedCriterionApproaches (p.buildSpec ev) (p.solveInput ev senv).wageOf (p.solveInput ev senv).nonpecOf
        (fun d _ => [(d, 1)]) V
        (fun n z => (p.solveInput ev (senv.withNumbers p.nPeriods n z)).solveModel (p.buildSpec ev) (fun _ => some [])
          (kw94 bt.space rng sqrt ols (expShocks Real.exp maxLog p.choices.wWage.length p.cholesky)) seed ev0 vc ko)
        fun sp => p.estimation ev e (some sp) := by
  have wf := C82_processed_models_well_formed hp hev hs hcore
  have hexo' : (p.buildSpec ev).exogLevels = [] := by simp [Processed.buildSpec, hexo]
  have hcs : ∀ d ∈ (p.buildSpec ev).denseIndices, ∀ s ∈ core,
      ∃ a : Nat, ((p.buildSpec ev).choiceSetAt d s)[a]? = some true := by
    intro d hd s hmem
    obtain ⟨c, hc, hall⟩ := hallowed d hd s hmem
    obtain ⟨a, ha⟩ := List.mem_iff_getElem?.1 hc
    exact ⟨a, (C82_choice_sets_by_name hp hev hs.toDescribed hcore d hd s hmem a c ha).2 hall⟩
  obtain ⟨bt, hbuild, hsnd⟩ := buildSpace_noExogenous _ core wf hexo'
  refine ⟨bt, ?_⟩
  obtain ⟨V, hV, h⟩ := solved_criterion_approaches (bt := bt) (tr := []) wf senv hdelta (discount_zero ev hp hnd hother senv)
    (future := fun d _ => [(d, 1)]) (isTransition_static _ _) vc ko
    (fun n z => (p.solveInput ev (senv.withNumbers p.nPeriods n z)).solveModel (p.buildSpec ev) (fun _ => some [])
      (kw94 bt.space rng sqrt ols (expShocks Real.exp maxLog p.choices.wWage.length p.cholesky)) seed ev0 vc ko)
    (fun n z => by
      set inp := p.solveInput ev (senv.withNumbers p.nPeriods n z) with hinpeq
      have hinp : inp.WF (p.buildSpec ev) core := C82_solve_input_well_formed hp hs hcore (denseColumns_static p hexo)
        hkeep hnd hother _ (withNumbers_fits hsizes n z)
      obtain ⟨bt', par, hbuild', h1, hsol⟩ := solution_all (p.buildSpec ev) core wf hexo' inp hinp hcs
        (fun _ t _ ht => absurd ht (hno t)) rng hrng sqrt ols maxLog
      rw [hbuild] at hbuild'; cases hbuild'
      obtain ⟨hok, V, hVF, hV⟩ := hsol seed (ev0 bt) (hev0 bt)
      obtain ⟨par', h1', _, h3, hfit⟩ := hinp.paramsFit wf hsnd []
      rw [h1] at h1'; cases h1'
      refine ⟨par, _, V, ?_, hsnd.solved_noExogenous wf hexo' hbuild
        ((denseLevels_grid p ev).nodup (denseLevels_nodup p)) hfit, h3,
        (hev0 bt).trans (backwardLoop_shape _ _ _ _ _ _), hV,
        fun h0 => (C80_no_interpolation_is_value_function _ _ hno _ _ _ _ _ _ _ _ _).1 (hVF.1 h0), hVF.2⟩
      unfold SolveInput.solveModel
      simp only [hbuild, h1, Option.bind_eq_bind, Option.bind_some]
      exact if_pos hok)
    e (fun sp => EstimateEnv.Fits.estimation hp hev hs hcore hkeep hlow hnd hother e _ he (some sp))
  exact ⟨V, hbuild, hV, h⟩

/-- **C117 (partial)** for models with exogenous processes, if these come last among the observables and there are no
types. -/
theorem C117_models_with_processes_partial (hp : processModel env m = some p) (hev : ev.Contract)
    (hs : p.Supported m ev core) (hcore : createCore (p.buildSpec ev).core = some core)
    (hexo : p.exogenous ≠ []) (static : List (Str × Nat)) (htypes : p.nTypes < 2)
    (hobs : p.observables.map (fun o => (o.1, o.2.length)) = static ++ p.exogenous.map fun o => (o.1, o.2.length))
    (hnames : ∀ e ∈ p.exogenous, ∀ level ∈ e.2, ∀ item ∈ level.2, item.1 ∈ p.columns true)
    (hkeep : env.KeepsShape) (hlow : env.LowerTriangular) (hnd : (Dict.keys m.params).Nodup)
    (hother : ∀ q ∈ m.params, mentionsShocks q.1 = true → ∃ c ∈ shockCategories, q.1.1 = c.toList)
    (senv : SolveEnv)
    (hsizes : ∀ d ∈ (p.buildSpec ev).denseIndices, ∀ s ∈ core, ((p.buildSpec ev).choiceSetAt d s).count true ∈ senv.sizes)
    (hallowed : ∀ d ∈ (p.buildSpec ev).denseIndices, ∀ s ∈ core, ∃ c ∈ p.choices.choices, p.Allowed m ev d s c)
    (hdelta : 0 ≤ p.discount.delta) (hno : ∀ t, ¬ (p.buildSpec ev).Interpolates core t)
    (rng : InterpolationRandom) (hrng : rng.Contract) (sqrt : ℝ → ℝ) (ols : List ℝ → List (List ℝ) → List ℝ)
    (maxLog : ℝ) (seed : Nat)
    (ev0 : Built → Dict Nat (List ℝ)) (hev0 : ∀ bt, SameShape (initialValues bt.space) (ev0 bt))
    (vc ko : List Nat → List Nat) (e : EstimateEnv)
    (he : e.Fits p m ev core (p.solveInput ev senv).wageOf) :
    let future := fun d s => (exogenousGrid (p.exogenous.map fun e => e.2.length)).map fun e =>
      ((p.buildSpec ev).successor d e, levelProbability p.exogenousParams (p.covariates ev d s) e)
    ∃ bt V, buildSpace (p.buildSpec ev) = some bt ∧
      IsExpectedValueFunction (p.buildSpec ev) core p.discount.delta (p.solveInput ev senv).wageOf
        (p.solveInput ev senv).nonpecOf (fun _ => (p.solveInput ev senv).shockLaw) future V ∧
      SolvedCriterionApproaches (p.buildSpec ev) (p.solveInput ev senv).wageOf (p.solveInput ev senv).nonpecOf future V
        (fun n z => (p.solveInput ev (senv.withNumbers p.nPeriods n z)).solveModel (p.buildSpec ev)
          ((p.solveInput ev (senv.withNumbers p.nPeriods n z)).transitions p.exogenousParams (p.buildSpec ev))
          (kw94 bt.space rng sqrt ols (expShocks Real.exp maxLog p.choices.wWage.length p.cholesky)) seed ev0 vc ko)
        fun sp => p.estimation ev e (some sp) := by
  intro future
  have wf := C82_processed_models_well_formed hp hev hs hcore
  obtain ⟨covs, h⟩ := processModel_from env m p hp
  have hx := exogenous_wf p ev hexo static htypes hobs
  have hlen := denseColumns_exogenous p static htypes hobs
  have hgrid := exogenous_grid p ev hexo static htypes hobs
  have hcs : ∀ d ∈ (p.buildSpec ev).denseIndices, ∀ s ∈ core,
      ∃ a : Nat, ((p.buildSpec ev).choiceSetAt d s)[a]? = some true := by
    intro d hd s hmem
    obtain ⟨c, hc, hall⟩ := hallowed d hd s hmem
    obtain ⟨a, ha⟩ := List.mem_iff_getElem?.1 hc
    exact ⟨a, (C82_choice_sets_by_name hp hev hs.toDescribed hcore d hd s hmem a c ha).2 hall⟩
  have hep : p.exogenousParams.map List.length = (p.buildSpec ev).exogLevels := by
    simp [Processed.exogenousParams, Processed.buildSpec, Function.comp_def]
  have hlev : ∀ levels ∈ p.exogenousParams, levels ≠ [] := by
    intro levels hl
    obtain ⟨e, he, rfl⟩ := List.mem_map.1 hl
    intro hne
    exact h.exogenous_ne e he (List.map_eq_nil_iff.1 hne)
  have hcov : ∀ levels ∈ p.exogenousParams, ∀ beta ∈ levels, ∀ item ∈ beta, ∀ d ∈ (p.buildSpec ev).denseIndices,
      ∀ s ∈ core, (p.covariates ev d s item.1).isSome := by
    intro levels hl beta hb item hi d hd s hmem
    obtain ⟨e, he, rfl⟩ := List.mem_map.1 hl
    obtain ⟨level, hlev, rfl⟩ := List.mem_map.1 hb
    refine hs.column h hcore hlen d hd s hmem _ ?_
    have hg : denseGrid p.denseSpec = some _ := hgrid
    rw [hg]
    exact hnames e he level hlev item hi
  have hfut : IsTransition (p.buildSpec ev) core future :=
    isTransition_exogenous _ _ _ hx p.exogenousParams hep hlev (p.covariates ev)
  obtain ⟨bt, reps, hbuild, hsnd, htr, hdpc⟩ := buildSpace_exogenous _ core wf _ hx
  refine ⟨bt, ?_⟩
  obtain ⟨tr, ht, hfit⟩ := (p.solveInput ev senv).transitions_fit p.exogenousParams _ core wf _ hx hep hcov bt reps hsnd
    hdpc
  have hprob := fun d s => (C19_level_probabilities p.exogenousParams hlev (p.covariates ev d s)).2
  have hne : exogenousGrid (p.buildSpec ev).exogLevels ≠ [] := by
    intro h0
    have := hprob none ⟨0, [], []⟩
    rw [hep, h0] at this
    simp at this
  obtain ⟨V, hV, hlim⟩ := solved_criterion_approaches (bt := bt) (tr := tr) wf senv hdelta
    (discount_zero ev hp hnd hother senv) hfut vc ko
    (fun n z => (p.solveInput ev (senv.withNumbers p.nPeriods n z)).solveModel (p.buildSpec ev)
      ((p.solveInput ev (senv.withNumbers p.nPeriods n z)).transitions p.exogenousParams (p.buildSpec ev))
      (kw94 bt.space rng sqrt ols (expShocks Real.exp maxLog p.choices.wWage.length p.cholesky)) seed ev0 vc ko)
    (fun n z => by
      set inp := p.solveInput ev (senv.withNumbers p.nPeriods n z) with hinpeq
      have hinp : inp.WF (p.buildSpec ev) core := C82_solve_input_well_formed hp hs hcore hlen
        hkeep hnd hother _ (withNumbers_fits hsizes n z)
      obtain ⟨bt', tr', par, hbuild', ht', h1, hsol⟩ := solution_all_exogenous (p.buildSpec ev) core wf _ hx inp hinp
        p.exogenousParams hep hlev hcov hcs (fun _ t _ ht => absurd ht (hno t)) rng hrng sqrt ols maxLog
      rw [hbuild] at hbuild'; cases hbuild'
      have htt : inp.transitions p.exogenousParams (p.buildSpec ev) bt = some tr := ht
      rw [htt] at ht'; cases ht'
      obtain ⟨hok, V, hVF, hV⟩ := hsol seed (ev0 bt) (hev0 bt)
      obtain ⟨par', h1', _, h3, hpf⟩ := hinp.paramsFit wf hsnd tr
      rw [h1] at h1'; cases h1'
      refine ⟨par, _, V, ?_, hsnd.solved_exogenous wf hx htr hdpc hpf
          (fun d s e => levelProbability p.exogenousParams (p.covariates ev d s) e) (by rw [h3]; exact hfit) hne ?_, h3,
        (hev0 bt).trans (backwardLoop_shape _ _ _ _ _ _), hV,
        fun h0 => (C80_no_interpolation_is_value_function _ _ hno _ _ _ _ _ _ _ _ _).1 (hVF.1 h0), hVF.2⟩
      · unfold SolveInput.solveModel
        simp only [hbuild, htt, h1, Option.bind_eq_bind, Option.bind_some]
        exact if_pos hok
      · intro d _ s _
        by_contra hcon
        push Not at hcon
        have := hprob d s
        rw [hep, List.map_congr_left (g := fun _ => (0 : ℝ)) (fun e he => hcon e he)] at this
        simp at this)
    e (fun sp => EstimateEnv.Fits.estimation hp hev hs hcore hkeep hlow hnd hother e _ he (some sp))
  exact ⟨V, hbuild, hV, hlim⟩

end

end Respy
