import Verif.Lemmas.TypeFrame
import Verif.Props.ProcessSimulate
import Verif.Props.MeasurementErrors
import Verif.Props.Types

/-!
# C84: from parameters and options to the criterion function

The criterion function of models which are accepted by `process_params_and_options` is the likelihood of the data in the
model which the parameters and options name.
-/

namespace Respy

section
variable {env : ProcessEnv} {m : UserModel} {p : Processed} {ev : FormulaEval} {core : List CoreState}
  {covariates : Dict Str Str}

theorem ProcessedFrom.cholesky_lower (h : ProcessedFrom env m p covariates) (hlow : env.LowerTriangular)
    (hnd : (Dict.keys m.params).Nodup)
    (hother : ∀ q ∈ m.params, mentionsShocks q.1 = true → ∃ c ∈ shockCategories, q.1.1 = c.toList) (i j : Nat)
    (hij : i < j) : entry p.cholesky i j = 0 := by
  obtain ⟨sh, h1, h2⟩ := h.shocks
  have hval := h.validated
  rw [h.choices] at hval
  have hm := C77_shock_matrix m.params hnd covariates hother sh h1 hval
  rw [← h.choices] at hm
  obtain ⟨hdim, hent⟩ := hm
  rw [h2]
  unfold ShockMatrix.cholesky
  dsimp only
  split
  · next hk =>
    unfold entry
    by_cases hj : j < sh.dim
    · have hi : i < sh.dim := by omega
      have := hent j i _ _ (List.getElem?_eq_getElem (by omega)) (List.getElem?_eq_getElem (by omega))
      rw [hk] at this
      have h0 := (this.2 hij).2
      simp [hi, hj, h0]
    · by_cases hi : i < sh.dim
      · simp [hi, hj]
      · simp [hi]
  · exact hlow _ _ _ hij

/-- The criterion function with the solution as parameter. -/
noncomputable def Processed.criterionAt (p : Processed) (ev : FormulaEval) (e : EstimateEnv) :
    Estimation (SimSpace ℝ) :=
  { p.estimation ev e none with params := fun _ => p.likelihoodParams, solve := some }

theorem criterionAt_follows (p : Processed) (ev : FormulaEval) (e : EstimateEnv) (b : BuildSpec)
    (w n : Option Nat → CoreState → Nat → ℝ) (future : Option Nat → CoreState → List (Option Nat × ℝ))
    (V : Option Nat → CoreState → ℝ) (size : Nat → Nat × Nat) (source : Nat → Nat → Nat → Nat × Nat)
    (sp : SimSpace ℝ) (h : CriterionFollows b w n future V size source (p.criterionAt ev e) sp) :
    CriterionFollows b w n future V size source (p.estimation ev e (some sp)) () := h

theorem criterionAt_fits (p : Processed) (ev : FormulaEval) (e : EstimateEnv) (b : BuildSpec)
    (w : Option Nat → CoreState → Nat → ℝ) (sp : SimSpace ℝ)
    (h : (p.estimation ev e (some sp)).Fits b core w ()) : (p.criterionAt ev e).Fits b core w sp :=
  ⟨h.qr, h.cholesky, h.lo, h.hi, h.base, h.periods, h.rows, h.cols, h.lower, h.choices, h.wages, h.index, h.first,
    h.states⟩

/-- Data which fit to a processed model fit to the criterion function. -/
theorem EstimateEnv.Fits.estimation (hp : processModel env m = some p) (hev : ev.Contract)
    (hs : p.Supported m ev core) (hcore : createCore (p.buildSpec ev).core = some core)
    (hkeep : env.KeepsShape) (hlow : env.LowerTriangular) (hnd : (Dict.keys m.params).Nodup)
    (hother : ∀ q ∈ m.params, mentionsShocks q.1 = true → ∃ c ∈ shockCategories, q.1.1 = c.toList)
    (e : EstimateEnv) (w : Option Nat → CoreState → Nat → ℝ) (he : e.Fits p m ev core w)
    (sp : Option (SimSpace ℝ)) : (p.estimation ev e sp).Fits (p.buildSpec ev) core w () := by
  obtain ⟨covs, h⟩ := processModel_from env m p hp
  have hmeas := h.measurement_length
  obtain ⟨hc1, hc2⟩ := h.cholesky_shape hkeep hnd hother
  refine ⟨he.qr, he.cholesky, he.lo, he.hi, he.base, rfl, (hmeas.trans hc1.symm).le,
    fun row hr => (hmeas.trans (hc2 row hr).symm).le, h.cholesky_lower hlow hnd hother,
    fun d _ s _ => (choiceSetAt_length p ev d s).trans hmeas.symm, ?_, he.index, he.first, fun r hr => ?_⟩
  · have hpre := (C46_order (m.params.map Prod.fst) covs).2
    rw [← h.choices] at hpre
    exact ((hpre.1.trans hpre.2.1).length_le).trans hmeas.symm.le
  · obtain ⟨h1, h2⟩ := he.states r hr
    refine ⟨h1, fun t ht => ?_⟩
    obtain ⟨d, c, h3, h4, h5, h6⟩ := h2 t ht
    have hst : ((p.estimation ev e sp).stateOf r t).dense = p.denseOf r t := by
      unfold Estimation.stateOf Processed.denseOf
      have : (p.estimation ev e sp).nTypes = p.nTypes := rfl
      rw [this]
      split <;> rfl
    have hd : d ∈ (p.buildSpec ev).denseIndices := by
      unfold BuildSpec.HasIndex at h3
      unfold BuildSpec.denseIndices
      split at h3
      · next hg => rw [hg, h3]; simp
      · next grid hg =>
        obtain ⟨i, rfl, hi⟩ := h3
        rw [hg]
        exact List.mem_map.2 ⟨i, List.mem_range.2 (List.getElem?_eq_some_iff.1 hi).1, rfl⟩
    refine ⟨d, by rw [hst]; exact h3, ?_, h6⟩
    exact (C82_choice_sets_by_name hp hev hs.toDescribed hcore d hd _ h1 _ c h4).2 h5

/-- **C84 (partial).** The criterion function of every supported model without exogenous processes which is accepted: the model
is solved, and for all data which fit to the model the value is the likelihood of the data in the model whose
restrictions, rewards and starting values are given by name (`C82_choice_sets_by_name`, `C82_wages_by_name`,
`C82_nonpecs_by_name`). Missing: models whose creation fails (C86), more than one lag,
experiences which do not fit into eight bits, and wages for which C79 makes no statement. -/
theorem C84_criterion_of_accepted_models_partial (hp : processModel env m = some p) (hev : ev.Contract)
    (hs : p.Supported m ev core) (hcore : createCore (p.buildSpec ev).core = some core)
    (hexo : p.exogenous = []) (hkeep : env.KeepsShape) (hlow : env.LowerTriangular)
    (hnd : (Dict.keys m.params).Nodup)
    (hother : ∀ q ∈ m.params, mentionsShocks q.1 = true → ∃ c ∈ shockCategories, q.1.1 = c.toList)
    (senv : SolveEnv) (hfit : senv.Fits (p.buildSpec ev) core)
    (hallowed : ∀ d ∈ (p.buildSpec ev).denseIndices, ∀ s ∈ core, ∃ c ∈ p.choices.choices, p.Allowed m ev d s c)
    (hpts : (p.buildSpec ev).PointsSuffice core p.discount.delta)
    (rng : InterpolationRandom) (hrng : rng.Contract) (sqrt : ℝ → ℝ) (ols : List ℝ → List (List ℝ) → List ℝ)
    (maxLog : ℝ) (seed : Nat)
    (ev0 : Built → Dict Nat (List ℝ)) (hev0 : ∀ bt, SameShape (initialValues bt.space) (ev0 bt))
    (vc ko : List Nat → List Nat) (e : EstimateEnv)
    (he : e.Fits p m ev core (p.solveInput ev senv).wageOf) :
    ∃ bt sp V size source, buildSpace (p.buildSpec ev) = some bt ∧
      (p.solveInput ev senv).solveModel (p.buildSpec ev) (fun _ => some []) (kw94 bt.space rng sqrt ols
        (expShocks Real.exp maxLog p.choices.wWage.length p.cholesky)) seed ev0 vc ko = some sp ∧
      IsSolution (p.buildSpec ev) core p.discount.delta (p.solveInput ev senv).wageOf
        (p.solveInput ev senv).nonpecOf (p.solveInput ev senv).shocks (fun d _ => [(d, 1)])
        (expectedShock Real.exp maxLog p.choices.wWage.length p.cholesky) sqrt ols V ∧
      CriterionFollows (p.buildSpec ev) (p.solveInput ev senv).wageOf (p.solveInput ev senv).nonpecOf
        (fun d _ => [(d, 1)]) V size source (p.estimation ev e (some sp)) () := by
  have hcs : ∀ d ∈ (p.buildSpec ev).denseIndices, ∀ s ∈ core,
      ∃ a : Nat, ((p.buildSpec ev).choiceSetAt d s)[a]? = some true := by
    intro d hd s hmem
    obtain ⟨c, hc, hall⟩ := hallowed d hd s hmem
    obtain ⟨a, ha⟩ := List.mem_iff_getElem?.1 hc
    exact ⟨a, (C82_choice_sets_by_name hp hev hs.toDescribed hcore d hd s hmem a c ha).2 hall⟩
  obtain ⟨bt, size, source, hbuild, hsol⟩ := C79_criterion_of_any_solution (p.buildSpec ev) core
    (C82_processed_models_well_formed hp hev hs hcore) (by simp [Processed.buildSpec, hexo])
    p.denseLevels (denseLevels_grid p ev) (denseLevels_nodup p) hcs (p.criterionAt ev e)
  obtain ⟨sp, V, h1, h2, h3⟩ := hsol (p.solveInput ev senv)
    (C82_solve_input_well_formed hp hs hcore (denseColumns_static p hexo) hkeep hnd hother senv hfit)
    hpts rng hrng sqrt ols maxLog seed ev0 hev0 vc ko
  refine ⟨bt, sp, V, size, source, hbuild, h1, h2, criterionAt_follows _ _ _ _ _ _ _ _ _ _ _ (h3 sp rfl ?_)⟩
  exact criterionAt_fits _ _ _ _ _ _
    (EstimateEnv.Fits.estimation hp hev hs hcore hkeep hlow hnd hother e _ he (some sp))

/-- **C84 (partial)** for models with exogenous processes, if these come last among the observables and there are no
types: the continuation values are weighted with the logit probabilities of the processes. -/
theorem C84_criterion_of_exogenous_models_partial (hp : processModel env m = some p) (hev : ev.Contract)
    (hs : p.Supported m ev core) (hcore : createCore (p.buildSpec ev).core = some core)
    (hexo : p.exogenous ≠ []) (static : List (Str × Nat)) (htypes : p.nTypes < 2)
    (hobs : p.observables.map (fun o => (o.1, o.2.length)) = static ++ p.exogenous.map fun o => (o.1, o.2.length))
    (hnames : ∀ e ∈ p.exogenous, ∀ level ∈ e.2, ∀ item ∈ level.2, item.1 ∈ p.columns true)
    (hkeep : env.KeepsShape) (hlow : env.LowerTriangular) (hnd : (Dict.keys m.params).Nodup)
    (hother : ∀ q ∈ m.params, mentionsShocks q.1 = true → ∃ c ∈ shockCategories, q.1.1 = c.toList)
    (senv : SolveEnv) (hfit : senv.Fits (p.buildSpec ev) core)
    (hallowed : ∀ d ∈ (p.buildSpec ev).denseIndices, ∀ s ∈ core, ∃ c ∈ p.choices.choices, p.Allowed m ev d s c)
    (hpts : (p.buildSpec ev).PointsSuffice core p.discount.delta)
    (rng : InterpolationRandom) (hrng : rng.Contract) (sqrt : ℝ → ℝ) (ols : List ℝ → List (List ℝ) → List ℝ)
    (maxLog : ℝ) (seed : Nat)
    (ev0 : Built → Dict Nat (List ℝ)) (hev0 : ∀ bt, SameShape (initialValues bt.space) (ev0 bt))
    (vc ko : List Nat → List Nat) (e : EstimateEnv)
    (he : e.Fits p m ev core (p.solveInput ev senv).wageOf) :
    let future := fun d s => (exogenousGrid (p.exogenous.map fun e => e.2.length)).map fun e =>
      ((p.buildSpec ev).successor d e, levelProbability p.exogenousParams (p.covariates ev d s) e)
    ∃ bt sp V size source, buildSpace (p.buildSpec ev) = some bt ∧
      (p.solveInput ev senv).solveModel (p.buildSpec ev)
        ((p.solveInput ev senv).transitions p.exogenousParams (p.buildSpec ev)) (kw94 bt.space rng sqrt ols
        (expShocks Real.exp maxLog p.choices.wWage.length p.cholesky)) seed ev0 vc ko = some sp ∧
      IsSolution (p.buildSpec ev) core p.discount.delta (p.solveInput ev senv).wageOf
        (p.solveInput ev senv).nonpecOf (p.solveInput ev senv).shocks future
        (expectedShock Real.exp maxLog p.choices.wWage.length p.cholesky) sqrt ols V ∧
      CriterionFollows (p.buildSpec ev) (p.solveInput ev senv).wageOf (p.solveInput ev senv).nonpecOf
        future V size source (p.estimation ev e (some sp)) () := by
  intro future
  obtain ⟨covs, h⟩ := processModel_from env m p hp
  have hcs : ∀ d ∈ (p.buildSpec ev).denseIndices, ∀ s ∈ core,
      ∃ a : Nat, ((p.buildSpec ev).choiceSetAt d s)[a]? = some true := by
    intro d hd s hmem
    obtain ⟨c, hc, hall⟩ := hallowed d hd s hmem
    obtain ⟨a, ha⟩ := List.mem_iff_getElem?.1 hc
    exact ⟨a, (C82_choice_sets_by_name hp hev hs.toDescribed hcore d hd s hmem a c ha).2 hall⟩
  have hlen := denseColumns_exogenous p static htypes hobs
  have hgrid := exogenous_grid p ev hexo static htypes hobs
  obtain ⟨bt, size, source, hbuild, hsol⟩ := C79_exogenous_criterion_of_any_solution (p.buildSpec ev) core
    (C82_processed_models_well_formed hp hev hs hcore) _ (exogenous_wf p ev hexo static htypes hobs) hcs
    (p.criterionAt ev e)
  obtain ⟨sp, V, h1, h2, h3⟩ := hsol (p.solveInput ev senv)
    (C82_solve_input_well_formed hp hs hcore hlen hkeep hnd hother senv hfit)
    hpts p.exogenousParams (by simp [Processed.exogenousParams, Processed.buildSpec, Function.comp_def])
    (by
      intro levels hl
      obtain ⟨e, he, rfl⟩ := List.mem_map.1 hl
      intro hne
      exact h.exogenous_ne e he (List.map_eq_nil_iff.1 hne))
    (by
      intro levels hl beta hb item hi d hd s hmem
      obtain ⟨e, he, rfl⟩ := List.mem_map.1 hl
      obtain ⟨level, hlev, rfl⟩ := List.mem_map.1 hb
      refine hs.column h hcore hlen d hd s hmem _ ?_
      have hg : denseGrid p.denseSpec = some _ := hgrid
      rw [hg]
      exact hnames e he level hlev item hi)
    rng hrng sqrt ols maxLog seed ev0 hev0 vc ko
  refine ⟨bt, sp, V, size, source, hbuild, h1, h2, criterionAt_follows _ _ _ _ _ _ _ _ _ _ _ (h3 sp rfl ?_)⟩
  exact criterionAt_fits _ _ _ _ _ _
    (EstimateEnv.Fits.estimation hp hev hs hcore hkeep hlow hnd hother e _ he (some sp))

/-- **C84.** The parameters of solution, simulation and likelihood by name: the solution discounts with `delta`, the others
with `delta` times `beta`, the standard deviation of the measurement error of the choice `c` is the parameter `sd_c`
(zero for choices without wage and for models without measurement errors), choices with wages come first, and all use
the factor of the matrix of C77. -/
theorem C84_parameters_by_name (hp : processModel env m = some p) (hnd : (Dict.keys m.params).Nodup)
    (hother : ∀ q ∈ m.params, mentionsShocks q.1 = true → ∃ c ∈ shockCategories, q.1.1 = c.toList)
    (senv : SolveEnv) :
    (∃ delta, Dict.get? m.params ("delta".toList, "delta".toList) = some delta ∧
      (p.solveInput ev senv).delta = delta ∧
      ∀ x ∈ [(p.rewardParams senv).betaDelta, p.likelihoodParams.betaDelta],
        x = (Dict.get? m.params ("beta".toList, "beta".toList)).getD 1 * delta) ∧
    (p.likelihoodParams.hasMeasError = true ↔ ∃ q ∈ m.params, q.1.1 = "meas_error".toList) ∧
    (∀ (a : Nat) (c : Str), p.choices.choices[a]? = some c →
      (∀ n ∈ [(p.solveInput ev senv).nWages, (p.rewardParams senv).nWagesRaw, p.likelihoodParams.nWagesRaw],
        a < n ↔ MentionsWage (m.params.map Prod.fst) c) ∧
      ∀ sds ∈ [(p.rewardParams senv).measError, p.likelihoodParams.measError],
        ((∃ q ∈ m.params, q.1.1 = "meas_error".toList) → MentionsWage (m.params.map Prod.fst) c →
          ∃ v, Dict.get? m.params ("meas_error".toList, "sd_".toList ++ c) = some v ∧ sds[a]? = some v) ∧
        ((¬ ∃ q ∈ m.params, q.1.1 = "meas_error".toList) ∨ ¬ MentionsWage (m.params.map Prod.fst) c →
          sds[a]? = some 0)) ∧
    ∃ sh : ShockMatrix ℝ, sh.MatchesNames m.params p.choices.choices ∧
      ∀ L ∈ [(p.solveInput ev senv).cholesky, (p.rewardParams senv).cholesky, p.likelihoodParams.cholesky],
        (sh.kind = .chol → L.length = sh.dim ∧ ∀ i < sh.dim, ∀ j < sh.dim, entry L i j = sh.entry i j) ∧
        (sh.kind ≠ .chol → L = env.robustCholesky ((List.range sh.dim).map fun i =>
          (List.range sh.dim).map (sh.entry i))) := by
  obtain ⟨covs, h⟩ := processModel_from env m p hp
  have hmeas := h.measurement
  have hch := h.choices
  refine ⟨?_, ?_, ?_, ?_⟩
  · have hd := h.discount
    have hd' := hd
    unfold parseDiscount at hd'
    simp only [Option.bind_eq_bind, Option.bind_eq_some_iff] at hd'
    obtain ⟨delta, h1, h2⟩ := hd'
    obtain ⟨d, g1, g2, g3, g4, _⟩ := C65_discount_factors m.params delta h1
    rw [hd] at g1
    cases g1
    refine ⟨delta, h1, g2, ?_⟩
    have : p.discount.betaDelta = (Dict.get? m.params ("beta".toList, "beta".toList)).getD 1 * delta := by
      cases hb : Dict.get? m.params ("beta".toList, "beta".toList) with
      | none => rw [g3 hb]; simp
      | some beta => rw [(g4 beta hb).1]; simp
    intro x hx
    simp only [List.mem_cons, List.not_mem_nil, or_false] at hx
    rcases hx with rfl | rfl <;> exact this
  · rw [hch] at hmeas
    exact (C76_own_standard_deviation m.params covs _ _ hmeas).1
  · intro a c hc
    have hmeas' := hmeas
    rw [hch] at hmeas hc
    obtain ⟨g1, g2, g3⟩ := C76_own_standard_deviation m.params covs _ _ hmeas
    obtain ⟨k1, k2, k3, _, _, _⟩ := C46_order (m.params.map Prod.fst) covs
    have hcn := (C46_unique_codes (m.params.map Prod.fst) covs).1
    have hw : a < p.choices.wWage.length ↔ MentionsWage (m.params.map Prod.fst) c := by
      rw [hch, ← k1 c]
      obtain ⟨t, ht⟩ := k2.trans k3
      constructor
      · intro hlt
        rw [← ht, List.getElem?_append_left hlt] at hc
        exact List.mem_of_getElem? hc
      · intro hmem
        obtain ⟨b, hb⟩ := List.mem_iff_getElem?.1 hmem
        have hb1 := (List.getElem?_eq_some_iff.1 hb).1
        rw [← List.getElem?_append_left (l₂ := t) hb1, ht] at hb
        obtain ⟨ha1, ha2⟩ := List.getElem?_eq_some_iff.1 hc
        obtain ⟨hb2, hb3⟩ := List.getElem?_eq_some_iff.1 hb
        have : b = a := (List.Nodup.getElem_inj_iff hcn).1 (hb3.trans ha2.symm)
        omega
    refine ⟨?_, ?_⟩
    · intro n hn
      simp only [List.mem_cons, List.not_mem_nil, or_false] at hn
      rcases hn with rfl | rfl | rfl <;> exact hw
    · have key : ((∃ q ∈ m.params, q.1.1 = "meas_error".toList) → MentionsWage (m.params.map Prod.fst) c →
          ∃ v, Dict.get? m.params ("meas_error".toList, "sd_".toList ++ c) = some v ∧ p.measurement.2[a]? = some v) ∧
        ((¬ ∃ q ∈ m.params, q.1.1 = "meas_error".toList) ∨ ¬ MentionsWage (m.params.map Prod.fst) c →
          p.measurement.2[a]? = some 0) := by
        refine ⟨fun hq hm => ?_, fun hq => (g3 a c hc).2 ?_⟩
        · obtain ⟨v, h1, h2⟩ := (g3 a c hc).1 (g1.2 hq) hm
          exact ⟨v, h2, h1⟩
        · rcases hq with hq | hq
          · left
            rw [← Bool.not_eq_true]
            exact fun h => hq (g1.1 h)
          · exact Or.inr hq
      intro sds hsds
      simp only [List.mem_cons, List.not_mem_nil, or_false] at hsds
      rcases hsds with rfl | rfl <;> exact key
  · obtain ⟨sh, h1, h2⟩ := h.shocks
    have hval := h.validated
    rw [h.choices] at hval
    have hm := C77_shock_matrix m.params hnd covs hother sh h1 hval
    rw [← h.choices] at hm
    refine ⟨sh, hm, ?_⟩
    have key : (sh.kind = .chol → p.cholesky.length = sh.dim ∧
          ∀ i < sh.dim, ∀ j < sh.dim, entry p.cholesky i j = sh.entry i j) ∧
        (sh.kind ≠ .chol → p.cholesky = env.robustCholesky ((List.range sh.dim).map fun i =>
          (List.range sh.dim).map (sh.entry i))) := by
      rw [h2]
      unfold ShockMatrix.cholesky
      dsimp only
      by_cases hk : sh.kind = .chol
      · simp only [if_pos hk]
        refine ⟨fun _ => ⟨by simp, fun i hi j hj => ?_⟩, fun hne => absurd hk hne⟩
        simp [entry, hi, hj]
      · simp only [if_neg hk]
        exact ⟨fun hk' => absurd hk' hk, fun _ => trivial⟩
    intro L hL
    simp only [List.mem_cons, List.not_mem_nil, or_false] at hL
    rcases hL with rfl | rfl | rfl <;> exact key

theorem typeProb_position (d : Dict Nat (List (Str × ℝ))) (n : Nat) (hk : Dict.keys d = List.range n) (t : Nat)
    (ht : t < n) : ∃ beta, Dict.get? d t = some beta ∧ (d.map Prod.snd).getD t [] = beta := by
  have hl : d.length = n := by
    have := congrArg List.length hk
    simpa [Dict.keys] using this
  have ht' : t < d.length := by omega
  have h1 : (Dict.keys d)[t]? = some t := by rw [hk]; simp [ht]
  have h2 : d[t].1 = t := by
    simp only [Dict.keys, List.getElem?_map, List.getElem?_eq_getElem ht', Option.map_some, Option.some.injEq] at h1
    exact h1
  refine ⟨d[t].2, ?_, by simp [ht']⟩
  refine Dict.get?_of_mem _ (by rw [hk]; exact List.nodup_range) _ _ ?_
  have : (t, d[t].2) = d[t] := Prod.ext h2.symm rfl
  rw [this]
  exact List.getElem_mem ht'

/-- The index of a type for an observation, by the covariates of its state. -/
theorem typeScore_value (hp : processModel env m = some p) (hc : (Dict.keys m.covariates).Nodup)
    (hf : p.FormulasSound ev) (hs : p.Supported m ev core) (hcore : createCore (p.buildSpec ev).core = some core)
    (hlen : ∀ grid, denseGrid p.denseSpec = some grid → ∀ point ∈ grid,
      (denseColumns p.denseSpec).length ≤ point.length)
    (hts : p.TypesSound) (hnt : 2 ≤ p.nTypes)
    (hprob : ∀ q ∈ m.params, (typeIndex q.1.1).isSome → q.1.2 ≠ "probability".toList ∧
      ∀ i, typeIndex q.1.1 = some i → i < p.nTypes)
    (e : EstimateEnv) (ho : ∀ n l, (e.order n l).Perm l) (sp : Option (SimSpace ℝ)) (r : EstimationRow)
    (hmem : r.state.core ∈ core) (t : Nat) (ht : t < p.nTypes) (d : Option Nat)
    (hd : (p.buildSpec ev).HasIndex (p.denseOf r t) d) :
    ∃ fuel, ∀ fuel', fuel ≤ fuel' →
      typeScore (p.estimation ev { e with fuel := fuel' } sp) p.likelihoodParams r t =
        ((m.params.filter fun q => typeIndex q.1.1 = some t).map fun q =>
          q.2 * (p.covariates ev d r.state.core q.1.2).getD 0).sum := by
  obtain ⟨covs, h⟩ := processModel_from env m p hp
  obtain ⟨beta, hb1, hb2⟩ := typeProb_position _ _ hts.keys t ht
  obtain ⟨bound, hg⟩ := hts.graded t beta hb1
  unfold BuildSpec.HasIndex at hd
  cases hgr : denseGrid p.denseSpec with
  | none =>
    exact absurd hnt (denseGrid_none _ hgr).2
  | some grid =>
    have hgr' : (p.buildSpec ev).grid = some grid := hgr
    rw [hgr'] at hd
    obtain ⟨i, rfl, hi⟩ := hd
    unfold Processed.denseOf at hi
    rw [if_pos hnt] at hi
    obtain ⟨df1, hdf1, fuel, found, hfound, defs, hdefs, df, hdf, hval⟩ := typeFrame_value h hc hf hs hcore hlen
      hts.identifier hts.constants hnt r hmem t grid i hgr hi (beta.map Prod.fst) bound hg
      (fun x hx => by
        obtain ⟨item, hit, rfl⟩ := List.mem_map.1 hx
        exact (hts.names t beta hb1 item hit).1) e.order ho
    refine ⟨fuel, fun fuel' hle => ?_⟩
    have hframe : p.typeFrame ev { e with fuel := fuel' } r t = some df := by
      unfold Processed.typeFrame
      rw [hdf1, hb1]
      simp only [Option.bind_eq_bind, Option.bind_some, Option.getD_some]
      rw [hfound fuel' hle]
      simp only [Except.toOption, Option.bind_some]
      rw [hdefs]
      simp only [Option.bind_some]
      rw [hdf]
    have h1 : typeScore (p.estimation ev { e with fuel := fuel' } sp) p.likelihoodParams r t =
        (beta.map fun item => item.2 * (p.covariates ev (some i) r.state.core item.1).getD 0).sum := by
      unfold typeScore
      have : p.likelihoodParams.typeProb.getD t [] = beta := hb2
      rw [this]
      refine congrArg List.sum (List.map_congr_left fun item hit => ?_)
      have hcov : (p.estimation ev { e with fuel := fuel' } sp).covariates r t item.1 =
          Dict.get? df.columns item.1 := by
        show ((p.typeFrame ev { e with fuel := fuel' } r t).bind fun df => Dict.get? df.columns item.1) = _
        rw [hframe]; rfl
      obtain ⟨_, n1, n2⟩ := hts.names t beta hb1 item hit
      rw [hcov, (hval item.1 (List.mem_map.2 ⟨item, hit, rfl⟩) n1 n2).1]
    rw [h1]
    by_cases hown : ∃ q ∈ m.params, typeIndex q.1.1 = some t
    · have := C55_own_coefficients env.maxFloat m.params _ _ h.types hnt
        (fun q hq hs => (hprob q hq hs).1) t hown
      rw [hb1] at this
      cases this
      rw [List.map_map]
      rfl
    · push Not at hown
      have := (C55_entries_partial env.maxFloat m.params _ _ h.types hnt
        (fun q hq i hi => (hprob q hq (by rw [hi]; rfl)).2 i hi)).2 t ht hown
      rw [hb1] at this
      cases this
      rw [List.filter_eq_nil_iff.2 (fun q hq => by simpa using hown q hq)]
      simp

theorem eventually_all {α : Type _} (l : List α) (P : α → Nat → Prop)
    (h : ∀ x ∈ l, ∃ n, ∀ n', n ≤ n' → P x n') : ∃ n, ∀ n', n ≤ n' → ∀ x ∈ l, P x n' := by
  induction l with
  | nil => exact ⟨0, fun _ _ x hx => by cases hx⟩
  | cons a l ih =>
    obtain ⟨n1, h1⟩ := h a (by simp)
    obtain ⟨n2, h2⟩ := ih fun x hx => h x (List.mem_cons_of_mem _ hx)
    refine ⟨max n1 n2, fun n' hn x hx => ?_⟩
    rcases List.mem_cons.1 hx with rfl | hx
    · exact h1 n' (by omega)
    · exact h2 n' (by omega) x hx

/-- **C84.** The index of type `t` for an observation is the sum over the parameters in the category `type_t`, each
multiplied with the covariate of its name in the state of the observation if the individual has this type. It is zero
for the baseline. All passes of `identify_necessary_covariates` are finished after `fuel` many. -/
theorem C84_type_scores (hp : processModel env m = some p) (hc : (Dict.keys m.covariates).Nodup)
    (hf : p.FormulasSound ev) (hs : p.Supported m ev core) (hcore : createCore (p.buildSpec ev).core = some core)
    (hlen : ∀ grid, denseGrid p.denseSpec = some grid → ∀ point ∈ grid,
      (denseColumns p.denseSpec).length ≤ point.length)
    (hts : p.TypesSound) (hnt : 2 ≤ p.nTypes)
    (hprob : ∀ q ∈ m.params, (typeIndex q.1.1).isSome → q.1.2 ≠ "probability".toList ∧
      ∀ i, typeIndex q.1.1 = some i → i < p.nTypes)
    (e : EstimateEnv) (ho : ∀ n l, (e.order n l).Perm l) (sp : Option (SimSpace ℝ))
    (hdata : ∀ r ∈ e.data, r.state.core ∈ core) :
    ∃ fuel, ∀ fuel', fuel ≤ fuel' → ∀ r ∈ e.data, ∀ t < p.nTypes, ∀ d,
      (p.buildSpec ev).HasIndex (p.denseOf r t) d →
        (∀ q ∈ m.params, typeIndex q.1.1 = some t → (p.covariates ev d r.state.core q.1.2).isSome) ∧
        typeScore (p.estimation ev { e with fuel := fuel' } sp) p.likelihoodParams r t =
          ((m.params.filter fun q => typeIndex q.1.1 = some t).map fun q =>
            q.2 * (p.covariates ev d r.state.core q.1.2).getD 0).sum := by
  obtain ⟨covs, h⟩ := processModel_from env m p hp
  have hind : ∀ r t d, (p.buildSpec ev).HasIndex (p.denseOf r t) d → d ∈ (p.buildSpec ev).denseIndices := by
    intro r t d hd
    unfold BuildSpec.HasIndex at hd
    unfold BuildSpec.denseIndices
    split at hd
    · next hg => rw [hg, hd]; simp
    · next grid hg =>
      obtain ⟨i, rfl, hi⟩ := hd
      rw [hg]
      exact List.mem_map.2 ⟨i, List.mem_range.2 (List.getElem?_eq_some_iff.1 hi).1, rfl⟩
  obtain ⟨fuel, hfuel⟩ := eventually_all e.data (fun r fuel' => ∀ t ∈ List.range p.nTypes,
    ∀ d ∈ (p.buildSpec ev).denseIndices, (p.buildSpec ev).HasIndex (p.denseOf r t) d →
      typeScore (p.estimation ev { e with fuel := fuel' } sp) p.likelihoodParams r t =
          ((m.params.filter fun q => typeIndex q.1.1 = some t).map fun q =>
            q.2 * (p.covariates ev d r.state.core q.1.2).getD 0).sum) (fun r hr =>
    eventually_all _ _ fun t ht => eventually_all _ _ fun d _ => by
      by_cases hd : (p.buildSpec ev).HasIndex (p.denseOf r t) d
      · obtain ⟨n, hn⟩ := typeScore_value hp hc hf hs hcore hlen hts hnt hprob e ho sp r (hdata r hr) t
          (List.mem_range.1 ht) d hd
        exact ⟨n, fun n' h1 _ => hn n' h1⟩
      · exact ⟨0, fun _ _ hd' => absurd hd' hd⟩)
  refine ⟨fuel, fun fuel' hle r hr t ht d hd => ⟨fun q hq hqt => ?_,
    hfuel fuel' hle r hr t (List.mem_range.2 ht) d (hind r t d hd) hd⟩⟩
  have hown := C55_own_coefficients env.maxFloat m.params _ _ h.types hnt
    (fun q hq hs => (hprob q hq hs).1) t ⟨q, hq, hqt⟩
  have hmem := (hts.names t _ hown (q.1.2, q.2) (List.mem_map.2 ⟨q, List.mem_filter.2 ⟨hq, by simpa using hqt⟩, rfl⟩)).1
  refine hs.column h hcore hlen d (hind r t d hd) _ (hdata r hr) _ ?_
  cases hgr : denseGrid p.denseSpec with
  | none => exact absurd hnt (denseGrid_none _ hgr).2
  | some grid => exact hmem

/-- **C84.** The covariates of a state: state variables have the values of the state, every covariate of the user
which is needed has the value of its formula (with labels replaced by codes, C49) for the covariates of the state, and
`type_i` has the value of `type == i`. -/
theorem C84_covariates_by_formula (hp : processModel env m = some p) (hc : (Dict.keys m.covariates).Nodup)
    (hf : p.FormulasSound ev) (hs : p.Supported m ev core) (hcore : createCore (p.buildSpec ev).core = some core)
    (hlen : ∀ grid, denseGrid p.denseSpec = some grid → ∀ point ∈ grid,
      (denseColumns p.denseSpec).length ≤ point.length)
    (d : Option Nat) (hd : d ∈ (p.buildSpec ev).denseIndices) (s : CoreState) (hmem : s ∈ core) :
    (∀ x v, Dict.get? (p.stateVariables d s) x = some v → p.covariates ev d s x = some v) ∧
    (∀ c f, (c, f) ∈ m.covariates → Needed m.covariates (m.params.map fun q => q.1.2) c →
      (∀ i, 1 ≤ i → i < p.nTypes → c ≠ "type_".toList ++ Nat.toDigits 10 i) →
      ∃ v, p.covariates ev d s c = some v ∧ ev.value (p.covariates ev d s)
        (replaceLabels p.choices.choices (textLevels p.observables) f) = some v) ∧
    ∀ i, 1 ≤ i → i < p.nTypes → ∃ v, p.covariates ev d s ("type_".toList ++ Nat.toDigits 10 i) = some v ∧
      ev.value (p.covariates ev d s) ("type == ".toList ++ Nat.toDigits 10 i) = some v := by
  obtain ⟨covs, h⟩ := processModel_from env m p hp
  have G := h.groupFacts hc
  have hsh := hs.shaped h hcore s hmem
  have hvalue := covariates_value h hc hf hs.names d hd s hsh (hs.computable d hd s hmem)
  have hkeys := h.formula_keys hc
  obtain ⟨G', hG', hall, _⟩ := C68_groups _ hkeys _ _ (separateCovariates_base _ _ _ _ h.groups)
  rw [h.groups] at hG'
  cases hG'
  have hformula : ∀ c f, (c, f) ∈ addTypeCovariates p.nTypes covs → ∃ v, p.covariates ev d s c = some v ∧
      ev.value (p.covariates ev d s) (replaceLabels p.choices.choices (textLevels p.observables) f) = some v := by
    intro c f hcf
    have hm : (c, replaceLabels p.choices.choices (textLevels p.observables) f) ∈
        p.groups.all.map fun kd => (kd.1, kd.2.formula) := by
      rw [hall]; exact List.mem_map.2 ⟨_, hcf, rfl⟩
    obtain ⟨⟨c', def'⟩, hcd, heq⟩ := List.mem_map.1 hm
    simp only [Prod.mk.injEq] at heq
    obtain ⟨rfl, hff⟩ := heq
    have hsome : (p.covariates ev d s c').isSome := by
      refine hs.column h hcore hlen d hd s hmem _ ?_
      cases hgr : denseGrid p.denseSpec with
      | none =>
        have h0 := denseGrid_none _ hgr
        have hbase : denseBaseColumns (Dict.keys p.observables) p.nTypes = [] := by
          unfold denseBaseColumns
          have : p.observables = [] := List.map_eq_nil_iff.1 h0.1
          have hnt : ¬ 2 ≤ p.nTypes := h0.2
          rw [this, if_neg hnt]; rfl
        have := G.core_of_static hbase _ hcd
        exact List.mem_append_left _ (List.mem_append_right _ (List.mem_map.2 ⟨_, this, rfl⟩))
      | some grid =>
        exact List.mem_append_right _ (List.mem_append_right _ (List.mem_map.2 ⟨_, hcd, rfl⟩))
    obtain ⟨v, hv⟩ := Option.isSome_iff_exists.1 hsome
    refine ⟨v, hv, ?_⟩
    have hcv := (hvalue c' v).1 hv
    cases hcv with
    | given _ _ hl =>
      exfalso
      have : Dict.get? (p.stateVariables d s) c' = some v := by
        rwa [lookup_noIndex] at hl
      rw [stateVariables_covariate hf d s hsh c' (List.mem_map.2 ⟨_, hcd, rfl⟩)] at this
      cases this
    | computed _ d2 env2 _ _ hm2 hex hval hev =>
      have : d2 = def' := by
        have h1 := Dict.get?_of_mem _ G.nodup _ _ hm2
        have h2 := Dict.get?_of_mem _ G.nodup _ _ hcd
        rw [h1] at h2
        exact Option.some.inj h2
      subst this
      rw [← hff, ← hev]
      refine (hf.accurate c' d2 hcd).same _ _ fun x hx => ?_
      obtain ⟨w, hw, _⟩ := hex x hx
      rw [hw]
      exact (hvalue x w).2 (hval x hx w hw)
  refine ⟨fun x v hx => (hvalue x v).2 (.given _ _ (by rw [lookup_noIndex]; exact hx)), fun c f hcf hn hne => ?_,
    fun i h1 h2 => ?_⟩
  · refine hformula c f ?_
    obtain ⟨r, hr, hrn, _, hr2⟩ := C52_relevant_covariates m.covariates hc (m.params.map fun q => q.1.2)
    rw [h.relevant] at hr
    cases hr
    have hin := (hr2 c f).2 ⟨hcf, hn⟩
    refine Dict.mem_of_get? _ _ _ ?_
    have hget := Dict.get?_of_mem _ hrn _ _ hin
    unfold addTypeCovariates
    split
    · rw [get?_update_of_not_mem, hget]
      intro hk
      obtain ⟨kv, hkv, rfl⟩ := List.mem_map.1 hk
      obtain ⟨i, hi, rfl⟩ := List.mem_map.1 hkv
      rw [List.mem_range'_1] at hi
      exact hne i hi.1 (by omega) rfl
    · exact hget
  · have hin : ("type_".toList ++ Nat.toDigits 10 i, "type == ".toList ++ Nat.toDigits 10 i) ∈
        addTypeCovariates p.nTypes covs := by
      refine Dict.mem_of_get? _ _ _ ?_
      unfold addTypeCovariates
      rw [if_pos (by omega)]
      refine get?_update_of_mem _ _ ?_ _ _ (List.mem_map.2 ⟨i, List.mem_range'_1.2 ⟨h1, by omega⟩, rfl⟩)
      unfold Dict.keys
      rw [List.map_map]
      refine List.Nodup.map_on (fun a _ b _ hab => ?_) List.nodup_range'
      have ha := C55_type_names a
      have hb := C55_type_names b
      have hab' : "type_".toList ++ Nat.toDigits 10 a = "type_".toList ++ Nat.toDigits 10 b := hab
      rw [hab', hb] at ha
      exact (Option.some.inj ha).symm
    have hq : ∀ q ∈ ['\'', '"'], q ∉ "type == ".toList ++ Nat.toDigits 10 i := by
      have q1 : ∀ q ∈ ['\'', '"'], q ∉ "type == ".toList := by decide
      have q2 : ∀ q ∈ ['\'', '"'], ¬ q.isDigit = true := by decide
      intro q hq hmem
      rcases List.mem_append.1 hmem with hmem | hmem
      · exact q1 q hq hmem
      · exact q2 q hq (Nat.isDigit_of_mem_toDigits (by omega) (by omega) hmem)
    have := hformula _ _ hin
    rw [replaceLabels_absent _ _ _ (hq _ (by simp)) (hq _ (by simp))] at this
    exact this

end

end Respy
