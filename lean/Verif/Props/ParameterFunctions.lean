import Verif.Lemmas.TypeOrder
import Verif.Props.SolveFunction
import Verif.Props.ProcessEstimate

/-!
# C87 Simulate functions and criterion functions at other parameters

`get_simulate_func` and `get_log_like_func` process the options, create a solve function with the processed options
and process them again in every call.
-/

namespace Respy

section
variable {env : ProcessEnv} {m : UserModel} {p q : Processed} {ev : FormulaEval} {core : List CoreState}

theorem SameStructure.formulasSound (h : SameStructure p q) (hf : p.FormulasSound ev) : q.FormulasSound ev := by
  refine ⟨fun c d hcd => hf.accurate c d (h.groups ▸ hcd), fun x hx => ?_, ?_⟩
  · rw [← h.choices, ← h.lags_length, ← h.denseSpec] at hx
    rw [← h.groups]
    exact hf.names x hx
  · rw [← h.denseSpec]
    exact hf.dense

theorem SameStructure.nStatic (h : SameStructure p q) : p.nStatic = q.nStatic := by
  unfold Processed.nStatic
  rw [h.denseSpec]

theorem SameStructure.typeCovariates (h : SameStructure p q) (ev : FormulaEval) :
    p.typeCovariates ev = q.typeCovariates ev := by
  funext r
  unfold Processed.typeCovariates Processed.observationFrame Processed.coreRow
  rw [h.nStatic, h.denseSpec, h.groups, h.choices]

theorem groupShape_names {d d' : Dict Nat (List (Str × ℝ))} (h : groupShape d = groupShape d') (t : Nat) :
    ((Dict.get? d t).getD []).map Prod.fst = ((Dict.get? d' t).getD []).map Prod.fst := by
  have e : ∀ d : Dict Nat (List (Str × ℝ)), ((Dict.get? d t).getD []).map Prod.fst =
      (Dict.get? (groupShape d) t).getD [] := by
    intro d
    induction d with
    | nil => rfl
    | cons a d ih =>
      unfold groupShape at ih ⊢
      rw [List.map_cons, Dict.get?, Dict.get?]
      split
      · rfl
      · exact ih
  rw [e, e, h]

/-- The options which are processed twice, at the parameters of the call. -/
theorem reprocess_groups (hp : processModel env m = some p) (hr : m.Reprocessable p) (θ : Dict (Str × Str) ℝ)
    (hθ : m.SameIndex θ) : ∃ q q', processModel env { m with params := θ } = some q ∧
      processModel env (m.reprocessed p θ) = some q' ∧ SameStructure p q ∧ SameGroups q q' := by
  obtain ⟨q, q', h1, h2, h3, h4⟩ := reprocess_other hp hr θ hθ
  obtain ⟨covs, hpf⟩ := processModel_from env m p hp
  obtain ⟨_, hqf⟩ := processModel_from env _ q h1
  obtain ⟨_, hqf'⟩ := processModel_from env _ q' h2
  refine ⟨q, q', h1, h2, h3, h4.groups hqf hqf' hr.keys ?_⟩
  have hn := (hpf.groupFacts hr.keys).nodup
  unfold UserModel.reprocessed
  unfold Dict.keys at hn ⊢
  rw [List.map_map]
  exact hn

/-- The solve function inside of the simulate function and the criterion function. -/
theorem solve_processed (hp : processModel env m = some p) (hr : m.Reprocessable p) (hf : p.FormulasSound ev)
    (hev : ev.Contract) (r : SolveRoutines) (θ : Dict (Str × Str) ℝ) (hθ : m.SameIndex θ)
    (solve : Dict (Str × Str) ℝ → Option (SimSpace ℝ))
    (hsolve : getSolveFunc env ev r (m.reprocessed p m.params) = some solve)
    (hq : processModel env { m with params := θ } = some q) : solve θ = q.solveWith q ev r := by
  obtain ⟨p2, h1, _, h2⟩ := C85_options_processed_again_partial hp hr
  obtain ⟨q1, q', h3, h4, h5, h6⟩ := reprocess_groups hp hr θ hθ
  rw [hq] at h3
  cases h3
  obtain ⟨q2, _, h7, _, _, h8⟩ := C85_solve_function_partial (ev := ev) h1 h2 r solve hsolve θ ⟨hθ.index, hθ.max⟩
  have h9 : processModel env (m.reprocessed p θ) = some q2 := h7
  rw [h4] at h9
  cases h9
  rw [h8, h6.solveWith (h5.formulasSound hf) hev]

/-- The solve function with processed options is created if the state space of the options can be created. -/
theorem getSolveFunc_processed (hp : processModel env m = some p) (hr : m.Reprocessable p) (hf : p.FormulasSound ev)
    (hev : ev.Contract) (r : SolveRoutines) : (getSolveFunc env ev r (m.reprocessed p m.params)).isSome =
      (buildSpace (p.buildSpec ev)).isSome := by
  obtain ⟨q, q', h1, h2, h3, h4⟩ := reprocess_groups hp hr m.params ⟨rfl, fun _ => rfl⟩
  rw [show processModel env { m with params := m.params } = processModel env m from rfl, hp] at h1
  cases h1
  unfold getSolveFunc
  simp only [h2, Option.bind_eq_bind, Option.bind_some]
  rw [h4.buildSpace hf hev]
  cases buildSpace (q'.buildSpec ev) <;> rfl

/-- **C87 (partial).** The simulate function can be created if the state space can be created, and it simulates the
model at the parameters of the call: for all parameters with the same index and the same maximum experiences, the
sample is that of a function which is created at these parameters, and it is drawn from the model which is processed
once, at these parameters, with its solution. Missing: options whose formulas mention names inside of labels, and
other maximum experiences (C85). -/
theorem C87_simulate_function_partial {G : Type} (hp : processModel env m = some p) (hr : m.Reprocessable p)
    (hev : ev.Contract) (hf : p.FormulasSound ev) (hid : "identifier".toList ∉ Dict.keys p.groups.all)
    (r : SolveRoutines) (e : SimulateEnv G) :
    ((getSimulateFunc env ev r m e).isSome ↔ (buildSpace (p.buildSpec ev)).isSome) ∧
    ∀ simulate, getSimulateFunc env ev r m e = some simulate → ∀ θ, m.SameIndex θ →
      ∃ q simulate', processModel env { m with params := θ } = some q ∧
        getSimulateFunc env ev r { m with params := θ } e = some simulate' ∧
        simulate θ = simulate' θ ∧
        ∀ g, simulate θ g = (q.simulation ev r.senv e (q.solveWith q ev r)).run () g := by
  have main : ∀ {m : UserModel} {p : Processed}, processModel env m = some p → m.Reprocessable p →
      p.FormulasSound ev → "identifier".toList ∉ Dict.keys p.groups.all →
      ∀ simulate, getSimulateFunc env ev r m e = some simulate → ∀ θ, m.SameIndex θ →
      ∀ q, processModel env { m with params := θ } = some q →
        ∀ g, simulate θ g = (q.simulation ev r.senv e (q.solveWith q ev r)).run () g := by
    intro m p hp hr hf hid simulate hs θ hθ q hq g
    unfold getSimulateFunc at hs
    simp only [hp, Option.bind_eq_bind, Option.bind_some] at hs
    obtain ⟨solve, hsolve, hs⟩ := Option.bind_eq_some_iff.1 hs
    simp only [Option.pure_def, Option.some.injEq] at hs
    obtain ⟨q1, q', h1, h2, h3, h4⟩ := reprocess_groups hp hr θ hθ
    rw [hq] at h1
    cases h1
    rw [← hs]
    simp only [h2]
    rw [solve_processed hp hr hf hev r θ hθ solve hsolve hq,
      h4.simulation (h3.formulasSound hf) (h3.groups ▸ hid)]
  have hsome : ∀ {m : UserModel} {p : Processed}, processModel env m = some p → m.Reprocessable p →
      p.FormulasSound ev →
      (getSimulateFunc env ev r m e).isSome = (buildSpace (p.buildSpec ev)).isSome := by
    intro m p hp hr hf
    rw [← getSolveFunc_processed hp hr hf hev r]
    unfold getSimulateFunc
    simp only [hp, Option.bind_eq_bind, Option.bind_some]
    cases getSolveFunc env ev r (m.reprocessed p m.params) <;> rfl
  refine ⟨by rw [hsome hp hr hf], fun simulate hs θ hθ => ?_⟩
  obtain ⟨q, _, hq, _, hst, _⟩ := reprocess_groups hp hr θ hθ
  have hr' : ({ m with params := θ } : UserModel).Reprocessable q := hst.reprocessable (m := m) rfl rfl hr
  have hf' := hst.formulasSound hf
  have hid' : "identifier".toList ∉ Dict.keys q.groups.all := hst.groups ▸ hid
  have h1 := hsome hq hr' hf'
  rw [← hst.buildSpec, ← hsome hp hr hf, hs] at h1
  obtain ⟨simulate', hs'⟩ := Option.isSome_iff_exists.1 h1
  refine ⟨q, simulate', hq, hs', funext fun g => ?_, main hp hr hf hid simulate hs θ hθ q hq⟩
  rw [main hp hr hf hid simulate hs θ hθ q hq,
    main hq hr' hf' hid' simulate' hs' θ ⟨rfl, fun _ => rfl⟩ q hq]

/-- A bound for all types. -/
theorem graded_types (hg : ∀ t beta, Dict.get? p.typeProb t = some beta →
      ∃ bound, Graded p.groups.all (beta.map Prod.fst) bound)
    (hd : ∀ c d, (c, d) ∈ p.groups.all → d.dependsOn.Nodup) :
    ∃ n, ∀ t, ∃ bound, Graded p.groups.all (((Dict.get? p.typeProb t).getD []).map Prod.fst) bound ∧ bound ≤ n := by
  obtain ⟨n, hn⟩ := eventually_all (Dict.keys p.typeProb) (fun t n => ∃ bound,
      Graded p.groups.all (((Dict.get? p.typeProb t).getD []).map Prod.fst) bound ∧ bound ≤ n) (by
    intro t ht
    obtain ⟨beta, hb⟩ := (get?_isSome_iff _ t).2 ht
    obtain ⟨bound, h⟩ := hg t beta hb
    exact ⟨bound, fun n' hn' => ⟨bound, by rw [hb]; exact h, hn'⟩⟩)
  refine ⟨n, fun t => ?_⟩
  by_cases ht : t ∈ Dict.keys p.typeProb
  · exact hn n le_rfl t ht
  · rw [(Dict.get?_eq_none_iff _ _).2 ht]
    have hno : ∀ n k, ¬ ReachedIn p.groups.all [] n k := by
      intro n k h
      induction h with
      | start k hk => cases hk
      | step _ _ _ _ _ _ _ ih => exact ih
    exact ⟨0, ⟨fun c d hc => hd c d (Dict.mem_of_get? _ _ _ hc), fun k n m _ h1 => absurd h1 (hno n k),
      fun n k h1 => absurd h1 (hno n k)⟩, by omega⟩

/-- The criterion function with options which are processed twice. -/
theorem SameGroups.estimationWith {p0 : Processed} (h : SameGroups p q) (h0 : SameStructure p0 p)
    (hf : p.FormulasSound ev) (hid : "identifier".toList ∉ Dict.keys p.groups.all) (e : EstimateEnv)
    (ho : ∀ n l, (e.order n l).Perm l)
    (hg : ∀ t, ∃ bound, Graded p.groups.all (((Dict.get? p.typeProb t).getD []).map Prod.fst) bound ∧
      bound + 1 ≤ e.fuel) (sp : Option (SimSpace ℝ)) :
    p0.estimationWith q ev e sp = p.estimation ev e sp := by
  have hcov : (fun (r : EstimationRow) t x => (p0.typeFrameWith q ev e r t).bind fun df => Dict.get? df.columns x) =
      fun r t x => (p.typeFrame ev e r t).bind fun df => Dict.get? df.columns x := by
    funext r t x
    obtain ⟨bound, h1, h2⟩ := hg t
    have h3 := h.typeFrameWith hf hid (h0.typeCovariates ev) e ho r t bound h1 h2
    generalize p.typeFrame ev e r t = a at h3
    generalize p0.typeFrameWith q ev e r t = b at h3
    cases h3 with
    | none => rfl
    | some h => exact (h.columns x).symm
  have hpar : q.likelihoodParams = p.likelihoodParams := by
    unfold Processed.likelihoodParams
    rw [h.same.cholesky, h.same.choices, h.same.measurement, h.same.discount, h.same.typeProb]
  unfold Processed.estimationWith
  rw [hcov, hpar]
  unfold Processed.estimation
  rw [h0.nTypes, h0.nStatic, h0.nPeriods]

/-- **C87 (partial).** The criterion function can be created if the state space can be created, and its value is the
value of the model at the parameters of the call: for all parameters with the same index and the same maximum
experiences, it is the value of a function which is created at these parameters, and the one of the model which is
processed once, at these parameters, with its solution. `fuel` bounds the number of passes of the search for covariates
of type probabilities. Missing: options whose formulas mention names inside of labels, other maximum experiences
(C85), and searches for covariates which do not end (C54). -/
theorem C87_criterion_function_partial (hp : processModel env m = some p) (hr : m.Reprocessable p)
    (hev : ev.Contract) (hf : p.FormulasSound ev) (hid : "identifier".toList ∉ Dict.keys p.groups.all)
    (hg : ∀ t beta, Dict.get? p.typeProb t = some beta → ∃ bound, Graded p.groups.all (beta.map Prod.fst) bound)
    (r : SolveRoutines) :
    ∃ fuel, ∀ e : EstimateEnv, (∀ n l, (e.order n l).Perm l) → fuel ≤ e.fuel →
      ((getCriterionFunc env ev r m e).isSome ↔ (buildSpace (p.buildSpec ev)).isSome) ∧
      ∀ logLike, getCriterionFunc env ev r m e = some logLike → ∀ θ, m.SameIndex θ →
        ∃ q logLike', processModel env { m with params := θ } = some q ∧
          getCriterionFunc env ev r { m with params := θ } e = some logLike' ∧
          logLike θ = logLike' θ ∧
          logLike θ = (q.estimation ev e (q.solveWith q ev r)).logLike () := by
  obtain ⟨covs, hpf⟩ := processModel_from env m p hp
  have hfacts := hpf.groupFacts hr.keys
  obtain ⟨n, hn⟩ := graded_types hg hfacts.deps_nodup
  refine ⟨n + 1, fun e ho hfuel => ?_⟩
  have hbounds : ∀ {q : Processed}, SameStructure p q → ∀ t, ∃ bound,
      Graded q.groups.all (((Dict.get? q.typeProb t).getD []).map Prod.fst) bound ∧ bound + 1 ≤ e.fuel := by
    intro q h t
    obtain ⟨bound, h1, h2⟩ := hn t
    rw [groupShape_names h.typeProb, h.groups] at h1
    exact ⟨bound, h1, by omega⟩
  have main : ∀ {m : UserModel} {p1 : Processed}, processModel env m = some p1 → SameStructure p p1 →
      m.Reprocessable p1 →
      ∀ logLike, getCriterionFunc env ev r m e = some logLike → ∀ θ, m.SameIndex θ →
      ∀ q, processModel env { m with params := θ } = some q → SameStructure p q →
        logLike θ = (q.estimation ev e (q.solveWith q ev r)).logLike () := by
    intro m p1 hp1 hst1 hr1 logLike hs θ hθ q hq hst
    unfold getCriterionFunc at hs
    simp only [hp1, Option.bind_eq_bind, Option.bind_some] at hs
    obtain ⟨solve, hsolve, hs⟩ := Option.bind_eq_some_iff.1 hs
    simp only [Option.pure_def, Option.some.injEq] at hs
    obtain ⟨q1, q', h1, h2, h3, h4⟩ := reprocess_groups hp1 hr1 θ hθ
    rw [hq] at h1
    cases h1
    rw [← hs]
    simp only [h2, Option.bind_some]
    rw [solve_processed hp1 hr1 (hst1.formulasSound hf) hev r θ hθ solve hsolve hq,
      h4.estimationWith h3 (hst.formulasSound hf) (hst.groups ▸ hid) e ho (hbounds hst)]
  have hsome : ∀ {m : UserModel} {p : Processed}, processModel env m = some p → m.Reprocessable p →
      p.FormulasSound ev →
      (getCriterionFunc env ev r m e).isSome = (buildSpace (p.buildSpec ev)).isSome := by
    intro m p hp hr hf
    rw [← getSolveFunc_processed hp hr hf hev r]
    unfold getCriterionFunc
    simp only [hp, Option.bind_eq_bind, Option.bind_some]
    cases getSolveFunc env ev r (m.reprocessed p m.params) <;> rfl
  have hrefl : SameStructure p p := ⟨rfl, rfl, rfl, rfl, rfl, rfl, ⟨rfl, rfl⟩, rfl, rfl, rfl, rfl, rfl, rfl,
    fun _ => rfl, fun _ => rfl⟩
  refine ⟨by rw [hsome hp hr hf], fun logLike hs θ hθ => ?_⟩
  obtain ⟨q, _, hq, _, hst, _⟩ := reprocess_groups hp hr θ hθ
  have hr' : ({ m with params := θ } : UserModel).Reprocessable q := hst.reprocessable (m := m) rfl rfl hr
  have h1 := hsome hq hr' (hst.formulasSound hf)
  rw [← hst.buildSpec, ← hsome hp hr hf, hs] at h1
  obtain ⟨logLike', hs'⟩ := Option.isSome_iff_exists.1 h1
  have h2 := main hp hrefl hr logLike hs θ hθ q hq hst
  refine ⟨q, logLike', hq, hs', ?_, h2⟩
  rw [h2, main hq hst hr' logLike' hs' θ ⟨rfl, fun _ => rfl⟩ q hq hst]

/-- The solution of a model without exogenous processes. -/
theorem solveWith_static (hexo : q.exogenous = []) (r : SolveRoutines) (bt : Built) (sp : SimSpace ℝ)
    (hb : buildSpace (q.buildSpec ev) = some bt)
    (h : (q.solveInput ev r.senv).solveModel (q.buildSpec ev) (fun _ => some []) (kw94 bt.space r.rng r.sqrt r.ols
      (expShocks Real.exp r.maxLog q.choices.wWage.length q.cholesky)) r.seed r.ev0 r.valueCounts r.keyOrder =
        some sp) : q.solveWith q ev r = some sp := by
  unfold Processed.solveWith
  simp only [hb, Option.bind_some, hexo, if_true]
  exact h

/-- The solution of a model with exogenous processes. -/
theorem solveWith_exogenous (hexo : q.exogenous ≠ []) (r : SolveRoutines) (bt : Built) (sp : SimSpace ℝ)
    (hb : buildSpace (q.buildSpec ev) = some bt)
    (h : (q.solveInput ev r.senv).solveModel (q.buildSpec ev)
      ((q.solveInput ev r.senv).transitions q.exogenousParams (q.buildSpec ev)) (kw94 bt.space r.rng r.sqrt r.ols
      (expShocks Real.exp r.maxLog q.choices.wWage.length q.cholesky)) r.seed r.ev0 r.valueCounts r.keyOrder =
        some sp) : q.solveWith q ev r = some sp := by
  unfold Processed.solveWith
  simp only [hb, Option.bind_some, hexo, if_false]
  exact h

/-- **C87 (partial).** With `C83`: the simulate function exists, and the samples which it returns at `θ` follow the
model at `θ`, which is processed to `q`. -/
theorem C87_samples_at_parameters_partial {G : Type} (hp : processModel env m = some p) (hr : m.Reprocessable p)
    (hev : ev.Contract) (hf : p.FormulasSound ev) (hid : "identifier".toList ∉ Dict.keys p.groups.all)
    (θ : Dict (Str × Str) ℝ) (hθ : m.SameIndex θ) (hq : processModel env { m with params := θ } = some q)
    (hs : q.Supported { m with params := θ } ev core) (hcore : createCore (q.buildSpec ev).core = some core)
    (hexo : q.exogenous = []) (hkeep : env.KeepsShape) (hnd : (Dict.keys θ).Nodup)
    (hother : ∀ x ∈ θ, mentionsShocks x.1 = true → ∃ c ∈ shockCategories, x.1.1 = c.toList)
    (r : SolveRoutines) (hfit : r.senv.Fits (q.buildSpec ev) core)
    (hallowed : ∀ d ∈ (q.buildSpec ev).denseIndices, ∀ s ∈ core,
      ∃ c ∈ q.choices.choices, q.Allowed { m with params := θ } ev d s c)
    (hpts : (q.buildSpec ev).PointsSuffice core q.discount.delta) (hrng : r.rng.Contract)
    (hev0 : ∀ bt, SameShape (initialValues bt.space) (r.ev0 bt))
    (hvc : ∀ l x, x ∈ r.valueCounts l ↔ x ∈ l) (hko : ∀ l x, x ∈ r.keyOrder l ↔ x ∈ l)
    (e : SimulateEnv G) (hsam : q.Samplable ev e.input) (he : e.Fits q (q.buildSpec ev)) :
    ∃ simulate sp V, getSimulateFunc env ev r m e = some simulate ∧
      IsSolution (q.buildSpec ev) core q.discount.delta (q.solveInput ev r.senv).wageOf
        (q.solveInput ev r.senv).nonpecOf (q.solveInput ev r.senv).shocks (fun d _ => [(d, 1)])
        (expectedShock Real.exp r.maxLog q.choices.wWage.length q.cholesky) r.sqrt r.ols V ∧
      ∀ g, simulate θ g = (q.simulation ev r.senv e (some sp)).run () g ∧
        SampleFollows (q.buildSpec ev) core (q.solveInput ev r.senv).wageOf (q.solveInput ev r.senv).nonpecOf
          (fun d _ => [(d, 1)]) V (q.simulation ev r.senv e (some sp)) () g := by
  obtain ⟨bt, sp, V, h1, h2, h3, h4⟩ := C83_samples_of_accepted_models_partial (G := G) hq hev hs hcore hexo hkeep hnd
    hother r.senv hfit hallowed hpts r.rng hrng r.sqrt r.ols r.maxLog r.seed r.ev0 hev0 r.valueCounts r.keyOrder hvc hko
  obtain ⟨k1, k2⟩ := C87_simulate_function_partial hp hr hev hf hid r e
  obtain ⟨q1, _, hq1, _, hst, _⟩ := reprocess_groups hp hr θ hθ
  rw [hq] at hq1
  cases hq1
  obtain ⟨simulate, hsim⟩ := Option.isSome_iff_exists.1 (k1.2 (by rw [hst.buildSpec, h1]; rfl))
  obtain ⟨q2, _, hq2, _, _, k3⟩ := k2 simulate hsim θ hθ
  rw [hq] at hq2
  cases hq2
  refine ⟨simulate, sp, V, hsim, h3, fun g => ⟨?_, h4 e hsam he g⟩⟩
  rw [k3, solveWith_static hexo r bt sp h1 h2]

/-- **C87 (partial)** for models with exogenous processes, if these come last among the observables and there are no
types. -/
theorem C87_samples_with_processes_partial {G : Type} (hp : processModel env m = some p) (hr : m.Reprocessable p)
    (hev : ev.Contract) (hf : p.FormulasSound ev) (hid : "identifier".toList ∉ Dict.keys p.groups.all)
    (θ : Dict (Str × Str) ℝ) (hθ : m.SameIndex θ) (hq : processModel env { m with params := θ } = some q)
    (hs : q.Supported { m with params := θ } ev core) (hcore : createCore (q.buildSpec ev).core = some core)
    (hexo : q.exogenous ≠ []) (static : List (Str × Nat)) (htypes : q.nTypes < 2)
    (hobs : q.observables.map (fun o => (o.1, o.2.length)) = static ++ q.exogenous.map fun o => (o.1, o.2.length))
    (hnames : ∀ e ∈ q.exogenous, ∀ level ∈ e.2, ∀ item ∈ level.2, item.1 ∈ q.columns true)
    (hkeep : env.KeepsShape) (hnd : (Dict.keys θ).Nodup)
    (hother : ∀ x ∈ θ, mentionsShocks x.1 = true → ∃ c ∈ shockCategories, x.1.1 = c.toList)
    (r : SolveRoutines) (hfit : r.senv.Fits (q.buildSpec ev) core)
    (hallowed : ∀ d ∈ (q.buildSpec ev).denseIndices, ∀ s ∈ core,
      ∃ c ∈ q.choices.choices, q.Allowed { m with params := θ } ev d s c)
    (hpts : (q.buildSpec ev).PointsSuffice core q.discount.delta) (hrng : r.rng.Contract)
    (hev0 : ∀ bt, SameShape (initialValues bt.space) (r.ev0 bt))
    (hvc : ∀ l x, x ∈ r.valueCounts l ↔ x ∈ l) (hko : ∀ l x, x ∈ r.keyOrder l ↔ x ∈ l)
    (e : SimulateEnv G) (hsam : q.Samplable ev e.input) (he : e.Fits q (q.buildSpec ev)) :
    let future := fun d s => (exogenousGrid (q.exogenous.map fun e => e.2.length)).map fun e =>
      ((q.buildSpec ev).successor d e, levelProbability q.exogenousParams (q.covariates ev d s) e)
    ∃ simulate sp V, getSimulateFunc env ev r m e = some simulate ∧
      IsSolution (q.buildSpec ev) core q.discount.delta (q.solveInput ev r.senv).wageOf
        (q.solveInput ev r.senv).nonpecOf (q.solveInput ev r.senv).shocks future
        (expectedShock Real.exp r.maxLog q.choices.wWage.length q.cholesky) r.sqrt r.ols V ∧
      ∀ g, simulate θ g = (q.simulation ev r.senv e (some sp)).run () g ∧
        SampleFollows (q.buildSpec ev) core (q.solveInput ev r.senv).wageOf (q.solveInput ev r.senv).nonpecOf
          future V (q.simulation ev r.senv e (some sp)) () g := by
  intro future
  obtain ⟨bt, sp, V, h1, h2, h3, h4⟩ := C83_samples_of_exogenous_models_partial (G := G) hq hev hs hcore hexo static
    htypes hobs hnames hkeep hnd hother r.senv hfit hallowed hpts r.rng hrng r.sqrt r.ols r.maxLog r.seed r.ev0 hev0
    r.valueCounts r.keyOrder hvc hko e hsam he
  obtain ⟨k1, k2⟩ := C87_simulate_function_partial hp hr hev hf hid r e
  obtain ⟨q1, _, hq1, _, hst, _⟩ := reprocess_groups hp hr θ hθ
  rw [hq] at hq1
  cases hq1
  obtain ⟨simulate, hsim⟩ := Option.isSome_iff_exists.1 (k1.2 (by rw [hst.buildSpec, h1]; rfl))
  obtain ⟨q2, _, hq2, _, _, k3⟩ := k2 simulate hsim θ hθ
  rw [hq] at hq2
  cases hq2
  refine ⟨simulate, sp, V, hsim, h3, fun g => ⟨?_, h4 g⟩⟩
  rw [k3, solveWith_exogenous hexo r bt sp h1 h2]

/-- **C87 (partial).** With `C84`: the criterion function exists, and its value at `θ` is the log likelihood of the
model at `θ`, which is processed to `q`. -/
theorem C87_criterion_at_parameters_partial (hp : processModel env m = some p) (hr : m.Reprocessable p)
    (hev : ev.Contract) (hf : p.FormulasSound ev) (hid : "identifier".toList ∉ Dict.keys p.groups.all)
    (hg : ∀ t beta, Dict.get? p.typeProb t = some beta → ∃ bound, Graded p.groups.all (beta.map Prod.fst) bound)
    (θ : Dict (Str × Str) ℝ) (hθ : m.SameIndex θ) (hq : processModel env { m with params := θ } = some q)
    (hs : q.Supported { m with params := θ } ev core) (hcore : createCore (q.buildSpec ev).core = some core)
    (hexo : q.exogenous = []) (hkeep : env.KeepsShape) (hlow : env.LowerTriangular) (hnd : (Dict.keys θ).Nodup)
    (hother : ∀ x ∈ θ, mentionsShocks x.1 = true → ∃ c ∈ shockCategories, x.1.1 = c.toList)
    (r : SolveRoutines) (hfit : r.senv.Fits (q.buildSpec ev) core)
    (hallowed : ∀ d ∈ (q.buildSpec ev).denseIndices, ∀ s ∈ core,
      ∃ c ∈ q.choices.choices, q.Allowed { m with params := θ } ev d s c)
    (hpts : (q.buildSpec ev).PointsSuffice core q.discount.delta) (hrng : r.rng.Contract)
    (hev0 : ∀ bt, SameShape (initialValues bt.space) (r.ev0 bt)) :
    ∃ fuel, ∀ e : EstimateEnv, (∀ n l, (e.order n l).Perm l) → fuel ≤ e.fuel →
      e.Fits q { m with params := θ } ev core (q.solveInput ev r.senv).wageOf →
      ∃ logLike sp V size source, getCriterionFunc env ev r m e = some logLike ∧
        IsSolution (q.buildSpec ev) core q.discount.delta (q.solveInput ev r.senv).wageOf
          (q.solveInput ev r.senv).nonpecOf (q.solveInput ev r.senv).shocks (fun d _ => [(d, 1)])
          (expectedShock Real.exp r.maxLog q.choices.wWage.length q.cholesky) r.sqrt r.ols V ∧
        logLike θ = (q.estimation ev e (some sp)).logLike () ∧
        CriterionFollows (q.buildSpec ev) (q.solveInput ev r.senv).wageOf (q.solveInput ev r.senv).nonpecOf
          (fun d _ => [(d, 1)]) V size source (q.estimation ev e (some sp)) () := by
  obtain ⟨fuel, k⟩ := C87_criterion_function_partial hp hr hev hf hid hg r
  refine ⟨fuel, fun e ho hfuel he => ?_⟩
  obtain ⟨bt, sp, V, size, source, h1, h2, h3, h4⟩ := C84_criterion_of_accepted_models_partial hq hev hs hcore hexo hkeep
    hlow hnd hother r.senv hfit hallowed hpts r.rng hrng r.sqrt r.ols r.maxLog r.seed r.ev0 hev0 r.valueCounts r.keyOrder
    e he
  obtain ⟨k1, k2⟩ := k e ho hfuel
  obtain ⟨q1, _, hq1, _, hst, _⟩ := reprocess_groups hp hr θ hθ
  rw [hq] at hq1
  cases hq1
  obtain ⟨logLike, hl⟩ := Option.isSome_iff_exists.1 (k1.2 (by rw [hst.buildSpec, h1]; rfl))
  obtain ⟨q2, _, hq2, _, _, k3⟩ := k2 logLike hl θ hθ
  rw [hq] at hq2
  cases hq2
  exact ⟨logLike, sp, V, size, source, hl, h3, by rw [k3, solveWith_static hexo r bt sp h1 h2], h4⟩

/-- **C87 (partial)** for the criterion functions of models with exogenous processes, if these come last among the
observables and there are no types. -/
theorem C87_criterion_with_processes_partial (hp : processModel env m = some p) (hr : m.Reprocessable p)
    (hev : ev.Contract) (hf : p.FormulasSound ev) (hid : "identifier".toList ∉ Dict.keys p.groups.all)
    (hg : ∀ t beta, Dict.get? p.typeProb t = some beta → ∃ bound, Graded p.groups.all (beta.map Prod.fst) bound)
    (θ : Dict (Str × Str) ℝ) (hθ : m.SameIndex θ) (hq : processModel env { m with params := θ } = some q)
    (hs : q.Supported { m with params := θ } ev core) (hcore : createCore (q.buildSpec ev).core = some core)
    (hexo : q.exogenous ≠ []) (static : List (Str × Nat)) (htypes : q.nTypes < 2)
    (hobs : q.observables.map (fun o => (o.1, o.2.length)) = static ++ q.exogenous.map fun o => (o.1, o.2.length))
    (hnames : ∀ e ∈ q.exogenous, ∀ level ∈ e.2, ∀ item ∈ level.2, item.1 ∈ q.columns true)
    (hkeep : env.KeepsShape) (hlow : env.LowerTriangular) (hnd : (Dict.keys θ).Nodup)
    (hother : ∀ x ∈ θ, mentionsShocks x.1 = true → ∃ c ∈ shockCategories, x.1.1 = c.toList)
    (r : SolveRoutines) (hfit : r.senv.Fits (q.buildSpec ev) core)
    (hallowed : ∀ d ∈ (q.buildSpec ev).denseIndices, ∀ s ∈ core,
      ∃ c ∈ q.choices.choices, q.Allowed { m with params := θ } ev d s c)
    (hpts : (q.buildSpec ev).PointsSuffice core q.discount.delta) (hrng : r.rng.Contract)
    (hev0 : ∀ bt, SameShape (initialValues bt.space) (r.ev0 bt)) :
    let future := fun d s => (exogenousGrid (q.exogenous.map fun e => e.2.length)).map fun e =>
      ((q.buildSpec ev).successor d e, levelProbability q.exogenousParams (q.covariates ev d s) e)
    ∃ fuel, ∀ e : EstimateEnv, (∀ n l, (e.order n l).Perm l) → fuel ≤ e.fuel →
      e.Fits q { m with params := θ } ev core (q.solveInput ev r.senv).wageOf →
      ∃ logLike sp V size source, getCriterionFunc env ev r m e = some logLike ∧
        IsSolution (q.buildSpec ev) core q.discount.delta (q.solveInput ev r.senv).wageOf
          (q.solveInput ev r.senv).nonpecOf (q.solveInput ev r.senv).shocks future
          (expectedShock Real.exp r.maxLog q.choices.wWage.length q.cholesky) r.sqrt r.ols V ∧
        logLike θ = (q.estimation ev e (some sp)).logLike () ∧
        CriterionFollows (q.buildSpec ev) (q.solveInput ev r.senv).wageOf (q.solveInput ev r.senv).nonpecOf
          future V size source (q.estimation ev e (some sp)) () := by
  intro future
  obtain ⟨fuel, k⟩ := C87_criterion_function_partial hp hr hev hf hid hg r
  refine ⟨fuel, fun e ho hfuel he => ?_⟩
  obtain ⟨bt, sp, V, size, source, h1, h2, h3, h4⟩ := C84_criterion_of_exogenous_models_partial hq hev hs hcore hexo
    static htypes hobs hnames hkeep hlow hnd hother r.senv hfit hallowed hpts r.rng hrng r.sqrt r.ols r.maxLog r.seed r.ev0 hev0 r.valueCounts r.keyOrder
    e he
  obtain ⟨k1, k2⟩ := k e ho hfuel
  obtain ⟨q1, _, hq1, _, hst, _⟩ := reprocess_groups hp hr θ hθ
  rw [hq] at hq1
  cases hq1
  obtain ⟨logLike, hl⟩ := Option.isSome_iff_exists.1 (k1.2 (by rw [hst.buildSpec, h1]; rfl))
  obtain ⟨q2, _, hq2, _, _, k3⟩ := k2 logLike hl θ hθ
  rw [hq] at hq2
  cases hq2
  exact ⟨logLike, sp, V, size, source, hl, h3, by rw [k3, solveWith_exogenous hexo r bt sp h1 h2], h4⟩

end

end Respy
