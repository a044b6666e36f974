import Verif.Lemmas.SolveFunction
import Verif.Props.ProcessModelExample
import Verif.Props.ProcessSimulate

/-!
# C85 The solve function at other parameters

`get_solve_func(params, options)` creates the state space and processes the options. The function which it returns
processes the processed options again, together with the parameters of the call.
-/

namespace Respy

variable {env : ProcessEnv} {m : UserModel} {p : Processed} {ev : FormulaEval} {core : List CoreState}

/-- The parameters `θ` have the index and the maximum experiences of the model. -/
structure UserModel.SameIndex (m : UserModel) (θ : Dict (Str × Str) ℝ) : Prop where
  index : m.params.map Prod.fst = θ.map Prod.fst
  max : ∀ c, (Dict.get? m.params ("maximum_exp".toList, c)).map Nat.floor =
    (Dict.get? θ ("maximum_exp".toList, c)).map Nat.floor

/-- **C85.** Whether a model is accepted and how its state space looks like depends only on the options, the index
of the parameters and the maximum experiences: no other value of a parameter changes states, choice sets or
covariates. -/
theorem C85_state_space_of_index (env : ProcessEnv) (m : UserModel) (θ : Dict (Str × Str) ℝ) (hθ : m.SameIndex θ) :
    (processModel env m = none ↔ processModel env { m with params := θ } = none) ∧
    ∀ p q, processModel env m = some p → processModel env { m with params := θ } = some q →
      p.choices = q.choices ∧ p.nTypes = q.nTypes ∧ p.columns = q.columns ∧
      ∀ ev, p.buildSpec ev = q.buildSpec ev ∧ p.covariates ev = q.covariates ev := by
  have h := processModel_sameIndex env m θ hθ.index hθ.max
  constructor
  · generalize processModel env m = x at h
    generalize processModel env { m with params := θ } = y at h
    cases h with
    | some _ => simp
    | none => exact Iff.rfl
  · intro p q hp hq
    rw [hp, hq] at h
    cases h with
    | some h => exact ⟨h.choices, h.nTypes, h.columns, fun ev => ⟨h.buildSpec ev, h.covariates ev⟩⟩

/-- **C85 (partial).** Options which are processed again lead to the same model; the order of covariates may differ
and restrictions may be repeated. The result can be processed again. Missing: options whose formulas mention
covariates, experiences or lagged choices inside of labels (`C85_processed_twice_false`). -/
theorem C85_options_processed_again_partial (hp : processModel env m = some p) (hr : m.Reprocessable p) :
    ∃ q, processModel env (m.reprocessed p m.params) = some q ∧ SameModel p q ∧
      (m.reprocessed p m.params).Reprocessable q :=
  reprocess_self hp hr

/-- Two equal steps of the processing are related for all parameters with the same index. -/
theorem reprocess_other (hp : processModel env m = some p) (hr : m.Reprocessable p) (θ : Dict (Str × Str) ℝ)
    (hθ : m.SameIndex θ) : ∃ q q', processModel env { m with params := θ } = some q ∧
      processModel env (m.reprocessed p θ) = some q' ∧ SameStructure p q ∧ SameModel q q' := by
  have h := processModel_sameIndex env m θ hθ.index hθ.max
  rw [hp] at h
  generalize hq : processModel env { m with params := θ } = oq at h
  cases h with
  | @some _ q h =>
    have hr' : ({ m with params := θ } : UserModel).Reprocessable q := h.reprocessable (m := m) rfl rfl hr
    obtain ⟨q', h1, h2, _⟩ := reprocess_self hq hr'
    refine ⟨q, q', rfl, ?_, h, h2⟩
    rw [← h1]
    unfold UserModel.reprocessed
    rw [h.groups, h.negativeChoiceSet, h.filters]

/-- **C85 (partial).** The solve function returns the solution at the parameters of the call: for all parameters with
the same index and the same maximum experiences, the result is that of a function which is created at these
parameters, and it is the solution of the model which is processed once, at these parameters. Missing: options whose
formulas mention names inside of labels, and other maximum experiences (`C85_maximum_experience_false`). -/
theorem C85_solve_function_partial (hp : processModel env m = some p) (hr : m.Reprocessable p) (r : SolveRoutines)
    (solve : Dict (Str × Str) ℝ → Option (SimSpace ℝ)) (hsolve : getSolveFunc env ev r m = some solve)
    (θ : Dict (Str × Str) ℝ) (hθ : m.SameIndex θ) :
    ∃ q solve', processModel env { m with params := θ } = some q ∧
      getSolveFunc env ev r { m with params := θ } = some solve' ∧
      solve θ = solve' θ ∧ solve θ = q.solveWith q ev r := by
  obtain ⟨q, q', h1, h2, h3, h4⟩ := reprocess_other hp hr θ hθ
  have hr' : ({ m with params := θ } : UserModel).Reprocessable q := h3.reprocessable (m := m) rfl rfl hr
  obtain ⟨q'', h5, h6, _⟩ := reprocess_self h1 hr'
  unfold getSolveFunc at hsolve ⊢
  simp only [hp, Option.bind_eq_bind, Option.bind_some] at hsolve
  obtain ⟨bt, hbt, hs⟩ := Option.bind_eq_some_iff.1 hsolve
  simp only [Option.pure_def, Option.some.injEq] at hs
  have hsol : solve θ = q.solveWith q ev r := by
    rw [← hs]
    simp only [h2, Option.bind_some]
    rw [h3.solveWith, h4.solveWith]
  rw [h3.buildSpec] at hbt
  refine ⟨q, fun params => (processModel env (({ m with params := θ } : UserModel).reprocessed q params)).bind
    fun q' => q.solveWith q' ev r, h1, ?_, ?_, hsol⟩
  · simp only [h1, Option.bind_eq_bind, Option.bind_some, hbt]
    rfl
  · rw [hsol]
    dsimp only at h5 ⊢
    rw [h5, Option.bind_some, h6.solveWith]

/-- **C85 (partial).** With `C82`: the solve function exists, and the values which it returns at `θ` solve the
model at `θ`. -/
theorem C85_solution_at_parameters_partial (hp : processModel env m = some p) (hr : m.Reprocessable p)
    (r : SolveRoutines) (θ : Dict (Str × Str) ℝ) (hθ : m.SameIndex θ) (hev : ev.Contract)
    (hs : p.Supported m ev core) (hcore : createCore (p.buildSpec ev).core = some core)
    (hexo : p.exogenous = []) (hkeep : env.KeepsShape) (hnd : (Dict.keys m.params).Nodup)
    (hother : ∀ q ∈ m.params, mentionsShocks q.1 = true → ∃ c ∈ shockCategories, q.1.1 = c.toList)
    (hfit : r.senv.Fits (p.buildSpec ev) core)
    (hallowed : ∀ d ∈ (p.buildSpec ev).denseIndices, ∀ s ∈ core, ∃ c ∈ p.choices.choices, p.Allowed m ev d s c)
    (hpts : ∀ q, processModel env { m with params := θ } = some q →
      (p.buildSpec ev).PointsSuffice core q.discount.delta) (hrng : r.rng.Contract)
    (hev0 : ∀ bt, SameShape (initialValues bt.space) (r.ev0 bt)) :
    ∃ q solve sp V, processModel env { m with params := θ } = some q ∧ getSolveFunc env ev r m = some solve ∧
      solve θ = some sp ∧
      IsSolution (p.buildSpec ev) core q.discount.delta (q.solveInput ev r.senv).wageOf
        (q.solveInput ev r.senv).nonpecOf (q.solveInput ev r.senv).shocks (fun d _ => [(d, 1)])
        (expectedShock Real.exp r.maxLog q.choices.wWage.length q.cholesky) r.sqrt r.ols V ∧
      ∃ bt par ev1, buildSpace (p.buildSpec ev) = some bt ∧
        sp = bt.simSpace (p.buildSpec ev) par ev1 r.valueCounts r.keyOrder ∧
        ∀ d ∈ (p.buildSpec ev).denseIndices, ∀ s ∈ core, bt.ValueAt ev1 d s (V d s) := by
  obtain ⟨q, q', hq, _⟩ := reprocess_other hp hr θ hθ
  have h := processModel_sameIndex env m θ hθ.index hθ.max
  rw [hp, hq] at h
  cases h with
  | some h =>
    have hexo' : q.exogenous = [] := by
      have := congrArg List.length (groupsShape_lengths h.exogenous)
      simp only [List.length_map, hexo, List.length_nil] at this
      exact List.length_eq_zero_iff.1 this.symm
    have hk : ∀ {P : Str × Str → Prop}, (∀ x ∈ m.params, P x.1) → ∀ x ∈ θ, P x.1 := by
      intro P hP x hx
      have hm : x.1 ∈ m.params.map Prod.fst := hθ.index ▸ List.mem_map_of_mem (f := Prod.fst) hx
      obtain ⟨y, hy, he⟩ := List.mem_map.1 hm
      exact he ▸ hP y hy
    have hb := h.buildSpec ev
    rw [hb] at hcore hfit hallowed hpts ⊢
    obtain ⟨bt, par, h1, h2, h3⟩ := C82_accepted_models_are_solved_partial hq hev
      (h.supported (m := m) (m' := { m with params := θ }) rfl hs) hcore hexo' hkeep
      (by unfold Dict.keys at hnd ⊢; exact hθ.index ▸ hnd)
      (hk (P := fun k => mentionsShocks k = true → ∃ c ∈ shockCategories, k.1 = c.toList) hother) r.senv hfit
      (fun d hd s hm => by
        obtain ⟨c, hc, ha⟩ := hallowed d hd s hm
        exact ⟨c, h.choices ▸ hc, h.allowed (m := m) (m' := { m with params := θ }) rfl ha⟩)
      (hpts q hq) r.rng hrng r.sqrt r.ols r.maxLog
    obtain ⟨h4, V, h5, h6⟩ := h3 r.seed (r.ev0 bt) (hev0 bt)
    have hsolve : getSolveFunc env ev r m = some fun params =>
        (processModel env (m.reprocessed p params)).bind fun q => p.solveWith q ev r := by
      unfold getSolveFunc
      simp only [hp, hb, h1, Option.bind_eq_bind, Option.bind_some]
      rfl
    obtain ⟨q'', _, hq', _, _, hsol⟩ := C85_solve_function_partial hp hr r _ hsolve θ hθ
    rw [hq] at hq'
    cases hq'
    refine ⟨q, _, _, V, hq, hsolve, ?_, h5, bt, par, _, h1, rfl, h6⟩
    rw [hsol]
    have h4' : (solveBackward bt.space (kw94 bt.space r.rng r.sqrt r.ols
      (expShocks Real.exp r.maxLog q.choices.wWage.length q.cholesky)) par r.seed (r.ev0 bt)).2 = true := h4
    have h2' : SolveInput.paramObjects { q.solveInput ev r.senv with covariates := q.covariates ev } bt [] = some par :=
      h2
    unfold Processed.solveWith SolveInput.solveModel
    simp only [hexo', if_true, h1, h2', Option.bind_eq_bind, Option.bind_some, h4']

/-- The structure of exogenous processes does not depend on the values of the parameters. -/
theorem SameStructure.processes {p q : Processed} (h : SameStructure p q) {static : List (Str × Nat)}
    (hexo : p.exogenous ≠ []) (htypes : p.nTypes < 2)
    (hobs : p.observables.map (fun o => (o.1, o.2.length)) = static ++ p.exogenous.map fun o => (o.1, o.2.length))
    (hnames : ∀ e ∈ p.exogenous, ∀ level ∈ e.2, ∀ item ∈ level.2, item.1 ∈ p.columns true) :
    q.exogenous ≠ [] ∧ q.nTypes < 2 ∧
    q.observables.map (fun o => (o.1, o.2.length)) = static ++ q.exogenous.map (fun o => (o.1, o.2.length)) ∧
    ∀ e ∈ q.exogenous, ∀ level ∈ e.2, ∀ item ∈ level.2, item.1 ∈ q.columns true := by
  refine ⟨fun hq => hexo ?_, h.nTypes ▸ htypes, ?_, fun e he level hl item hi => ?_⟩
  · have := congrArg List.length (groupsShape_lengths h.exogenous)
    simp only [List.length_map, hq, List.length_nil] at this
    exact List.length_eq_zero_iff.1 this
  · rw [← groupsShape_lengths h.observables, ← groupsShape_lengths h.exogenous, hobs]
  · have h1 : (e.1, groupShape e.2) ∈ groupsShape p.exogenous := by
      rw [h.exogenous]
      exact List.mem_map_of_mem (f := fun kv : Str × LevelDict => (kv.1, groupShape kv.2)) he
    obtain ⟨e0, he0, h2⟩ := List.mem_map.1 h1
    simp only [Prod.mk.injEq] at h2
    have h3 : (level.1, level.2.map Prod.fst) ∈ groupShape e0.2 := by
      rw [h2.2]
      exact List.mem_map_of_mem (f := fun kv : Level × List (Str × ℝ) => (kv.1, kv.2.map Prod.fst)) hl
    obtain ⟨level0, hl0, h4⟩ := List.mem_map.1 h3
    simp only [Prod.mk.injEq] at h4
    have h5 : item.1 ∈ level0.2.map Prod.fst := by
      rw [h4.2]
      exact List.mem_map_of_mem hi
    obtain ⟨item0, hi0, h6⟩ := List.mem_map.1 h5
    rw [← h6, ← h.columns]
    exact hnames e0 he0 level0 hl0 item0 hi0

/-- **C85 (partial)** for models with exogenous processes, if these come last among the observables and there are no
types. -/
theorem C85_solution_with_processes_partial (hp : processModel env m = some p) (hr : m.Reprocessable p)
    (r : SolveRoutines) (θ : Dict (Str × Str) ℝ) (hθ : m.SameIndex θ) (hev : ev.Contract)
    (hs : p.Supported m ev core) (hcore : createCore (p.buildSpec ev).core = some core)
    (hexo : p.exogenous ≠ []) (static : List (Str × Nat)) (htypes : p.nTypes < 2)
    (hobs : p.observables.map (fun o => (o.1, o.2.length)) = static ++ p.exogenous.map fun o => (o.1, o.2.length))
    (hnames : ∀ e ∈ p.exogenous, ∀ level ∈ e.2, ∀ item ∈ level.2, item.1 ∈ p.columns true)
    (hkeep : env.KeepsShape) (hnd : (Dict.keys m.params).Nodup)
    (hother : ∀ q ∈ m.params, mentionsShocks q.1 = true → ∃ c ∈ shockCategories, q.1.1 = c.toList)
    (hfit : r.senv.Fits (p.buildSpec ev) core)
    (hallowed : ∀ d ∈ (p.buildSpec ev).denseIndices, ∀ s ∈ core, ∃ c ∈ p.choices.choices, p.Allowed m ev d s c)
    (hpts : ∀ q, processModel env { m with params := θ } = some q →
      (p.buildSpec ev).PointsSuffice core q.discount.delta) (hrng : r.rng.Contract)
    (hev0 : ∀ bt, SameShape (initialValues bt.space) (r.ev0 bt)) :
    ∃ q solve sp V, processModel env { m with params := θ } = some q ∧ getSolveFunc env ev r m = some solve ∧
      solve θ = some sp ∧
      IsSolution (p.buildSpec ev) core q.discount.delta (q.solveInput ev r.senv).wageOf
        (q.solveInput ev r.senv).nonpecOf (q.solveInput ev r.senv).shocks
        (fun d s => (exogenousGrid (p.exogenous.map fun e => e.2.length)).map fun e =>
          ((p.buildSpec ev).successor d e, levelProbability q.exogenousParams (p.covariates ev d s) e))
        (expectedShock Real.exp r.maxLog q.choices.wWage.length q.cholesky) r.sqrt r.ols V ∧
      ∃ bt par ev1, buildSpace (p.buildSpec ev) = some bt ∧
        sp = bt.simSpace (p.buildSpec ev) par ev1 r.valueCounts r.keyOrder ∧
        ∀ d ∈ (p.buildSpec ev).denseIndices, ∀ s ∈ core, bt.ValueAt ev1 d s (V d s) := by
  obtain ⟨q, q', hq, _⟩ := reprocess_other hp hr θ hθ
  have h := processModel_sameIndex env m θ hθ.index hθ.max
  rw [hp, hq] at h
  cases h with
  | some h =>
    have hlen : (p.exogenous.map fun e => e.2.length) = q.exogenous.map fun e => e.2.length := by
      have := congrArg (List.map Prod.snd) (groupsShape_lengths h.exogenous)
      rwa [List.map_map, List.map_map] at this
    obtain ⟨hexo', htypes', hobs', hnames'⟩ := h.processes hexo htypes hobs hnames
    have hk : ∀ {P : Str × Str → Prop}, (∀ x ∈ m.params, P x.1) → ∀ x ∈ θ, P x.1 := by
      intro P hP x hx
      have hm : x.1 ∈ m.params.map Prod.fst := hθ.index ▸ List.mem_map_of_mem (f := Prod.fst) hx
      obtain ⟨y, hy, he⟩ := List.mem_map.1 hm
      exact he ▸ hP y hy
    have hb := h.buildSpec ev
    rw [hb] at hcore hfit hallowed hpts ⊢
    rw [hlen, h.covariates]
    obtain ⟨bt, transition, par, h1, ht, h2, h3⟩ := C82_exogenous_models_are_solved_partial hq hev
      (h.supported (m := m) (m' := { m with params := θ }) rfl hs) hcore hexo' static htypes' hobs' hnames' hkeep
      (by unfold Dict.keys at hnd ⊢; exact hθ.index ▸ hnd)
      (hk (P := fun k => mentionsShocks k = true → ∃ c ∈ shockCategories, k.1 = c.toList) hother) r.senv hfit
      (fun d hd s hm => by
        obtain ⟨c, hc, ha⟩ := hallowed d hd s hm
        exact ⟨c, h.choices ▸ hc, h.allowed (m := m) (m' := { m with params := θ }) rfl ha⟩)
      (hpts q hq) r.rng hrng r.sqrt r.ols r.maxLog
    obtain ⟨h4, V, h5, h6⟩ := h3 r.seed (r.ev0 bt) (hev0 bt)
    have hsolve : getSolveFunc env ev r m = some fun params =>
        (processModel env (m.reprocessed p params)).bind fun q => p.solveWith q ev r := by
      unfold getSolveFunc
      simp only [hp, hb, h1, Option.bind_eq_bind, Option.bind_some]
      rfl
    obtain ⟨q'', _, hq', _, _, hsol⟩ := C85_solve_function_partial hp hr r _ hsolve θ hθ
    rw [hq] at hq'
    cases hq'
    refine ⟨q, _, _, V, hq, hsolve, ?_, h5, bt, par, _, h1, rfl, h6⟩
    rw [hsol]
    have h4' : (solveBackward bt.space (kw94 bt.space r.rng r.sqrt r.ols
      (expShocks Real.exp r.maxLog q.choices.wWage.length q.cholesky)) par r.seed (r.ev0 bt)).2 = true := h4
    have h2' : SolveInput.paramObjects { q.solveInput ev r.senv with covariates := q.covariates ev } bt transition =
      some par := h2
    have ht' : SolveInput.transitions { q.solveInput ev r.senv with covariates := q.covariates ev } q.exogenousParams
      (q.buildSpec ev) bt = some transition := ht
    unfold Processed.solveWith SolveInput.solveModel
    simp only [hexo', if_false, h1, ht', h2', Option.bind_eq_bind, Option.bind_some, h4', if_true]

end Respy
