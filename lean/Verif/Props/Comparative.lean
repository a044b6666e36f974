import Verif.Lemmas.Comparative
import Verif.Props.EndToEndExogenous
import Verif.Props.ParameterFunctionsExample
import Verif.Lemmas.ComparativeParams
import Verif.Lemmas.RewardParams

/-!
# C96 Comparison of solutions
-/

namespace Respy

variable {K : Type _} [Field K] [LinearOrder K] [IsStrictOrderedRing K]

/-! ### The value function -/

/-- **C96.** If every alternative gives at least the same utility in every state and for every draw, and if the discount
factor is not smaller, then no value is smaller. -/
theorem C96_better_models {b : BuildSpec} {core : List CoreState} (wf : b.WF core) {delta delta' : K}
    (h0 : 0 ≤ delta) (hdd : delta ≤ delta')
    {w m w' m' : Option Nat → CoreState → Nat → K} {shocks shocks' : Nat → List Bool → List (Nat → K)}
    {future : Option Nat → CoreState → List (Option Nat × K)} (hfut : IsTransition b core future)
    (hflow : FlowsRelated (· ≤ ·) b core w m shocks w' m' shocks')
    {V V' : Option Nat → CoreState → K} (h : IsValueFunction b core delta w m shocks future V)
    (h' : IsValueFunction b core delta' w' m' shocks' future V') :
    ∀ d ∈ b.denseIndices, ∀ s ∈ core, V d s ≤ V' d s := by
  intro d hd s hs
  have := h.le_add wf h0 hdd le_rfl hfut (fun d hd s hs => (hflow d hd s hs).imp
    fun e e' he a ha => by simpa using he a ha) h' d hd s hs
  simpa using this

/-- **C96.** If the utilities of two models differ by at most `eta` in every state, for every draw and every admissible
alternative, then the values of a state with `n` remaining periods differ by at most
`eta (1 + delta + … + delta ^ (n - 1))`. -/
theorem C96_bounded_response {b : BuildSpec} {core : List CoreState} (wf : b.WF core) {delta eta : K}
    (h0 : 0 ≤ delta) (heta : 0 ≤ eta)
    {w m w' m' : Option Nat → CoreState → Nat → K} {shocks shocks' : Nat → List Bool → List (Nat → K)}
    {future : Option Nat → CoreState → List (Option Nat × K)} (hfut : IsTransition b core future)
    (hflow : FlowsRelated (fun x y => |x - y| ≤ eta) b core w m shocks w' m' shocks')
    {V V' : Option Nat → CoreState → K} (h : IsValueFunction b core delta w m shocks future V)
    (h' : IsValueFunction b core delta w' m' shocks' future V') :
    ∀ d ∈ b.denseIndices, ∀ s ∈ core,
      |V d s - V' d s| ≤ eta * ∑ k ∈ Finset.range (b.core.nPeriods - s.period), delta ^ k := by
  intro d hd s hs
  have h1 := h.le_add wf h0 le_rfl heta hfut (fun d hd s hs => (hflow d hd s hs).imp
    fun e e' he a ha => by have := (abs_le.1 (he a ha)).2; linarith) h' d hd s hs
  have h2 := h'.le_add wf h0 le_rfl heta hfut (fun d hd s hs => (hflow d hd s hs).flip.imp
    fun e e' he a ha => by have := (abs_le.1 (he a ha)).1; linarith) h d hd s hs
  rw [abs_le]
  constructor <;> linarith

omit [IsStrictOrderedRing K] in
/-- Without exogenous processes nothing is uncertain. -/
theorem isTransition_static [IsStrictOrderedRing K] (b : BuildSpec) (core : List CoreState) :
    IsTransition b core fun d _ => [(d, (1 : K))] := by
  intro d hd s _
  simp [hd]

/-- The probabilities of exogenous processes are a distribution. -/
theorem isTransition_exogenous (b : BuildSpec) (core : List CoreState) (static : List (List Nat))
    (hx : b.ExogWF static) (ep : ExogenousParams) (hep : ep.map List.length = b.exogLevels)
    (hlev : ∀ levels ∈ ep, levels ≠ []) (covariates : Option Nat → CoreState → StateRow ℝ) :
    IsTransition b core fun d s => (exogenousGrid b.exogLevels).map fun e =>
      (b.successor d e, levelProbability ep (covariates d s) e) := by
  intro d hd s _
  obtain ⟨h1, h2⟩ := C19_level_probabilities ep hlev (covariates d s)
  rw [hep] at h1 h2
  refine ⟨fun fp hfp => ?_, ?_⟩
  · obtain ⟨e, he, rfl⟩ := List.mem_map.1 hfp
    refine ⟨?_, h1 e he⟩
    obtain ⟨i, rfl, hi⟩ := (mem_denseIndices hx.grid _).1 hd
    obtain ⟨d', e1, e2, _⟩ := hx.successor_spec hx.grid i _ (List.getElem?_eq_getElem hi) e he
    rw [e1]
    exact (mem_denseIndices hx.grid _).2 ⟨d', rfl, e2⟩
  · rw [List.map_map]
    exact h2

/-! ### Solve functions -/

variable {env : ProcessEnv} {ev : FormulaEval} {m : UserModel} {p : Processed} {core : List CoreState}

/-- Two calls of a solve function, with the values which they return. The model is processed to `p` when the function is
created and to `q` and `q'` with the parameters of the calls. -/
def SolvedTwice (env : ProcessEnv) (ev : FormulaEval) (m : UserModel) (p q q' : Processed) (core : List CoreState)
    (r : SolveRoutines) (θ θ' : Dict (Str × Str) ℝ) (future : Option Nat → CoreState → List (Option Nat × ℝ)) : Prop :=
  ∃ solve bt V V', getSolveFunc env ev r m = some solve ∧ buildSpace (p.buildSpec ev) = some bt ∧
    (∃ par ev1, solve θ = some (bt.simSpace (p.buildSpec ev) par ev1 r.valueCounts r.keyOrder) ∧
      ∀ d ∈ (p.buildSpec ev).denseIndices, ∀ s ∈ core, bt.ValueAt ev1 d s (V d s)) ∧
    (∃ par ev1, solve θ' = some (bt.simSpace (p.buildSpec ev) par ev1 r.valueCounts r.keyOrder) ∧
      ∀ d ∈ (p.buildSpec ev).denseIndices, ∀ s ∈ core, bt.ValueAt ev1 d s (V' d s)) ∧
    (∀ δ W qq, (δ, W, qq) ∈ [(q.discount.delta, V, q), (q'.discount.delta, V', q')] →
      (δ ≠ 0 → IsValueFunction (p.buildSpec ev) core δ (qq.solveInput ev r.senv).wageOf
        (qq.solveInput ev r.senv).nonpecOf (qq.solveInput ev r.senv).shocks future W) ∧
      (δ = 0 → ∀ d ∈ (p.buildSpec ev).denseIndices, ∀ s ∈ core, W d s = 0))

/-- The values of the second call are related to those of the first by `rel`, in all states. -/
def ValuesRelated (rel : CoreState → ℝ → ℝ → Prop) (env : ProcessEnv) (ev : FormulaEval) (m : UserModel) (p : Processed)
    (core : List CoreState) (r : SolveRoutines) (θ θ' : Dict (Str × Str) ℝ) : Prop :=
  ∃ solve bt par par' ev1 ev1', getSolveFunc env ev r m = some solve ∧ buildSpace (p.buildSpec ev) = some bt ∧
    solve θ = some (bt.simSpace (p.buildSpec ev) par ev1 r.valueCounts r.keyOrder) ∧
    solve θ' = some (bt.simSpace (p.buildSpec ev) par' ev1' r.valueCounts r.keyOrder) ∧
    ∀ d ∈ (p.buildSpec ev).denseIndices, ∀ s ∈ core,
      ∃ v v', bt.ValueAt ev1 d s v ∧ bt.ValueAt ev1' d s v' ∧ rel s v v'

/-- What can follow a state, with the probabilities of the exogenous processes. -/
noncomputable def processFuture (ev : FormulaEval) (p q : Processed) : Option Nat → CoreState → List (Option Nat × ℝ) :=
  fun d s => (exogenousGrid (p.exogenous.map fun e => e.2.length)).map fun e =>
    ((p.buildSpec ev).successor d e, levelProbability q.exogenousParams (p.covariates ev d s) e)

/-- Two calls without exogenous processes. -/
theorem solve_two (hp : processModel env m = some p) (hr : m.Reprocessable p)
    (r : SolveRoutines) (θ θ' : Dict (Str × Str) ℝ) (hθ : m.SameIndex θ) (hθ' : m.SameIndex θ') (hev : ev.Contract)
    (hs : p.Supported m ev core) (hcore : createCore (p.buildSpec ev).core = some core)
    (hexo : p.exogenous = []) (hkeep : env.KeepsShape) (hnd : (Dict.keys m.params).Nodup)
    (hother : ∀ q ∈ m.params, mentionsShocks q.1 = true → ∃ c ∈ shockCategories, q.1.1 = c.toList)
    (hfit : r.senv.Fits (p.buildSpec ev) core)
    (hallowed : ∀ d ∈ (p.buildSpec ev).denseIndices, ∀ s ∈ core, ∃ c ∈ p.choices.choices, p.Allowed m ev d s c)
    (hno : ∀ t, ¬ (p.buildSpec ev).Interpolates core t) (hrng : r.rng.Contract)
    (hev0 : ∀ bt, SameShape (initialValues bt.space) (r.ev0 bt)) (q q' : Processed)
    (hq : processModel env { m with params := θ } = some q)
    (hq' : processModel env { m with params := θ' } = some q') :
    SolvedTwice env ev m p q q' core r θ θ' fun d _ => [(d, 1)] := by
  have hpts : ∀ δ : ℝ, (p.buildSpec ev).PointsSuffice core δ := fun δ _ t _ ht => absurd ht (hno t)
  obtain ⟨q1, solve, sp, V, h1, h2, h3, h4, bt, par, ev1, h5, h6, h7⟩ := C85_solution_at_parameters_partial hp hr r θ hθ
    hev hs hcore hexo hkeep hnd hother hfit hallowed (fun _ _ => hpts _) hrng hev0
  obtain ⟨q2, solve', sp', V', g1, g2, g3, g4, bt', par', ev1', g5, g6, g7⟩ := C85_solution_at_parameters_partial hp
    hr r θ' hθ' hev hs hcore hexo hkeep hnd hother hfit hallowed (fun _ _ => hpts _) hrng hev0
  rw [hq] at h1
  rw [hq'] at g1
  cases h1
  cases g1
  rw [h2] at g2
  cases g2
  rw [h5] at g5
  cases g5
  refine ⟨solve, bt, V, V', h2, h5, ⟨par, ev1, h6 ▸ h3, h7⟩, ⟨par', ev1', g6 ▸ g3, g7⟩, ?_⟩
  intro δ W qq hmem
  simp only [List.mem_cons, List.not_mem_nil, or_false, Prod.mk.injEq] at hmem
  rcases hmem with ⟨rfl, rfl, rfl⟩ | ⟨rfl, rfl, rfl⟩
  · exact ⟨fun hd => (C80_no_interpolation_is_value_function _ _ hno _ _ _ _ _ _ _ _ _).1 (h4.1 hd), h4.2⟩
  · exact ⟨fun hd => (C80_no_interpolation_is_value_function _ _ hno _ _ _ _ _ _ _ _ _).1 (g4.1 hd), g4.2⟩

/-- Two calls with the same exogenous processes. -/
theorem solve_two_exogenous (hp : processModel env m = some p) (hr : m.Reprocessable p)
    (r : SolveRoutines) (θ θ' : Dict (Str × Str) ℝ) (hθ : m.SameIndex θ) (hθ' : m.SameIndex θ') (hev : ev.Contract)
    (hs : p.Supported m ev core) (hcore : createCore (p.buildSpec ev).core = some core)
    (hexo : p.exogenous ≠ []) (static : List (Str × Nat)) (htypes : p.nTypes < 2)
    (hobs : p.observables.map (fun o => (o.1, o.2.length)) = static ++ p.exogenous.map fun o => (o.1, o.2.length))
    (hnames : ∀ e ∈ p.exogenous, ∀ level ∈ e.2, ∀ item ∈ level.2, item.1 ∈ p.columns true)
    (hkeep : env.KeepsShape) (hnd : (Dict.keys m.params).Nodup)
    (hother : ∀ q ∈ m.params, mentionsShocks q.1 = true → ∃ c ∈ shockCategories, q.1.1 = c.toList)
    (hfit : r.senv.Fits (p.buildSpec ev) core)
    (hallowed : ∀ d ∈ (p.buildSpec ev).denseIndices, ∀ s ∈ core, ∃ c ∈ p.choices.choices, p.Allowed m ev d s c)
    (hno : ∀ t, ¬ (p.buildSpec ev).Interpolates core t) (hrng : r.rng.Contract)
    (hev0 : ∀ bt, SameShape (initialValues bt.space) (r.ev0 bt)) (q q' : Processed)
    (hq : processModel env { m with params := θ } = some q)
    (hq' : processModel env { m with params := θ' } = some q') (hsame : q'.exogenous = q.exogenous) :
    SolvedTwice env ev m p q q' core r θ θ' (processFuture ev p q) := by
  have hsame' : q'.exogenousParams = q.exogenousParams := by
    unfold Processed.exogenousParams
    rw [hsame]
  have hpts : ∀ δ : ℝ, (p.buildSpec ev).PointsSuffice core δ := fun δ _ t _ ht => absurd ht (hno t)
  obtain ⟨q1, solve, sp, V, h1, h2, h3, h4, bt, par, ev1, h5, h6, h7⟩ := C85_solution_with_processes_partial hp hr r θ
    hθ hev hs hcore hexo static htypes hobs hnames hkeep hnd hother hfit hallowed (fun _ _ => hpts _) hrng hev0
  obtain ⟨q2, solve', sp', V', g1, g2, g3, g4, bt', par', ev1', g5, g6, g7⟩ := C85_solution_with_processes_partial hp
    hr r θ' hθ' hev hs hcore hexo static htypes hobs hnames hkeep hnd hother hfit hallowed (fun _ _ => hpts _) hrng hev0
  rw [hq] at h1
  rw [hq'] at g1
  cases h1
  cases g1
  rw [h2] at g2
  cases g2
  rw [h5] at g5
  cases g5
  refine ⟨solve, bt, V, V', h2, h5, ⟨par, ev1, h6 ▸ h3, h7⟩, ⟨par', ev1', g6 ▸ g3, g7⟩, ?_⟩
  intro δ W qq hmem
  simp only [List.mem_cons, List.not_mem_nil, or_false, Prod.mk.injEq] at hmem
  rcases hmem with ⟨rfl, rfl, rfl⟩ | ⟨rfl, rfl, rfl⟩
  · exact ⟨fun hd => (C80_no_interpolation_is_value_function _ _ hno _ _ _ _ _ _ _ _ _).1 (h4.1 hd), h4.2⟩
  · rw [hsame'] at g4
    exact ⟨fun hd => (C80_no_interpolation_is_value_function _ _ hno _ _ _ _ _ _ _ _ _).1 (g4.1 hd), g4.2⟩

theorem isTransition_processes (hq : processModel env { m with params := θ } = some q) (hst : SameStructure p q)
    (hexo : p.exogenous ≠ []) (static : List (Str × Nat)) (htypes : p.nTypes < 2)
    (hobs : p.observables.map (fun o => (o.1, o.2.length)) = static ++ p.exogenous.map fun o => (o.1, o.2.length)) :
    IsTransition (p.buildSpec ev) core (processFuture ev p q) := by
  obtain ⟨covs, h⟩ := processModel_from _ _ _ hq
  have hlen : (p.exogenous.map fun e => e.2.length) = q.exogenous.map fun e => e.2.length := by
    have := congrArg (List.map Prod.snd) (groupsShape_lengths hst.exogenous)
    rwa [List.map_map, List.map_map] at this
  exact isTransition_exogenous _ _ _ (exogenous_wf p ev hexo static htypes hobs) q.exogenousParams
    (by
      show q.exogenousParams.map List.length = p.exogenous.map fun e => e.2.length
      rw [hlen]
      simp [Processed.exogenousParams, Function.comp_def])
    (by
      intro levels hl
      obtain ⟨e, he, rfl⟩ := List.mem_map.1 hl
      intro hne
      exact h.exogenous_ne e he (List.map_eq_nil_iff.1 hne)) (p.covariates ev)

/-- Values with better utilities. -/
theorem SolvedTwice.better {q q' : Processed} {r : SolveRoutines} {θ θ' : Dict (Str × Str) ℝ}
    {future : Option Nat → CoreState → List (Option Nat × ℝ)} (h : SolvedTwice env ev m p q q' core r θ θ' future)
    (wf : (p.buildSpec ev).WF core) (hfut : IsTransition (p.buildSpec ev) core future)
    (h0 : 0 ≤ q.discount.delta) (hdd : q.discount.delta ≤ q'.discount.delta)
    (hflow : FlowsRelated (· ≤ ·) (p.buildSpec ev) core (q.solveInput ev r.senv).wageOf
      (q.solveInput ev r.senv).nonpecOf (q.solveInput ev r.senv).shocks (q'.solveInput ev r.senv).wageOf
      (q'.solveInput ev r.senv).nonpecOf (q'.solveInput ev r.senv).shocks) :
    ValuesRelated (fun _ v v' => v ≤ v') env ev m p core r θ θ' := by
  obtain ⟨solve, bt, V, V', h1, h2, ⟨par, ev1, h3, h4⟩, ⟨par', ev1', h5, h6⟩, h7⟩ := h
  refine ⟨solve, bt, par, par', ev1, ev1', h1, h2, h3, h5, fun d hd s hsc =>
    ⟨V d s, V' d s, h4 d hd s hsc, h6 d hd s hsc, ?_⟩⟩
  have k1 := h7 q.discount.delta V q (by simp)
  have k2 := h7 q'.discount.delta V' q' (by simp)
  by_cases hz : q.discount.delta = 0
  · rw [k1.2 hz d hd s hsc]
    by_cases hz' : q'.discount.delta = 0
    · rw [k2.2 hz' d hd s hsc]
    · exact (k2.1 hz' d hd s hsc).nonneg
  · have hz' : q'.discount.delta ≠ 0 := fun h => hz (le_antisymm (h ▸ hdd) h0)
    exact C96_better_models wf h0 hdd hfut hflow
      (k1.1 hz) (k2.1 hz') d hd s hsc

/-- Values with utilities which differ by at most `eta`. -/
theorem SolvedTwice.within {q q' : Processed} {r : SolveRoutines} {θ θ' : Dict (Str × Str) ℝ}
    {future : Option Nat → CoreState → List (Option Nat × ℝ)} (h : SolvedTwice env ev m p q q' core r θ θ' future)
    (wf : (p.buildSpec ev).WF core) (hfut : IsTransition (p.buildSpec ev) core future)
    (h0 : 0 ≤ q.discount.delta) (hdd : q.discount.delta = q'.discount.delta) (eta : ℝ) (heta : 0 ≤ eta)
    (hflow : FlowsRelated (fun x y => |x - y| ≤ eta) (p.buildSpec ev) core (q.solveInput ev r.senv).wageOf
      (q.solveInput ev r.senv).nonpecOf (q.solveInput ev r.senv).shocks (q'.solveInput ev r.senv).wageOf
      (q'.solveInput ev r.senv).nonpecOf (q'.solveInput ev r.senv).shocks) :
    ValuesRelated (fun s v v' => |v - v'| ≤ eta * ∑ k ∈ Finset.range ((p.buildSpec ev).core.nPeriods - s.period),
      q.discount.delta ^ k) env ev m p core r θ θ' := by
  obtain ⟨solve, bt, V, V', h1, h2, ⟨par, ev1, h3, h4⟩, ⟨par', ev1', h5, h6⟩, h7⟩ := h
  refine ⟨solve, bt, par, par', ev1, ev1', h1, h2, h3, h5, fun d hd s hsc =>
    ⟨V d s, V' d s, h4 d hd s hsc, h6 d hd s hsc, ?_⟩⟩
  have k1 := h7 q.discount.delta V q (by simp)
  have k2 := h7 q'.discount.delta V' q' (by simp)
  by_cases hz : q.discount.delta = 0
  · rw [k1.2 hz d hd s hsc, k2.2 (hdd ▸ hz) d hd s hsc]
    simpa using mul_nonneg heta (Finset.sum_nonneg fun k _ => pow_nonneg h0 k)
  · have k2' := k2.1 (hdd ▸ hz)
    rw [← hdd] at k2'
    exact C96_bounded_response wf h0 heta hfut
      hflow (k1.1 hz) k2' d hd s hsc

/-- **C96 (partial).** A solve function is called with two vectors of parameters. If the utilities under the second one
are not smaller in any state, for any draw and any admissible alternative, and if the discount factor is not smaller,
then no value of the second solution is smaller. Missing: models with interpolation, for which the claim is not true in
general as predictions of a regression are not monotone. For exogenous processes see `C96_better_with_processes_partial`.
-/
theorem C96_better_parameters_partial (hp : processModel env m = some p) (hr : m.Reprocessable p)
    (r : SolveRoutines) (θ θ' : Dict (Str × Str) ℝ) (hθ : m.SameIndex θ) (hθ' : m.SameIndex θ') (hev : ev.Contract)
    (hs : p.Supported m ev core) (hcore : createCore (p.buildSpec ev).core = some core)
    (hexo : p.exogenous = []) (hkeep : env.KeepsShape) (hnd : (Dict.keys m.params).Nodup)
    (hother : ∀ q ∈ m.params, mentionsShocks q.1 = true → ∃ c ∈ shockCategories, q.1.1 = c.toList)
    (hfit : r.senv.Fits (p.buildSpec ev) core)
    (hallowed : ∀ d ∈ (p.buildSpec ev).denseIndices, ∀ s ∈ core, ∃ c ∈ p.choices.choices, p.Allowed m ev d s c)
    (hno : ∀ t, ¬ (p.buildSpec ev).Interpolates core t) (hrng : r.rng.Contract)
    (hev0 : ∀ bt, SameShape (initialValues bt.space) (r.ev0 bt)) (q q' : Processed)
    (hq : processModel env { m with params := θ } = some q)
    (hq' : processModel env { m with params := θ' } = some q')
    (h0 : 0 ≤ q.discount.delta) (hdd : q.discount.delta ≤ q'.discount.delta)
    (hflow : FlowsRelated (· ≤ ·) (p.buildSpec ev) core (q.solveInput ev r.senv).wageOf
      (q.solveInput ev r.senv).nonpecOf (q.solveInput ev r.senv).shocks (q'.solveInput ev r.senv).wageOf
      (q'.solveInput ev r.senv).nonpecOf (q'.solveInput ev r.senv).shocks) :
    ValuesRelated (fun _ v v' => v ≤ v') env ev m p core r θ θ' :=
  (solve_two hp hr r θ θ' hθ hθ' hev hs hcore hexo hkeep hnd hother hfit hallowed hno hrng hev0
    q q' hq hq').better
    (C82_processed_models_well_formed hp hev hs hcore) (isTransition_static _ _) h0 hdd hflow

/-- **C96 (partial).** A solve function is called with two vectors of parameters with the same discount factor. If the
utilities differ by at most `eta`, the values of a state with `n` remaining periods differ by at most
`eta (1 + delta + … + delta ^ (n - 1))`. Missing: as in `C96_better_parameters_partial`. -/
theorem C96_bounded_response_to_parameters_partial (hp : processModel env m = some p) (hr : m.Reprocessable p)
    (r : SolveRoutines) (θ θ' : Dict (Str × Str) ℝ) (hθ : m.SameIndex θ) (hθ' : m.SameIndex θ') (hev : ev.Contract)
    (hs : p.Supported m ev core) (hcore : createCore (p.buildSpec ev).core = some core)
    (hexo : p.exogenous = []) (hkeep : env.KeepsShape) (hnd : (Dict.keys m.params).Nodup)
    (hother : ∀ q ∈ m.params, mentionsShocks q.1 = true → ∃ c ∈ shockCategories, q.1.1 = c.toList)
    (hfit : r.senv.Fits (p.buildSpec ev) core)
    (hallowed : ∀ d ∈ (p.buildSpec ev).denseIndices, ∀ s ∈ core, ∃ c ∈ p.choices.choices, p.Allowed m ev d s c)
    (hno : ∀ t, ¬ (p.buildSpec ev).Interpolates core t) (hrng : r.rng.Contract)
    (hev0 : ∀ bt, SameShape (initialValues bt.space) (r.ev0 bt)) (q q' : Processed)
    (hq : processModel env { m with params := θ } = some q)
    (hq' : processModel env { m with params := θ' } = some q')
    (h0 : 0 ≤ q.discount.delta) (hdd : q.discount.delta = q'.discount.delta) (eta : ℝ) (heta : 0 ≤ eta)
    (hflow : FlowsRelated (fun x y => |x - y| ≤ eta) (p.buildSpec ev) core (q.solveInput ev r.senv).wageOf
      (q.solveInput ev r.senv).nonpecOf (q.solveInput ev r.senv).shocks (q'.solveInput ev r.senv).wageOf
      (q'.solveInput ev r.senv).nonpecOf (q'.solveInput ev r.senv).shocks) :
    ValuesRelated (fun s v v' => |v - v'| ≤ eta * ∑ k ∈ Finset.range ((p.buildSpec ev).core.nPeriods - s.period),
      q.discount.delta ^ k) env ev m p core r θ θ' :=
  (solve_two hp hr r θ θ' hθ hθ' hev hs hcore hexo hkeep hnd hother hfit hallowed hno hrng hev0
    q q' hq hq').within
    (C82_processed_models_well_formed hp hev hs hcore) (isTransition_static _ _) h0 hdd eta heta hflow

/-- **C96 (partial)** with exogenous processes which are the same at both vectors of parameters, if the processes come
last among the observables and there are no types. -/
theorem C96_better_with_processes_partial (hp : processModel env m = some p) (hr : m.Reprocessable p)
    (r : SolveRoutines) (θ θ' : Dict (Str × Str) ℝ) (hθ : m.SameIndex θ) (hθ' : m.SameIndex θ') (hev : ev.Contract)
    (hs : p.Supported m ev core) (hcore : createCore (p.buildSpec ev).core = some core)
    (hexo : p.exogenous ≠ []) (static : List (Str × Nat)) (htypes : p.nTypes < 2)
    (hobs : p.observables.map (fun o => (o.1, o.2.length)) = static ++ p.exogenous.map fun o => (o.1, o.2.length))
    (hnames : ∀ e ∈ p.exogenous, ∀ level ∈ e.2, ∀ item ∈ level.2, item.1 ∈ p.columns true)
    (hkeep : env.KeepsShape) (hnd : (Dict.keys m.params).Nodup)
    (hother : ∀ q ∈ m.params, mentionsShocks q.1 = true → ∃ c ∈ shockCategories, q.1.1 = c.toList)
    (hfit : r.senv.Fits (p.buildSpec ev) core)
    (hallowed : ∀ d ∈ (p.buildSpec ev).denseIndices, ∀ s ∈ core, ∃ c ∈ p.choices.choices, p.Allowed m ev d s c)
    (hno : ∀ t, ¬ (p.buildSpec ev).Interpolates core t) (hrng : r.rng.Contract)
    (hev0 : ∀ bt, SameShape (initialValues bt.space) (r.ev0 bt)) (q q' : Processed)
    (hq : processModel env { m with params := θ } = some q)
    (hq' : processModel env { m with params := θ' } = some q')
    (hsame : q'.exogenous = q.exogenous) (h0 : 0 ≤ q.discount.delta) (hdd : q.discount.delta ≤ q'.discount.delta)
    (hflow : FlowsRelated (· ≤ ·) (p.buildSpec ev) core (q.solveInput ev r.senv).wageOf
      (q.solveInput ev r.senv).nonpecOf (q.solveInput ev r.senv).shocks (q'.solveInput ev r.senv).wageOf
      (q'.solveInput ev r.senv).nonpecOf (q'.solveInput ev r.senv).shocks) :
    ValuesRelated (fun _ v v' => v ≤ v') env ev m p core r θ θ' := by
  have hst := processModel_sameIndex env m θ hθ.index hθ.max
  rw [hp, hq] at hst
  cases hst with
  | some hst =>
    exact (solve_two_exogenous hp hr r θ θ' hθ hθ' hev hs hcore hexo static htypes hobs hnames hkeep hnd hother hfit hallowed hno
      hrng hev0 q q' hq hq' hsame).better
      (C82_processed_models_well_formed hp hev hs hcore)
      (isTransition_processes hq hst hexo static htypes hobs) h0 hdd hflow

/-- **C96 (partial)** with exogenous processes: a bounded change of utilities. -/
theorem C96_bounded_response_with_processes_partial (hp : processModel env m = some p) (hr : m.Reprocessable p)
    (r : SolveRoutines) (θ θ' : Dict (Str × Str) ℝ) (hθ : m.SameIndex θ) (hθ' : m.SameIndex θ') (hev : ev.Contract)
    (hs : p.Supported m ev core) (hcore : createCore (p.buildSpec ev).core = some core)
    (hexo : p.exogenous ≠ []) (static : List (Str × Nat)) (htypes : p.nTypes < 2)
    (hobs : p.observables.map (fun o => (o.1, o.2.length)) = static ++ p.exogenous.map fun o => (o.1, o.2.length))
    (hnames : ∀ e ∈ p.exogenous, ∀ level ∈ e.2, ∀ item ∈ level.2, item.1 ∈ p.columns true)
    (hkeep : env.KeepsShape) (hnd : (Dict.keys m.params).Nodup)
    (hother : ∀ q ∈ m.params, mentionsShocks q.1 = true → ∃ c ∈ shockCategories, q.1.1 = c.toList)
    (hfit : r.senv.Fits (p.buildSpec ev) core)
    (hallowed : ∀ d ∈ (p.buildSpec ev).denseIndices, ∀ s ∈ core, ∃ c ∈ p.choices.choices, p.Allowed m ev d s c)
    (hno : ∀ t, ¬ (p.buildSpec ev).Interpolates core t) (hrng : r.rng.Contract)
    (hev0 : ∀ bt, SameShape (initialValues bt.space) (r.ev0 bt)) (q q' : Processed)
    (hq : processModel env { m with params := θ } = some q)
    (hq' : processModel env { m with params := θ' } = some q')
    (hsame : q'.exogenous = q.exogenous) (h0 : 0 ≤ q.discount.delta) (hdd : q.discount.delta = q'.discount.delta) (eta : ℝ) (heta : 0 ≤ eta)
    (hflow : FlowsRelated (fun x y => |x - y| ≤ eta) (p.buildSpec ev) core (q.solveInput ev r.senv).wageOf
      (q.solveInput ev r.senv).nonpecOf (q.solveInput ev r.senv).shocks (q'.solveInput ev r.senv).wageOf
      (q'.solveInput ev r.senv).nonpecOf (q'.solveInput ev r.senv).shocks) :
    ValuesRelated (fun s v v' => |v - v'| ≤ eta * ∑ k ∈ Finset.range ((p.buildSpec ev).core.nPeriods - s.period),
      q.discount.delta ^ k) env ev m p core r θ θ' := by
  have hst := processModel_sameIndex env m θ hθ.index hθ.max
  rw [hp, hq] at hst
  cases hst with
  | some hst =>
    exact (solve_two_exogenous hp hr r θ θ' hθ hθ' hev hs hcore hexo static htypes hobs hnames hkeep hnd hother hfit hallowed hno
      hrng hev0 q q' hq hq' hsame).within
      (C82_processed_models_well_formed hp hev hs hcore)
      (isTransition_processes hq hst hexo static htypes hobs) h0 hdd eta heta hflow

/-- Two vectors of parameters of which one raises rewards are processed to models with higher utilities. -/
theorem RaisesRewards.processed (hp : processModel env m = some p) (hr : m.Reprocessable p)
    (r : SolveRoutines) (θ θ' : Dict (Str × Str) ℝ) (hθ : m.SameIndex θ) (hraise : RaisesRewards θ θ')
    (h0 : ∀ delta, Dict.get? θ ("delta".toList, "delta".toList) = some delta → 0 ≤ delta)
    (hpos : ∀ d ∈ (p.buildSpec ev).denseIndices, ∀ s ∈ core, ∀ x ∈ θ, ∀ y ∈ θ', x.1 = y.1 → x.2 ≠ y.2 →
      x.1.1 ≠ "delta".toList → 0 ≤ (p.covariates ev d s x.1.2).getD 0) :
    ∃ q q', m.SameIndex θ' ∧ processModel env { m with params := θ } = some q ∧
      processModel env { m with params := θ' } = some q' ∧ 0 ≤ q.discount.delta ∧
      q.discount.delta ≤ q'.discount.delta ∧
      FlowsRelated (· ≤ ·) (p.buildSpec ev) core (q.solveInput ev r.senv).wageOf
        (q.solveInput ev r.senv).nonpecOf (q.solveInput ev r.senv).shocks (q'.solveInput ev r.senv).wageOf
        (q'.solveInput ev r.senv).nonpecOf (q'.solveInput ev r.senv).shocks := by
  have hθ' : m.SameIndex θ' := by
    refine ⟨hθ.index.trans hraise.index, fun c => ?_⟩
    rw [hθ.max c]
    have h := hraise.get? ("maximum_exp".toList, c)
    have hn : ¬ IsReward "maximum_exp".toList := by
      unfold IsReward
      exact of_decide_eq_true (by decide +kernel)
    generalize Dict.get? θ ("maximum_exp".toList, c) = x at h
    generalize Dict.get? θ' ("maximum_exp".toList, c) = y at h
    cases h with
    | none => rfl
    | some h => rw [h.2 hn]
  obtain ⟨q, _, hq, _⟩ := reprocess_other hp hr θ hθ
  obtain ⟨q', _, hq', _⟩ := reprocess_other hp hr θ' hθ'
  have hst := processModel_sameIndex env m θ hθ.index hθ.max
  have hst' := processModel_sameIndex env m θ' hθ'.index hθ'.max
  rw [hp, hq] at hst
  rw [hp, hq'] at hst'
  cases hst with
  | some hst =>
    cases hst' with
    | some hst' =>
      obtain ⟨_, f⟩ := processModel_from _ _ _ hq
      obtain ⟨_, f'⟩ := processModel_from _ _ _ hq'
      have hqq : SameStructure q q' := by
        have := processModel_sameIndex env { m with params := θ } θ' hraise.index
          (fun c => by rw [← hθ.max c, ← hθ'.max c])
        rw [hq, show ({ ({ m with params := θ } : UserModel) with params := θ' } : UserModel) =
          { m with params := θ' } from rfl, hq'] at this
        cases this with
        | some h => exact h
      have hdelta := hraise.get? ("delta".toList, "delta".toList)
      have hd1 := f.discount
      have hd2 := f'.discount
      dsimp only at hd1 hd2
      unfold parseDiscount at hd1 hd2
      simp only [Option.bind_eq_bind, Option.bind_eq_some_iff, Option.pure_def, Option.some.injEq] at hd1 hd2
      obtain ⟨x, hx, hd1⟩ := hd1
      obtain ⟨y, hy, hd2⟩ := hd2
      rw [hx, hy] at hdelta
      have hb := hst.buildSpec ev
      have hflow := hraise.flows hq hq' r.senv core hqq (ev := ev) (by
        rw [← hb, ← hst.covariates ev]; exact hpos)
      rw [← hb] at hflow
      refine ⟨q, q', hθ', hq, hq', ?_, ?_, hflow⟩
      · rw [← hd1]; exact h0 x hx
      · rw [← hd1, ← hd2]
        cases hdelta with
        | some h => exact h.1

/-- The exogenous processes are the same if the changed categories consist of letters, digits and underscores. -/
theorem RaisesRewards.exogenous {θ θ' : Dict (Str × Str) ℝ} (hraise : RaisesRewards θ θ')
    (hword : ∀ x ∈ θ, IsReward x.1.1 → ∀ c ∈ x.1.1, isWordChar c = true) (maxFloat : ℝ) :
    parseExogenous maxFloat θ = parseExogenous maxFloat θ' := by
  have hnone : ∀ x ∈ θ, IsReward x.1.1 → ∀ name cls,
      extract ("exogenous_process".toList ++ ['_'] ++ name ++ ['_']) cls x.1.1 = none := by
    intro x hx hrew name cls
    refine extract_word_none _ _ _ (hword x hx hrew) (by simp) ?_
    rintro ⟨t, ht⟩
    have hh : ('e' :: ("xogenous_process".toList ++ ['_'] ++ name ++ ['_']) ++ t).head? = x.1.1.head? := congrArg _ ht
    have he : some 'e' = x.1.1.head? := hh
    rcases hrew with h | ⟨u, h⟩ | ⟨u, h⟩
    · rw [h] at he
      exact absurd he (by decide)
    · rw [← h] at he
      exact absurd he (by simp)
    · rw [← h] at he
      exact absurd he (by simp)
  have hlev : ∀ name, levelParams "exogenous_process".toList name θ = levelParams "exogenous_process".toList name θ' := by
    intro name
    have : ∀ l l' : Dict (Str × Str) ℝ, RaisesRewards l l' → (∀ x ∈ l, x ∈ θ) →
        (l.filterMap fun p => (extract ("exogenous_process".toList ++ ['_'] ++ name ++ ['_']) isLevelChar p.1.1).map
          fun t => (t, p)) =
        l'.filterMap fun p => (extract ("exogenous_process".toList ++ ['_'] ++ name ++ ['_']) isLevelChar p.1.1).map
          fun t => (t, p) := by
      intro l l' h hsub
      unfold RaisesRewards at h
      induction h with
      | nil => rfl
      | @cons x y l l' hxy _ ih =>
        have ih := ih fun z hz => hsub z (List.mem_cons_of_mem _ hz)
        by_cases hrew : IsReward x.1.1
        · have h1 := hnone x (hsub x List.mem_cons_self) hrew name isLevelChar
          rw [List.filterMap_cons_none (by rw [h1, Option.map_none]),
            List.filterMap_cons_none (by rw [← hxy.1, h1, Option.map_none]), ih]
        · rw [show x = y from Prod.ext hxy.1 (hxy.2.2 hrew), List.filterMap_cons, List.filterMap_cons, ih]
    unfold levelParams
    rw [this θ θ' hraise fun _ h => h]
  unfold parseExogenous parseLevels
  rw [show (θ.map fun p => p.1.1) = θ'.map fun p => p.1.1 by
    simpa [Function.comp_def] using congrArg (List.map Prod.fst) hraise.index]
  simp only [hlev]

/-- **C96 (partial).** A larger discount factor and larger coefficients of wages and non-pecuniary rewards do not lower
any value of the solution, if the covariates whose coefficients change are not negative. Missing: as in
`C96_better_parameters_partial`. -/
theorem C96_larger_coefficients_partial (hp : processModel env m = some p) (hr : m.Reprocessable p)
    (r : SolveRoutines) (θ θ' : Dict (Str × Str) ℝ) (hθ : m.SameIndex θ) (hraise : RaisesRewards θ θ')
    (hev : ev.Contract) (hs : p.Supported m ev core) (hcore : createCore (p.buildSpec ev).core = some core)
    (hexo : p.exogenous = []) (hkeep : env.KeepsShape) (hnd : (Dict.keys m.params).Nodup)
    (hother : ∀ q ∈ m.params, mentionsShocks q.1 = true → ∃ c ∈ shockCategories, q.1.1 = c.toList)
    (hfit : r.senv.Fits (p.buildSpec ev) core)
    (hallowed : ∀ d ∈ (p.buildSpec ev).denseIndices, ∀ s ∈ core, ∃ c ∈ p.choices.choices, p.Allowed m ev d s c)
    (hno : ∀ t, ¬ (p.buildSpec ev).Interpolates core t) (hrng : r.rng.Contract)
    (hev0 : ∀ bt, SameShape (initialValues bt.space) (r.ev0 bt))
    (h0 : ∀ delta, Dict.get? θ ("delta".toList, "delta".toList) = some delta → 0 ≤ delta)
    (hpos : ∀ d ∈ (p.buildSpec ev).denseIndices, ∀ s ∈ core, ∀ x ∈ θ, ∀ y ∈ θ', x.1 = y.1 → x.2 ≠ y.2 →
      x.1.1 ≠ "delta".toList → 0 ≤ (p.covariates ev d s x.1.2).getD 0) :
    ValuesRelated (fun _ v v' => v ≤ v') env ev m p core r θ θ' := by
  obtain ⟨q, q', hθ', hq, hq', h1, h2, hflow⟩ := hraise.processed hp hr r θ θ' hθ h0 hpos
  exact C96_better_parameters_partial hp hr r θ θ' hθ hθ' hev hs hcore hexo hkeep hnd hother hfit hallowed hno hrng
    hev0 q q' hq hq' h1 h2 hflow

/-- **C96 (partial)** with exogenous processes: a larger discount factor and larger coefficients of rewards. The names of
the categories of rewards consist of letters, digits and underscores. -/
theorem C96_larger_coefficients_with_processes_partial (hp : processModel env m = some p) (hr : m.Reprocessable p)
    (r : SolveRoutines) (θ θ' : Dict (Str × Str) ℝ) (hθ : m.SameIndex θ) (hraise : RaisesRewards θ θ')
    (hword : ∀ x ∈ θ, IsReward x.1.1 → ∀ c ∈ x.1.1, isWordChar c = true)
    (hev : ev.Contract) (hs : p.Supported m ev core) (hcore : createCore (p.buildSpec ev).core = some core)
    (hexo : p.exogenous ≠ []) (static : List (Str × Nat)) (htypes : p.nTypes < 2)
    (hobs : p.observables.map (fun o => (o.1, o.2.length)) = static ++ p.exogenous.map fun o => (o.1, o.2.length))
    (hnames : ∀ e ∈ p.exogenous, ∀ level ∈ e.2, ∀ item ∈ level.2, item.1 ∈ p.columns true)
    (hkeep : env.KeepsShape) (hnd : (Dict.keys m.params).Nodup)
    (hother : ∀ q ∈ m.params, mentionsShocks q.1 = true → ∃ c ∈ shockCategories, q.1.1 = c.toList)
    (hfit : r.senv.Fits (p.buildSpec ev) core)
    (hallowed : ∀ d ∈ (p.buildSpec ev).denseIndices, ∀ s ∈ core, ∃ c ∈ p.choices.choices, p.Allowed m ev d s c)
    (hno : ∀ t, ¬ (p.buildSpec ev).Interpolates core t) (hrng : r.rng.Contract)
    (hev0 : ∀ bt, SameShape (initialValues bt.space) (r.ev0 bt))
    (h0 : ∀ delta, Dict.get? θ ("delta".toList, "delta".toList) = some delta → 0 ≤ delta)
    (hpos : ∀ d ∈ (p.buildSpec ev).denseIndices, ∀ s ∈ core, ∀ x ∈ θ, ∀ y ∈ θ', x.1 = y.1 → x.2 ≠ y.2 →
      x.1.1 ≠ "delta".toList → 0 ≤ (p.covariates ev d s x.1.2).getD 0) :
    ValuesRelated (fun _ v v' => v ≤ v') env ev m p core r θ θ' := by
  obtain ⟨q, q', hθ', hq, hq', h1, h2, hflow⟩ := hraise.processed hp hr r θ θ' hθ h0 hpos
  obtain ⟨_, f⟩ := processModel_from _ _ _ hq
  obtain ⟨_, f'⟩ := processModel_from _ _ _ hq'
  have hsame : q'.exogenous = q.exogenous := by
    have e1 := f.exogenous
    have e2 := f'.exogenous
    dsimp only at e1 e2
    rw [hraise.exogenous hword, e2] at e1
    exact Option.some.inj e1
  exact C96_better_with_processes_partial hp hr r θ θ' hθ hθ' hev hs hcore hexo static htypes hobs hnames hkeep hnd hother
    hfit hallowed hno hrng hev0 q q' hq hq' hsame h1 h2 hflow

/-! ### Examples -/

theorem list_bound {α : Type _} (l : List α) (f : α → ℝ) : ∃ x : ℝ, 0 ≤ x ∧ ∀ y ∈ l, f y ≤ x := by
  induction l with
  | nil => exact ⟨0, le_rfl, by simp⟩
  | cons a l ih =>
    obtain ⟨x, h0, hx⟩ := ih
    refine ⟨max x (f a), h0.trans (le_max_left _ _), ?_⟩
    intro y hy
    rcases List.mem_cons.1 hy with rfl | hy
    · exact le_max_right _ _
    · exact (hx y hy).trans (le_max_left _ _)

/-- The utilities of two models with the same numbers of draws differ by a finite number. -/
theorem flows_within (b : BuildSpec) (core : List CoreState) (w m : Option Nat → CoreState → Nat → ℝ)
    (shocks : Nat → List Bool → List (Nat → ℝ)) (w' m' : Option Nat → CoreState → Nat → ℝ)
    (shocks' : Nat → List Bool → List (Nat → ℝ)) (hl : ∀ t cs, (shocks t cs).length = (shocks' t cs).length) :
    ∃ eta, 0 ≤ eta ∧ FlowsRelated (fun x y => |x - y| ≤ eta) b core w m shocks w' m' shocks' := by
  have h1 : ∀ d s, ∃ eta : ℝ, 0 ≤ eta ∧ ∀ ee ∈ (shocks s.period (b.choiceSetAt d s)).zip
      (shocks' s.period (b.choiceSetAt d s)), ∀ a ∈ List.range (b.choiceSetAt d s).length,
      |flowUtility (w d s) (m d s) ee.1 a - flowUtility (w' d s) (m' d s) ee.2 a| ≤ eta := by
    intro d s
    choose f hf0 hf using fun ee : (Nat → ℝ) × (Nat → ℝ) => list_bound (List.range (b.choiceSetAt d s).length)
      fun a => |flowUtility (w d s) (m d s) ee.1 a - flowUtility (w' d s) (m' d s) ee.2 a|
    obtain ⟨x, hx0, hx⟩ := list_bound ((shocks s.period (b.choiceSetAt d s)).zip
      (shocks' s.period (b.choiceSetAt d s))) f
    exact ⟨x, hx0, fun ee hee a ha => (hf ee a ha).trans (hx ee hee)⟩
  choose f hf0 hf using h1
  choose g hg0 hg using fun d => list_bound core (f d)
  obtain ⟨x, hx0, hx⟩ := list_bound b.denseIndices g
  refine ⟨x, hx0, fun d hd s hs => ?_⟩
  rw [List.forall₂_iff_zip]
  refine ⟨hl _ _, fun {e e'} hee a ha => ?_⟩
  refine (hf d s (e, e') hee a ?_).trans ((hg d s hs).trans (hx d hd))
  exact List.mem_range.2 (List.getElem?_eq_some_iff.1 ha).1

/-- Any two vectors of parameters satisfy the hypothesis on utilities for some `eta`. -/
example (b : BuildSpec) (q q' : Processed) (senv : SolveEnv) : ∃ eta, 0 ≤ eta ∧
    FlowsRelated (fun x y => |x - y| ≤ eta) b core (q.solveInput ev senv).wageOf
      (q.solveInput ev senv).nonpecOf (q.solveInput ev senv).shocks (q'.solveInput ev senv).wageOf
      (q'.solveInput ev senv).nonpecOf (q'.solveInput ev senv).shocks :=
  flows_within _ _ _ _ _ _ _ _ fun t cs => by simp [SolveInput.shocks, SolveInput.baseOf, Processed.solveInput]

/-- Parameters of the example with a larger discount factor and a larger coefficient of a reward. -/
noncomputable def richerParams : Dict (Str × Str) ℝ := estimateUser.params.map fun kv =>
  (kv.1, if kv.1 = ("delta".toList, "delta".toList) ∨ kv.1 = ("nonpec_a".toList, "constant".toList) then kv.2 + 1
    else kv.2)

theorem richer_raises : RaisesRewards estimateUser.params richerParams := by
  unfold RaisesRewards richerParams
  rw [List.forall₂_map_right_iff, List.forall₂_same]
  intro x _
  refine ⟨rfl, ?_, fun hn => ?_⟩
  · dsimp only
    split <;> linarith
  · dsimp only
    rw [if_neg]
    rintro (h | h)
    · exact hn (Or.inl (by rw [h]))
    · refine hn (Or.inr (Or.inr ?_))
      rw [h]
      exact of_decide_eq_true (by decide +kernel)

theorem estimateUser_small : (processModel unitEnv estimateUser).any (fun p => reprocessableCheck estimateUser p &&
    (createCore (p.buildSpec textEval).core).any (fun core => decide (core.length * 4 ≤ p.points)) &&
    decide (denseGrid p.denseSpec = some [[0, 0], [0, 1], [1, 0], [1, 1]]) &&
    decide (p.nTypes = 2)) = true := by decide +kernel

/-- The hypotheses hold: a model with types and an observable is solved with a larger discount factor and a larger
constant of a reward; no period is interpolated. -/
example : ∃ p core, processModel unitEnv estimateUser = some p ∧ estimateUser.Reprocessable p ∧
    createCore (p.buildSpec textEval).core = some core ∧ p.Supported estimateUser textEval core ∧ p.exogenous = [] ∧
    exampleRoutines.senv.Fits (p.buildSpec textEval) core ∧
    (∀ d ∈ (p.buildSpec textEval).denseIndices, ∀ s ∈ core,
      ∃ c ∈ p.choices.choices, p.Allowed estimateUser textEval d s c) ∧
    (∀ t, ¬ (p.buildSpec textEval).Interpolates core t) ∧
    (∀ delta, Dict.get? estimateUser.params ("delta".toList, "delta".toList) = some delta → 0 ≤ delta) ∧
    (∀ d ∈ (p.buildSpec textEval).denseIndices, ∀ s ∈ core, ∀ x ∈ estimateUser.params, ∀ y ∈ richerParams, x.1 = y.1 →
      x.2 ≠ y.2 → x.1.1 ≠ "delta".toList → 0 ≤ (p.covariates textEval d s x.1.2).getD 0) ∧
    richerParams ≠ estimateUser.params := by
  obtain ⟨p, core, hp, h1, h2, h3, h4, _, h6, h7, h8, h9, _, hc, hf, hlen, _⟩ := estimateUser_hypotheses
  have hsmall := estimateUser_small
  rw [hp] at hsmall
  simp only [Option.any_some, Bool.and_eq_true, decide_eq_true_eq] at hsmall
  obtain ⟨⟨⟨g1, g2⟩, g3⟩, g4⟩ := hsmall
  rw [h1] at g2
  simp only [Option.any_some, decide_eq_true_eq] at g2
  refine ⟨p, core, hp, reprocessable_of_check _ _ g1, h1, h2, h3, h8, h9, fun t ht => ?_, fun delta hd => ?_, ?_, ?_⟩
  · have hlen : ((p.buildSpec textEval).statesOfPeriod core t).length ≤ core.length * 4 := by
      have hden : (p.buildSpec textEval).denseIndices = [some 0, some 1, some 2, some 3] := by
        have : (p.buildSpec textEval).grid = some [[0, 0], [0, 1], [1, 0], [1, 1]] := g3
        unfold BuildSpec.denseIndices
        rw [this]; rfl
      have hfil := List.length_filter_le (fun s : CoreState => decide (s.period = t)) core
      unfold BuildSpec.statesOfPeriod
      rw [hden]
      simp only [List.flatMap_cons, List.flatMap_nil, List.length_append, List.length_map, List.length_nil]
      omega
    have := ht.1
    have hpts : (p.buildSpec textEval).points = p.points := rfl
    omega
  · have h : Dict.get? estimateUser.params ("delta".toList, "delta".toList) = some (1 / 2) := by
      unfold estimateUser exampleUser
      dsimp only [List.cons_append]
      rw [Dict.get?, if_pos rfl]
    rw [h] at hd
    cases hd
    norm_num
  · intro d hd s hs x hx y hy hxy hne hnd
    have hname : x.1 = ("nonpec_a".toList, "constant".toList) := by
      unfold richerParams at hy
      obtain ⟨z, hz, rfl⟩ := List.mem_map.1 hy
      dsimp only at hxy hne
      have hzx : z = x := by
        have hnd : (Dict.keys estimateUser.params).Nodup := h6
        exact List.inj_on_of_nodup_map hnd hz hx hxy.symm
      subst hzx
      by_contra hcon
      apply hne
      rw [if_neg]
      rintro (h | h)
      · exact hnd (by rw [h])
      · exact hcon h
    rw [hname]
    have hm : ("constant".toList, "1".toList) ∈ estimateUser.covariates := by
      show _ ∈ exampleUser.covariates
      unfold exampleUser
      exact List.mem_cons_self
    have hneed : Needed estimateUser.covariates (estimateUser.params.map fun q => q.1.2) "constant".toList :=
      .parameter _ (List.mem_map.2 ⟨_, hm, rfl⟩) (List.mem_map.2 ⟨x, hx, by rw [hname]⟩)
    obtain ⟨v, hv1, hv2⟩ := (C84_covariates_by_formula hp hc hf h2 h1 hlen d hd s hs).2.1 _ _ hm hneed (by
      intro i _ _ he
      have h' : some 'c' = some 't' := congrArg List.head? he
      exact absurd h' (by decide))
    have hrep : replaceLabels p.choices.choices (textLevels p.observables) "1".toList = "1".toList :=
      replaceLabels_absent _ _ _ (by decide) (by decide)
    rw [hrep] at hv2
    have hv3 : some (1 : ℝ) = some v := hv2
    cases hv3
    rw [hv1]
    norm_num
  · intro he
    have := congrArg (fun l => (l.map Prod.snd)[0]?) he
    simp only [richerParams, estimateUser, exampleUser] at this
    norm_num at this

/-- Parameters of the example with an exogenous process, with a larger discount factor and a larger reward. -/
noncomputable def richerProcessParams : Dict (Str × Str) ℝ := exogenousUser.params.map fun kv =>
  (kv.1, if kv.1 = ("delta".toList, "delta".toList) ∨ kv.1 = ("nonpec_a".toList, "constant".toList) then kv.2 + 1
    else kv.2)

theorem exogenousUser_small : (processModel unitEnv exogenousUser).any (fun p =>
    (createCore (p.buildSpec textEval).core).any (fun core => decide (core.length * 4 ≤ p.points)) &&
    decide (denseGrid p.denseSpec = some [[0, 0], [0, 1], [1, 0], [1, 1]]) &&
    decide (((exogenousUser.params.map Prod.fst).all fun k => k.1.all isWordChar) = true)) = true := by decide +kernel

/-- The theorem for models with exogenous processes is used: the values do not fall. -/
example : ∃ p core, processModel unitEnv exogenousUser = some p ∧ core ≠ [] ∧
    ValuesRelated (fun _ v v' => v ≤ v') unitEnv textEval exogenousUser p core exampleRoutines exogenousUser.params
      richerProcessParams ∧ richerProcessParams ≠ exogenousUser.params := by
  obtain ⟨p, core, hp, h1, h2, h3, h4, h5, h6, h7, h8, h9, h10, h11, h12, h13, _⟩ := exogenousUser_hypotheses
  have hsmall := exogenousUser_small
  have hr := exogenousUser_sound
  rw [hp] at hsmall hr
  simp only [Option.any_some, Bool.and_eq_true] at hsmall hr
  obtain ⟨⟨g2, g3⟩, g4⟩ := hsmall
  obtain ⟨⟨⟨⟨⟨r1, r2⟩, r3⟩, r4⟩, r5⟩, r6⟩ := hr
  rw [h1] at g2
  have g2 : core.length * 4 ≤ p.points := of_decide_eq_true g2
  have g3 := of_decide_eq_true g3
  have g4 := of_decide_eq_true g4
  have hf : p.FormulasSound textEval :=
    ⟨fun c d hcd => textEval_accurate d (List.all_eq_true.1 r2 _ hcd), of_decide_eq_true r3, of_decide_eq_true r4⟩
  have hraise : RaisesRewards exogenousUser.params richerProcessParams := by
    unfold RaisesRewards richerProcessParams
    rw [List.forall₂_map_right_iff, List.forall₂_same]
    intro x _
    refine ⟨rfl, ?_, fun hn => ?_⟩
    · dsimp only
      split <;> linarith
    · dsimp only
      rw [if_neg]
      rintro (h | h)
      · exact hn (Or.inl (by rw [h]))
      · refine hn (Or.inr (Or.inr ?_))
        rw [h]
        exact of_decide_eq_true (by decide +kernel)
  refine ⟨p, core, hp, ?_, C96_larger_coefficients_with_processes_partial hp (reprocessable_of_check _ _ r1)
    exampleRoutines _ _ ⟨rfl, fun _ => rfl⟩ hraise (fun x hx _ => ?_) textEval_contract h2 h1 h3 [("able".toList, 2)] h4
    h5 h6 h7 h9 h10 h11 h12 (fun t ht => ?_) firstRandom_contract (fun bt => SameShape.refl _) (fun delta hd => ?_) ?_,
    ?_⟩
  · intro he
    subst he
    have hc := exogenousUser_estimate_check
    rw [hp] at hc
    simp only [Option.any_some, Bool.and_eq_true, h1, decide_eq_true_eq] at hc
    exact absurd hc.2 (by simp)
  · exact List.all_eq_true.1 (List.all_eq_true.1 g4 x.1 (List.mem_map_of_mem hx))
  · have hlen : ((p.buildSpec textEval).statesOfPeriod core t).length ≤ core.length * 4 := by
      have hden : (p.buildSpec textEval).denseIndices = [some 0, some 1, some 2, some 3] := by
        have : (p.buildSpec textEval).grid = some [[0, 0], [0, 1], [1, 0], [1, 1]] := g3
        unfold BuildSpec.denseIndices
        rw [this]; rfl
      have hfil := List.length_filter_le (fun s : CoreState => decide (s.period = t)) core
      unfold BuildSpec.statesOfPeriod
      rw [hden]
      simp only [List.flatMap_cons, List.flatMap_nil, List.length_append, List.length_map, List.length_nil]
      omega
    have := ht.1
    have hpts : (p.buildSpec textEval).points = p.points := rfl
    omega
  · have h : Dict.get? exogenousUser.params ("delta".toList, "delta".toList) = some (1 / 2) := by
      unfold exogenousUser
      dsimp only
      rw [Dict.get?, if_pos rfl]
    rw [h] at hd
    cases hd
    norm_num
  · intro d hd s hs x hx y hy hxy hne hnd
    have hname : x.1 = ("nonpec_a".toList, "constant".toList) := by
      unfold richerProcessParams at hy
      obtain ⟨z, hz, rfl⟩ := List.mem_map.1 hy
      dsimp only at hxy hne
      have hzx : z = x := by
        have hnd : (Dict.keys exogenousUser.params).Nodup := h9
        exact List.inj_on_of_nodup_map hnd hz hx hxy.symm
      subst hzx
      by_contra hcon
      apply hne
      rw [if_neg]
      rintro (h | h)
      · exact hnd (by rw [h])
      · exact hcon h
    rw [hname]
    have hm : ("constant".toList, "1".toList) ∈ exogenousUser.covariates := by
      unfold exogenousUser
      exact List.mem_cons_self
    have hneed : Needed exogenousUser.covariates (exogenousUser.params.map fun q => q.1.2) "constant".toList :=
      .parameter _ (List.mem_map.2 ⟨_, hm, rfl⟩) (List.mem_map.2 ⟨x, hx, by rw [hname]⟩)
    obtain ⟨v, hv1, hv2⟩ := (C84_covariates_by_formula hp (by decide +kernel) hf h2 h1
      (denseColumns_exogenous p _ h4 h5) d hd s hs).2.1 _ _ hm hneed (by
      intro i _ _ he
      have h' : some 'c' = some 't' := congrArg List.head? he
      exact absurd h' (by decide))
    have hrep : replaceLabels p.choices.choices (textLevels p.observables) "1".toList = "1".toList :=
      replaceLabels_absent _ _ _ (by decide) (by decide)
    rw [hrep] at hv2
    have hv3 : some (1 : ℝ) = some v := hv2
    cases hv3
    rw [hv1]
    norm_num
  · intro he
    have := congrArg (fun l => (l.map Prod.snd)[0]?) he
    simp only [richerProcessParams, exogenousUser] at this
    norm_num at this

end Respy
