import Verif.Lemmas.Myopic
import Verif.Lemmas.DeltaParams
import Verif.Props.Differences

/-!
# C109 Small changes of values and myopic agents
-/

namespace Respy

/-! ### Solutions with nearly the same values -/

/-- **C109.** Two solutions in which the values of alternatives differ by at most `eta` give the same sample, if in every
row one alternative is better than all others by more than `2 eta`. Individuals have the same states, shocks, wages and
choices; only the recorded values of alternatives differ, and by at most `eta`. The solutions may belong to different
discount factors. -/
theorem C109_small_changes_same_sample {K : Type} [Field K] [LinearOrder K] [IsStrictOrderedRing K] {G P : Type}
    (sim : Simulation K G P) (θ θ' : P) (sp sp' : SimSpace K)
    (hs : sim.solve θ = some sp) (hs' : sim.solve θ' = some sp') (hchars : sim.chars θ' = sim.chars θ)
    (beta' eta : K) (hrew : sim.rewards θ' = { sim.rewards θ with betaDelta := beta' })
    (h : SimSpace.Nearby sim.nPeriods (sim.rewards θ).betaDelta beta' eta sp sp') (g : G) (out : List (SimRow K))
    (hout : (sim.run θ g).1 = some out) (hclear : ∀ row ∈ out, ClearChoice (2 * eta) row.outcome.values) :
    ∃ out', (sim.run θ' g).1 = some out' ∧ List.Forall₂ (NearlySameRow eta) out out' ∧
      (sim.run θ' g).2 = (sim.run θ g).2 :=
  h.run sim θ θ' rfl hs hs' hchars hrew g out hout hclear

/-- **C109.** Two solutions in which the values of alternatives differ by at most `eta` give log likelihoods which differ
by at most `2 eta / tau` for each row of the data, where `tau` is the smoothing parameter. -/
theorem C109_small_changes_of_likelihood {P : Type} (e : Estimation P) (θ θ' : P) (sp sp' : SimSpace ℝ)
    (hs : e.solve θ = some sp) (hs' : e.solve θ' = some sp') (beta' eta : ℝ) (heta : 0 ≤ eta)
    (hpar : e.params θ' = { e.params θ with betaDelta := beta' })
    (h : SimSpace.Nearby e.nPeriods (e.params θ).betaDelta beta' eta sp sp')
    (hk : sp.KeysByPeriod e.nPeriods) (hk' : sp'.KeysByPeriod e.nPeriods) :
    Option.Rel (fun v v' => |v' - v| ≤ e.data.length * (2 * eta / |e.tau|)) (e.logLike θ) (e.logLike θ') :=
  h.logLike θ θ' hs hs' hpar heta hk hk'

/-! ### Functions of the parameters -/

variable {env : ProcessEnv} {ev : FormulaEval} {m : UserModel} {p q : Processed} {core : List CoreState}
  {θ : Dict (Str × Str) ℝ}

theorem processModel_setDelta (hq : processModel env { m with params := θ } = some q) (delta : ℝ) :
    processModel env { m with params := setDelta delta θ } = some { q with
      discount := ⟨delta, q.discount.beta, q.discount.beta * delta⟩ } := by
  obtain ⟨_, hfrom⟩ := processModel_from _ _ _ hq
  exact (setDelta_same delta θ).processModel env m q hq _ (setDelta_parse delta θ _ hfrom.discount)

/-- The processed model with another discount factor. -/
def Processed.withDelta (q : Processed) (delta : ℝ) : Processed :=
  { q with discount := ⟨delta, q.discount.beta, q.discount.beta * delta⟩ }

/-- The solutions for myopic individuals and for a discount factor `delta` up to one have values which differ by at most
`bound * delta`. -/
def MyopicSolved (ev : FormulaEval) (r : SolveRoutines) (q : Processed) (bound : ℝ) : Prop :=
  ∀ delta, 0 < delta → delta ≤ 1 → ∃ sp sp', (q.withDelta 0).solveWith (q.withDelta 0) ev r = some sp ∧
    (q.withDelta delta).solveWith (q.withDelta delta) ev r = some sp' ∧
    SimSpace.Nearby q.nPeriods 0 (q.discount.beta * delta) (bound * delta) sp sp' ∧
    sp.KeysByPeriod q.nPeriods ∧ sp'.KeysByPeriod q.nPeriods

/-- The solutions for small discount factors without exogenous processes. -/
theorem myopicSolved_static (hev : ev.Contract) (hq : processModel env { m with params := θ } = some q)
    (hs : q.Supported { m with params := θ } ev core) (hcore : createCore (q.buildSpec ev).core = some core)
    (hexo : q.exogenous = []) (hkeep : env.KeepsShape) (hnd : (Dict.keys θ).Nodup)
    (hother : ∀ x ∈ θ, mentionsShocks x.1 = true → ∃ c ∈ shockCategories, x.1.1 = c.toList)
    (r : SolveRoutines) (hfit : r.senv.Fits (q.buildSpec ev) core)
    (hallowed : ∀ d ∈ (q.buildSpec ev).denseIndices, ∀ s ∈ core,
      ∃ c ∈ q.choices.choices, q.Allowed { m with params := θ } ev d s c)
    (hno : ∀ t, ¬ (q.buildSpec ev).Interpolates core t) (hrng : r.rng.Contract)
    (hev0 : ∀ bt, SameShape (initialValues bt.space) (r.ev0 bt)) :
    ∃ bound, 0 ≤ bound ∧ MyopicSolved ev r q bound := by
  have hinp := C82_solve_input_well_formed hq hs hcore (denseColumns_static q hexo) hkeep hnd hother r.senv hfit
  have wf := C82_processed_models_well_formed hq hev hs hcore
  have hcs : ∀ d ∈ (q.buildSpec ev).denseIndices, ∀ s ∈ core,
      ∃ a : Nat, ((q.buildSpec ev).choiceSetAt d s)[a]? = some true := by
    intro d hd s hsc
    obtain ⟨c, hc, hall⟩ := hallowed d hd s hsc
    obtain ⟨a, ha⟩ := List.mem_iff_getElem?.1 hc
    exact ⟨a, (C82_choice_sets_by_name hq hev hs.toDescribed hcore d hd s hsc a c ha).2 hall⟩
  obtain ⟨M, hM, hflow⟩ := exists_flow_bound (q.buildSpec ev) core (q.solveInput ev r.senv).wageOf
    (q.solveInput ev r.senv).nonpecOf (q.solveInput ev r.senv).shocks
  obtain ⟨bt, hbuild, hsnd⟩ := buildSpace_noExogenous (q.buildSpec ev) core wf (by simp [Processed.buildSpec, hexo])
  refine ⟨|q.discount.beta| * (M * q.nPeriods), by positivity, fun delta h0 h1 => ?_⟩
  obtain ⟨par, par', ev1, ev1', k1, k2, k3, k4, k5⟩ := solved_nearby wf hsnd (q.solveInput ev r.senv) hinp
    (isTransition_static _ _) [] (fun par _ => hsnd.continuationIs par) r.rng hrng r.sqrt r.ols r.maxLog hcs hno r.seed
    (r.ev0 bt) (hev0 bt) r.valueCounts r.keyOrder hM hflow delta h0 h1 (q.discount.beta * delta)
  have he : |q.discount.beta * delta| * (M * (q.buildSpec ev).core.nPeriods) =
      |q.discount.beta| * (M * q.nPeriods) * delta := by
    rw [abs_mul, abs_of_pos h0, show ((q.buildSpec ev).core.nPeriods : ℝ) = q.nPeriods from rfl]
    ring
  rw [he] at k5
  refine ⟨_, _, ?_, ?_, k5, simSpace_keysByPeriod _ _ _ _ _ _ _, simSpace_keysByPeriod _ _ _ _ _ _ _⟩
  · refine solveWith_static (q := q.withDelta 0) hexo r bt _ hbuild ?_
    show ({ q.solveInput ev r.senv with delta := 0 } : SolveInput ℝ).solveModel (q.buildSpec ev) (fun _ => some []) _ r.seed
      r.ev0 r.valueCounts r.keyOrder = _
    unfold SolveInput.solveModel
    simp only [hbuild, Option.bind_eq_bind, Option.bind_some, k1]
    erw [k3]
    rfl
  · refine solveWith_static (q := q.withDelta delta) hexo r bt _ hbuild ?_
    show ({ q.solveInput ev r.senv with delta := delta } : SolveInput ℝ).solveModel (q.buildSpec ev) (fun _ => some []) _
      r.seed r.ev0 r.valueCounts r.keyOrder = _
    unfold SolveInput.solveModel
    simp only [hbuild, Option.bind_eq_bind, Option.bind_some, k2]
    erw [k4]
    rfl

/-- The solutions for small discount factors with exogenous processes. -/
theorem myopicSolved_exogenous (hev : ev.Contract) (hq : processModel env { m with params := θ } = some q)
    (hs : q.Supported { m with params := θ } ev core) (hcore : createCore (q.buildSpec ev).core = some core)
    (hexo : q.exogenous ≠ []) (static : List (Str × Nat)) (htypes : q.nTypes < 2)
    (hobs : q.observables.map (fun o => (o.1, o.2.length)) = static ++ q.exogenous.map fun o => (o.1, o.2.length))
    (hnames : ∀ e ∈ q.exogenous, ∀ level ∈ e.2, ∀ item ∈ level.2, item.1 ∈ q.columns true)
    (hkeep : env.KeepsShape) (hnd : (Dict.keys θ).Nodup)
    (hother : ∀ x ∈ θ, mentionsShocks x.1 = true → ∃ c ∈ shockCategories, x.1.1 = c.toList)
    (r : SolveRoutines) (hfit : r.senv.Fits (q.buildSpec ev) core)
    (hallowed : ∀ d ∈ (q.buildSpec ev).denseIndices, ∀ s ∈ core,
      ∃ c ∈ q.choices.choices, q.Allowed { m with params := θ } ev d s c)
    (hno : ∀ t, ¬ (q.buildSpec ev).Interpolates core t) (hrng : r.rng.Contract)
    (hev0 : ∀ bt, SameShape (initialValues bt.space) (r.ev0 bt)) :
    ∃ bound, 0 ≤ bound ∧ MyopicSolved ev r q bound := by
  obtain ⟨covs, hfrom⟩ := processModel_from _ _ _ hq
  have hlen := denseColumns_exogenous q static htypes hobs
  have hinp := C82_solve_input_well_formed hq hs hcore hlen hkeep hnd hother r.senv hfit
  have wf := C82_processed_models_well_formed hq hev hs hcore
  have hcs : ∀ d ∈ (q.buildSpec ev).denseIndices, ∀ s ∈ core,
      ∃ a : Nat, ((q.buildSpec ev).choiceSetAt d s)[a]? = some true := by
    intro d hd s hsc
    obtain ⟨c, hc, hall⟩ := hallowed d hd s hsc
    obtain ⟨a, ha⟩ := List.mem_iff_getElem?.1 hc
    exact ⟨a, (C82_choice_sets_by_name hq hev hs.toDescribed hcore d hd s hsc a c ha).2 hall⟩
  obtain ⟨M, hM, hflow⟩ := exists_flow_bound (q.buildSpec ev) core (q.solveInput ev r.senv).wageOf
    (q.solveInput ev r.senv).nonpecOf (q.solveInput ev r.senv).shocks
  have hx := exogenous_wf q ev hexo static htypes hobs
  have hep : q.exogenousParams.map List.length = (q.buildSpec ev).exogLevels := by
    simp [Processed.exogenousParams, Processed.buildSpec, Function.comp_def]
  have hlev : ∀ levels ∈ q.exogenousParams, levels ≠ [] := by
    intro levels hl
    obtain ⟨e, he, rfl⟩ := List.mem_map.1 hl
    intro hne
    exact hfrom.exogenous_ne e he (List.map_eq_nil_iff.1 hne)
  have hcov : ∀ levels ∈ q.exogenousParams, ∀ beta ∈ levels, ∀ item ∈ beta, ∀ d ∈ (q.buildSpec ev).denseIndices,
      ∀ s ∈ core, ((q.solveInput ev r.senv).covariates d s item.1).isSome := by
    intro levels hl beta hb item hi d hd s hmem
    obtain ⟨e, he, rfl⟩ := List.mem_map.1 hl
    obtain ⟨level, hlev, rfl⟩ := List.mem_map.1 hb
    refine hs.column hfrom hcore hlen d hd s hmem _ ?_
    have hg : denseGrid q.denseSpec = some _ := exogenous_grid q ev hexo static htypes hobs
    rw [hg]
    exact hnames e he level hlev item hi
  obtain ⟨bt, reps, hbuild, hsnd, htr, hdpc⟩ := buildSpace_exogenous (q.buildSpec ev) core wf _ hx
  obtain ⟨transition, ht, hfits⟩ := (q.solveInput ev r.senv).transitions_fit q.exogenousParams (q.buildSpec ev) core wf _
    hx hep hcov bt reps hsnd hdpc
  have hgrid : exogenousGrid (q.buildSpec ev).exogLevels ≠ [] := by
    intro h0
    have := (C19_level_probabilities q.exogenousParams hlev fun _ => none).2
    rw [hep, h0] at this
    simp at this
  have hfut := isTransition_exogenous (q.buildSpec ev) core _ hx q.exogenousParams hep hlev
    (q.solveInput ev r.senv).covariates
  refine ⟨|q.discount.beta| * (M * q.nPeriods), by positivity, fun delta h0 h1 => ?_⟩
  obtain ⟨par, par', ev1, ev1', k1, k2, k3, k4, k5⟩ := solved_nearby wf hsnd (q.solveInput ev r.senv) hinp hfut transition
    (fun par hp => hsnd.continuationIs_exogenous htr hgrid par
      (fun d s e => levelProbability q.exogenousParams ((q.solveInput ev r.senv).covariates d s) e)
      (by rw [hp]; exact hfits))
    r.rng hrng r.sqrt r.ols r.maxLog hcs hno r.seed
    (r.ev0 bt) (hev0 bt) r.valueCounts r.keyOrder hM hflow delta h0 h1 (q.discount.beta * delta)
  have he : |q.discount.beta * delta| * (M * (q.buildSpec ev).core.nPeriods) =
      |q.discount.beta| * (M * q.nPeriods) * delta := by
    rw [abs_mul, abs_of_pos h0, show ((q.buildSpec ev).core.nPeriods : ℝ) = q.nPeriods from rfl]
    ring
  rw [he] at k5
  refine ⟨_, _, ?_, ?_, k5, simSpace_keysByPeriod _ _ _ _ _ _ _, simSpace_keysByPeriod _ _ _ _ _ _ _⟩
  · refine solveWith_exogenous (q := q.withDelta 0) hexo r bt _ hbuild ?_
    show ({ q.solveInput ev r.senv with delta := 0 } : SolveInput ℝ).solveModel (q.buildSpec ev)
      ((q.solveInput ev r.senv).transitions q.exogenousParams (q.buildSpec ev)) _ r.seed r.ev0 r.valueCounts r.keyOrder = _
    unfold SolveInput.solveModel
    simp only [hbuild, ht, Option.bind_eq_bind, Option.bind_some, k1]
    erw [k3]
    rfl
  · refine solveWith_exogenous (q := q.withDelta delta) hexo r bt _ hbuild ?_
    show ({ q.solveInput ev r.senv with delta := delta } : SolveInput ℝ).solveModel (q.buildSpec ev)
      ((q.solveInput ev r.senv).transitions q.exogenousParams (q.buildSpec ev)) _ r.seed r.ev0 r.valueCounts r.keyOrder = _
    unfold SolveInput.solveModel
    simp only [hbuild, ht, Option.bind_eq_bind, Option.bind_some, k2]
    erw [k4]
    rfl

theorem sameIndex_setDelta (hθ : m.SameIndex θ) (delta : ℝ) : m.SameIndex (setDelta delta θ) := by
  have h := setDelta_same delta θ
  refine ⟨hθ.index.trans h.index, fun c => ?_⟩
  rw [hθ.max c, h.get? ("maximum_exp".toList, c) (show "maximum_exp".toList ≠ "delta".toList by decide +kernel)]

/-- Small discount factors nearly give the samples and the likelihood of myopic individuals. -/
theorem functions_of_myopicSolved (hp : processModel env m = some p) (hr : m.Reprocessable p)
    (hev : ev.Contract) (hf : p.FormulasSound ev) (hid : "identifier".toList ∉ Dict.keys p.groups.all)
    (hg : ∀ t beta, Dict.get? p.typeProb t = some beta → ∃ bound, Graded p.groups.all (beta.map Prod.fst) bound)
    (hθ : m.SameIndex θ) (hq : processModel env { m with params := θ } = some q) (r : SolveRoutines)
    (bound : ℝ) (hbound : 0 ≤ bound) (solved : MyopicSolved ev r q bound) :
    (∀ (G : Type) (e : SimulateEnv G) simulate, getSimulateFunc env ev r m e = some simulate →
      ∀ delta, 0 < delta → delta ≤ 1 → ∀ g out, (simulate (setDelta 0 θ) g).1 = some out →
        (∀ row ∈ out, ClearChoice (2 * (bound * delta)) row.outcome.values) →
        ∃ out', (simulate (setDelta delta θ) g).1 = some out' ∧
          List.Forall₂ (NearlySameRow (bound * delta)) out out' ∧
          (simulate (setDelta delta θ) g).2 = (simulate (setDelta 0 θ) g).2) ∧
    ∃ fuel, ∀ e : EstimateEnv, (∀ n l, (e.order n l).Perm l) → fuel ≤ e.fuel →
      ∀ logLike, getCriterionFunc env ev r m e = some logLike → ∀ delta, 0 < delta → delta ≤ 1 →
        Option.Rel (fun v v' => |v' - v| ≤ e.data.length * (2 * (bound * delta) / |e.tau|))
          (logLike (setDelta 0 θ)) (logLike (setDelta delta θ)) := by
  refine ⟨fun G e simulate hsim delta h0 h1 g out hout hclear => ?_, ?_⟩
  · obtain ⟨q1, _, hq1, _, _, hrun⟩ :=
      (C87_simulate_function_partial hp hr hev hf hid r e).2 simulate hsim _ (sameIndex_setDelta hθ 0)
    obtain ⟨q2, _, hq2, _, _, hrun'⟩ :=
      (C87_simulate_function_partial hp hr hev hf hid r e).2 simulate hsim _ (sameIndex_setDelta hθ delta)
    obtain ⟨sp, sp', hsp, hsp', hnear, _, _⟩ := solved delta h0 h1
    rw [processModel_setDelta hq] at hq1 hq2
    cases hq1
    cases hq2
    change (q.withDelta 0).solveWith (q.withDelta 0) ev r = some sp at hsp
    unfold Processed.withDelta at hsp hsp'
    rw [hrun, hsp] at hout
    rw [hrun, hrun', hsp, hsp']
    have hn : SimSpace.Nearby q.nPeriods (q.discount.beta * 0) (q.discount.beta * delta) (bound * delta) sp sp' := by
      rw [mul_zero]
      exact hnear
    exact C109_small_changes_same_sample
      ({ (q.withDelta 0).simulation ev r.senv e (some sp) with
        chars := fun _ : Bool => ((q.withDelta 0).simulation ev r.senv e (some sp)).chars ()
        rewards := fun u => if u then ((q.withDelta delta).simulation ev r.senv e (some sp)).rewards () else
          ((q.withDelta 0).simulation ev r.senv e (some sp)).rewards ()
        solve := fun u => if u then some sp' else some sp } : Simulation ℝ G Bool) false true sp sp' rfl rfl rfl
      (q.discount.beta * delta) (bound * delta) rfl hn g out hout hclear
  · obtain ⟨fuel, hfuel⟩ := C87_criterion_function_partial hp hr hev hf hid hg r
    refine ⟨fuel, fun e ho hle logLike hlog delta h0 h1 => ?_⟩
    obtain ⟨q1, _, hq1, _, _, hrun⟩ := (hfuel e ho hle).2 logLike hlog _ (sameIndex_setDelta hθ 0)
    obtain ⟨q2, _, hq2, _, _, hrun'⟩ := (hfuel e ho hle).2 logLike hlog _ (sameIndex_setDelta hθ delta)
    obtain ⟨sp, sp', hsp, hsp', hnear, hkeys, hkeys'⟩ := solved delta h0 h1
    rw [processModel_setDelta hq] at hq1 hq2
    cases hq1
    cases hq2
    unfold Processed.withDelta at hsp hsp'
    rw [hrun, hrun', hsp, hsp']
    have hn : SimSpace.Nearby q.nPeriods (q.discount.beta * 0) (q.discount.beta * delta) (bound * delta) sp sp' := by
      rw [mul_zero]
      exact hnear
    exact C109_small_changes_of_likelihood
      ({ (q.withDelta 0).estimation ev e (some sp) with
        params := fun u => if u then ((q.withDelta delta).estimation ev e (some sp)).params () else
          ((q.withDelta 0).estimation ev e (some sp)).params ()
        solve := fun u => if u then some sp' else some sp } : Estimation Bool) false true sp sp' rfl rfl
      (q.discount.beta * delta) (bound * delta) (by positivity) rfl hn hkeys hkeys'

/-- **C109.** Individuals with a small discount factor behave like myopic individuals. There is a constant such that for
every positive discount factor `delta` up to one: if in the sample simulated for the discount factor zero every choice is
better than all others by more than twice the constant times `delta`, then the sample simulated for `delta` has the same
states, shocks, wages and choices, and the criterion function differs by at most twice the constant times `delta / tau`
for each row of the data. For the discount factor zero the code takes another path: the values are never computed.

Missing: interpolation, as the predictions of the regression are not bounded. For exogenous processes see
`C109_tiny_discount_with_processes_partial`. -/
theorem C109_tiny_discount_factor_partial (hp : processModel env m = some p) (hr : m.Reprocessable p)
    (hev : ev.Contract) (hf : p.FormulasSound ev) (hid : "identifier".toList ∉ Dict.keys p.groups.all)
    (hg : ∀ t beta, Dict.get? p.typeProb t = some beta → ∃ bound, Graded p.groups.all (beta.map Prod.fst) bound)
    (hθ : m.SameIndex θ) (hq : processModel env { m with params := θ } = some q)
    (hs : q.Supported { m with params := θ } ev core) (hcore : createCore (q.buildSpec ev).core = some core)
    (hexo : q.exogenous = []) (hkeep : env.KeepsShape) (hnd : (Dict.keys θ).Nodup)
    (hother : ∀ x ∈ θ, mentionsShocks x.1 = true → ∃ c ∈ shockCategories, x.1.1 = c.toList)
    (r : SolveRoutines) (hfit : r.senv.Fits (q.buildSpec ev) core)
    (hallowed : ∀ d ∈ (q.buildSpec ev).denseIndices, ∀ s ∈ core,
      ∃ c ∈ q.choices.choices, q.Allowed { m with params := θ } ev d s c)
    (hno : ∀ t, ¬ (q.buildSpec ev).Interpolates core t) (hrng : r.rng.Contract)
    (hev0 : ∀ bt, SameShape (initialValues bt.space) (r.ev0 bt)) :
    ∃ bound : ℝ, 0 ≤ bound ∧
    (∀ (G : Type) (e : SimulateEnv G) simulate, getSimulateFunc env ev r m e = some simulate →
      ∀ delta, 0 < delta → delta ≤ 1 → ∀ g out, (simulate (setDelta 0 θ) g).1 = some out →
        (∀ row ∈ out, ClearChoice (2 * (bound * delta)) row.outcome.values) →
        ∃ out', (simulate (setDelta delta θ) g).1 = some out' ∧
          List.Forall₂ (NearlySameRow (bound * delta)) out out' ∧
          (simulate (setDelta delta θ) g).2 = (simulate (setDelta 0 θ) g).2) ∧
    ∃ fuel, ∀ e : EstimateEnv, (∀ n l, (e.order n l).Perm l) → fuel ≤ e.fuel →
      ∀ logLike, getCriterionFunc env ev r m e = some logLike → ∀ delta, 0 < delta → delta ≤ 1 →
        Option.Rel (fun v v' => |v' - v| ≤ e.data.length * (2 * (bound * delta) / |e.tau|))
          (logLike (setDelta 0 θ)) (logLike (setDelta delta θ)) := by
  obtain ⟨bound, h0, solved⟩ := myopicSolved_static hev hq hs hcore hexo hkeep hnd hother r hfit hallowed hno hrng hev0
  exact ⟨bound, h0, functions_of_myopicSolved hp hr hev hf hid hg hθ hq r bound h0 solved⟩

/-- **C109 (partial)** for models with exogenous processes, if these come last among the observables and there are no
types. -/
theorem C109_tiny_discount_with_processes_partial (hp : processModel env m = some p) (hr : m.Reprocessable p)
    (hev : ev.Contract) (hf : p.FormulasSound ev) (hid : "identifier".toList ∉ Dict.keys p.groups.all)
    (hg : ∀ t beta, Dict.get? p.typeProb t = some beta → ∃ bound, Graded p.groups.all (beta.map Prod.fst) bound)
    (hθ : m.SameIndex θ) (hq : processModel env { m with params := θ } = some q)
    (hs : q.Supported { m with params := θ } ev core) (hcore : createCore (q.buildSpec ev).core = some core)
    (hexo : q.exogenous ≠ []) (static : List (Str × Nat)) (htypes : q.nTypes < 2)
    (hobs : q.observables.map (fun o => (o.1, o.2.length)) = static ++ q.exogenous.map fun o => (o.1, o.2.length))
    (hnames : ∀ e ∈ q.exogenous, ∀ level ∈ e.2, ∀ item ∈ level.2, item.1 ∈ q.columns true)
    (hkeep : env.KeepsShape) (hnd : (Dict.keys θ).Nodup)
    (hother : ∀ x ∈ θ, mentionsShocks x.1 = true → ∃ c ∈ shockCategories, x.1.1 = c.toList)
    (r : SolveRoutines) (hfit : r.senv.Fits (q.buildSpec ev) core)
    (hallowed : ∀ d ∈ (q.buildSpec ev).denseIndices, ∀ s ∈ core,
      ∃ c ∈ q.choices.choices, q.Allowed { m with params := θ } ev d s c)
    (hno : ∀ t, ¬ (q.buildSpec ev).Interpolates core t) (hrng : r.rng.Contract)
    (hev0 : ∀ bt, SameShape (initialValues bt.space) (r.ev0 bt)) :
    ∃ bound : ℝ, 0 ≤ bound ∧
    (∀ (G : Type) (e : SimulateEnv G) simulate, getSimulateFunc env ev r m e = some simulate →
      ∀ delta, 0 < delta → delta ≤ 1 → ∀ g out, (simulate (setDelta 0 θ) g).1 = some out →
        (∀ row ∈ out, ClearChoice (2 * (bound * delta)) row.outcome.values) →
        ∃ out', (simulate (setDelta delta θ) g).1 = some out' ∧
          List.Forall₂ (NearlySameRow (bound * delta)) out out' ∧
          (simulate (setDelta delta θ) g).2 = (simulate (setDelta 0 θ) g).2) ∧
    ∃ fuel, ∀ e : EstimateEnv, (∀ n l, (e.order n l).Perm l) → fuel ≤ e.fuel →
      ∀ logLike, getCriterionFunc env ev r m e = some logLike → ∀ delta, 0 < delta → delta ≤ 1 →
        Option.Rel (fun v v' => |v' - v| ≤ e.data.length * (2 * (bound * delta) / |e.tau|))
          (logLike (setDelta 0 θ)) (logLike (setDelta delta θ)) := by
  obtain ⟨bound, h0, solved⟩ := myopicSolved_exogenous hev hq hs hcore hexo static htypes hobs hnames hkeep hnd hother r
    hfit hallowed hno hrng hev0
  exact ⟨bound, h0, functions_of_myopicSolved hp hr hev hf hid hg hθ hq r bound h0 solved⟩

theorem ClearChoice.exists_margin {values : List ℝ} (h : ClearChoice 0 values) :
    ∃ margin : ℝ, 0 < margin ∧ ClearChoice margin values := by
  obtain ⟨pos, v, hv, hall⟩ := h
  have gen : ∀ l : List (Nat × ℝ), (∀ x ∈ l, x.2 < v) → ∃ margin : ℝ, 0 < margin ∧ ∀ x ∈ l, x.2 + margin < v := by
    intro l
    induction l with
    | nil => intro _; exact ⟨1, one_pos, by simp⟩
    | cons x l ih =>
      intro hl
      obtain ⟨k, hk, hlk⟩ := ih fun y hy => hl y (List.mem_cons_of_mem _ hy)
      have hx := hl x List.mem_cons_self
      refine ⟨min k ((v - x.2) / 2), lt_min hk (by linarith), fun y hy => ?_⟩
      rcases List.mem_cons.1 hy with rfl | hy
      · linarith [min_le_right k ((v - y.2) / 2)]
      · linarith [hlk y hy, min_le_left k ((v - x.2) / 2)]
  obtain ⟨margin, hm, hlt⟩ := gen (((List.range values.length).filter (· ≠ pos)).filterMap fun j =>
      values[j]?.map fun u => (j, u)) (by
    intro x hx
    obtain ⟨j, hj, he⟩ := List.mem_filterMap.1 hx
    obtain ⟨u, hu, rfl⟩ := Option.map_eq_some_iff.1 he
    have := hall j u (by simpa using (List.mem_filter.1 hj).2) hu
    simpa using this)
  refine ⟨margin, hm, pos, v, hv, fun j u hj hu => hlt (j, u) (List.mem_filterMap.2 ⟨j, ?_, by rw [hu]; rfl⟩)⟩
  exact List.mem_filter.2 ⟨List.mem_range.2 (List.getElem?_eq_some_iff.1 hu).1, by simpa using hj⟩

theorem ClearChoice.mono {margin margin' : ℝ} {values : List ℝ} (h : ClearChoice margin values)
    (hle : margin' ≤ margin) : ClearChoice margin' values := by
  obtain ⟨pos, v, hv, hall⟩ := h
  exact ⟨pos, v, hv, fun j u hj hu => by linarith [hall j u hj hu]⟩

theorem exists_common_margin (out : List (SimRow ℝ)) (h : ∀ row ∈ out, ClearChoice 0 row.outcome.values) :
    ∃ margin : ℝ, 0 < margin ∧ ∀ row ∈ out, ClearChoice margin row.outcome.values := by
  induction out with
  | nil => exact ⟨1, one_pos, by simp⟩
  | cons x l ih =>
    obtain ⟨k, hk, hl⟩ := ih fun y hy => h y (List.mem_cons_of_mem _ hy)
    obtain ⟨k', hk', hx⟩ := (h x List.mem_cons_self).exists_margin
    refine ⟨min k k', lt_min hk hk', fun y hy => ?_⟩
    rcases List.mem_cons.1 hy with rfl | hy
    · exact hx.mono (min_le_right _ _)
    · exact (hl y hy).mono (min_le_left _ _)

theorem NearlySameRow.mono {eta eta' : ℝ} (hle : eta ≤ eta') {row row' : SimRow ℝ} (h : NearlySameRow eta row row') :
    NearlySameRow eta' row row' := by
  obtain ⟨values, he, hv⟩ := h
  exact ⟨values, he, hv.imp fun _ _ hx => hx.trans hle⟩

theorem limit_of_rate (r : SolveRoutines)
    (h : ∃ bound : ℝ, 0 ≤ bound ∧
      (∀ (G : Type) (e : SimulateEnv G) simulate, getSimulateFunc env ev r m e = some simulate →
        ∀ delta, 0 < delta → delta ≤ 1 → ∀ g out, (simulate (setDelta 0 θ) g).1 = some out →
          (∀ row ∈ out, ClearChoice (2 * (bound * delta)) row.outcome.values) →
          ∃ out', (simulate (setDelta delta θ) g).1 = some out' ∧
            List.Forall₂ (NearlySameRow (bound * delta)) out out' ∧
            (simulate (setDelta delta θ) g).2 = (simulate (setDelta 0 θ) g).2) ∧
      ∃ fuel, ∀ e : EstimateEnv, (∀ n l, (e.order n l).Perm l) → fuel ≤ e.fuel →
        ∀ logLike, getCriterionFunc env ev r m e = some logLike → ∀ delta, 0 < delta → delta ≤ 1 →
          Option.Rel (fun v v' => |v' - v| ≤ e.data.length * (2 * (bound * delta) / |e.tau|))
            (logLike (setDelta 0 θ)) (logLike (setDelta delta θ))) :
    (∀ (G : Type) (e : SimulateEnv G) simulate, getSimulateFunc env ev r m e = some simulate →
      ∀ g out, (simulate (setDelta 0 θ) g).1 = some out → (∀ row ∈ out, ClearChoice 0 row.outcome.values) →
        ∀ eps : ℝ, 0 < eps → ∃ delta₀ : ℝ, 0 < delta₀ ∧ ∀ delta, 0 < delta → delta < delta₀ →
          ∃ out', (simulate (setDelta delta θ) g).1 = some out' ∧ List.Forall₂ (NearlySameRow eps) out out') ∧
    ∃ fuel, ∀ e : EstimateEnv, (∀ n l, (e.order n l).Perm l) → fuel ≤ e.fuel →
      ∀ logLike, getCriterionFunc env ev r m e = some logLike →
        ∀ eps : ℝ, 0 < eps → ∃ delta₀ : ℝ, 0 < delta₀ ∧ ∀ delta, 0 < delta → delta < delta₀ →
          Option.Rel (fun v v' => |v' - v| < eps) (logLike (setDelta 0 θ)) (logLike (setDelta delta θ)) := by
  obtain ⟨bound, hb, hsim, fuel, hlik⟩ := h
  refine ⟨fun G e simulate hs g out hout hclear eps heps => ?_, fuel, fun e ho hle logLike hlog eps heps => ?_⟩
  · obtain ⟨margin, hm, hall⟩ := exists_common_margin out hclear
    refine ⟨min 1 (min (margin / (2 * (bound + 1))) (eps / (bound + 1))), by positivity, fun delta h0 h1 => ?_⟩
    have h2 : delta < 1 := h1.trans_le (min_le_left _ _)
    have h3 : delta * (2 * (bound + 1)) < margin :=
      (lt_div_iff₀ (by positivity)).1 (h1.trans_le ((min_le_right _ _).trans (min_le_left _ _)))
    have h4 : delta * (bound + 1) < eps :=
      (lt_div_iff₀ (by positivity)).1 (h1.trans_le ((min_le_right _ _).trans (min_le_right _ _)))
    obtain ⟨out', h5, h6, _⟩ := hsim G e simulate hs delta h0 h2.le g out hout
      fun row hrow => (hall row hrow).mono (by nlinarith)
    exact ⟨out', h5, h6.imp fun _ _ hx => hx.mono (by nlinarith)⟩
  · refine ⟨min 1 (eps / (e.data.length * (2 * bound / |e.tau|) + 1)), by positivity, fun delta h0 h1 => ?_⟩
    have h2 : delta < 1 := h1.trans_le (min_le_left _ _)
    have h3 : delta * (e.data.length * (2 * bound / |e.tau|) + 1) < eps :=
      (lt_div_iff₀ (by positivity)).1 (h1.trans_le (min_le_right _ _))
    have h4 := hlik e ho hle logLike hlog delta h0 h2.le
    have key : ∀ v v' : ℝ, |v' - v| ≤ e.data.length * (2 * (bound * delta) / |e.tau|) → |v' - v| < eps := by
      intro v v' hv
      have he : (e.data.length : ℝ) * (2 * (bound * delta) / |e.tau|) =
          delta * (e.data.length * (2 * bound / |e.tau|)) := by ring
      rw [he] at hv
      linarith
    revert h4
    generalize logLike (setDelta 0 θ) = x, logLike (setDelta delta θ) = y
    rintro (hv | _)
    · exact Option.Rel.some (key _ _ hv)
    · exact Option.Rel.none

/-- **C109.** For the same random numbers the sample of individuals with a small enough discount factor has the states,
shocks, wages and choices of the sample of myopic individuals, if no two alternatives have the same best value, and the
criterion function is arbitrarily close to the criterion function for the discount factor zero.

Missing: interpolation. For exogenous processes see `C109_myopic_limit_with_processes_partial`. -/
theorem C109_myopic_limit_partial (hp : processModel env m = some p) (hr : m.Reprocessable p)
    (hev : ev.Contract) (hf : p.FormulasSound ev) (hid : "identifier".toList ∉ Dict.keys p.groups.all)
    (hg : ∀ t beta, Dict.get? p.typeProb t = some beta → ∃ bound, Graded p.groups.all (beta.map Prod.fst) bound)
    (hθ : m.SameIndex θ) (hq : processModel env { m with params := θ } = some q)
    (hs : q.Supported { m with params := θ } ev core) (hcore : createCore (q.buildSpec ev).core = some core)
    (hexo : q.exogenous = []) (hkeep : env.KeepsShape) (hnd : (Dict.keys θ).Nodup)
    (hother : ∀ x ∈ θ, mentionsShocks x.1 = true → ∃ c ∈ shockCategories, x.1.1 = c.toList)
    (r : SolveRoutines) (hfit : r.senv.Fits (q.buildSpec ev) core)
    (hallowed : ∀ d ∈ (q.buildSpec ev).denseIndices, ∀ s ∈ core,
      ∃ c ∈ q.choices.choices, q.Allowed { m with params := θ } ev d s c)
    (hno : ∀ t, ¬ (q.buildSpec ev).Interpolates core t) (hrng : r.rng.Contract)
    (hev0 : ∀ bt, SameShape (initialValues bt.space) (r.ev0 bt)) :
    (∀ (G : Type) (e : SimulateEnv G) simulate, getSimulateFunc env ev r m e = some simulate →
      ∀ g out, (simulate (setDelta 0 θ) g).1 = some out → (∀ row ∈ out, ClearChoice 0 row.outcome.values) →
        ∀ eps : ℝ, 0 < eps → ∃ delta₀ : ℝ, 0 < delta₀ ∧ ∀ delta, 0 < delta → delta < delta₀ →
          ∃ out', (simulate (setDelta delta θ) g).1 = some out' ∧ List.Forall₂ (NearlySameRow eps) out out') ∧
    ∃ fuel, ∀ e : EstimateEnv, (∀ n l, (e.order n l).Perm l) → fuel ≤ e.fuel →
      ∀ logLike, getCriterionFunc env ev r m e = some logLike →
        ∀ eps : ℝ, 0 < eps → ∃ delta₀ : ℝ, 0 < delta₀ ∧ ∀ delta, 0 < delta → delta < delta₀ →
          Option.Rel (fun v v' => |v' - v| < eps) (logLike (setDelta 0 θ)) (logLike (setDelta delta θ)) :=
  limit_of_rate r (C109_tiny_discount_factor_partial hp hr hev hf hid hg hθ hq hs hcore hexo hkeep hnd hother r hfit
    hallowed hno hrng hev0)

/-- **C109 (partial)** for models with exogenous processes, if these come last among the observables and there are no
types. -/
theorem C109_myopic_limit_with_processes_partial (hp : processModel env m = some p) (hr : m.Reprocessable p)
    (hev : ev.Contract) (hf : p.FormulasSound ev) (hid : "identifier".toList ∉ Dict.keys p.groups.all)
    (hg : ∀ t beta, Dict.get? p.typeProb t = some beta → ∃ bound, Graded p.groups.all (beta.map Prod.fst) bound)
    (hθ : m.SameIndex θ) (hq : processModel env { m with params := θ } = some q)
    (hs : q.Supported { m with params := θ } ev core) (hcore : createCore (q.buildSpec ev).core = some core)
    (hexo : q.exogenous ≠ []) (static : List (Str × Nat)) (htypes : q.nTypes < 2)
    (hobs : q.observables.map (fun o => (o.1, o.2.length)) = static ++ q.exogenous.map fun o => (o.1, o.2.length))
    (hnames : ∀ e ∈ q.exogenous, ∀ level ∈ e.2, ∀ item ∈ level.2, item.1 ∈ q.columns true)
    (hkeep : env.KeepsShape) (hnd : (Dict.keys θ).Nodup)
    (hother : ∀ x ∈ θ, mentionsShocks x.1 = true → ∃ c ∈ shockCategories, x.1.1 = c.toList)
    (r : SolveRoutines) (hfit : r.senv.Fits (q.buildSpec ev) core)
    (hallowed : ∀ d ∈ (q.buildSpec ev).denseIndices, ∀ s ∈ core,
      ∃ c ∈ q.choices.choices, q.Allowed { m with params := θ } ev d s c)
    (hno : ∀ t, ¬ (q.buildSpec ev).Interpolates core t) (hrng : r.rng.Contract)
    (hev0 : ∀ bt, SameShape (initialValues bt.space) (r.ev0 bt)) :
    (∀ (G : Type) (e : SimulateEnv G) simulate, getSimulateFunc env ev r m e = some simulate →
      ∀ g out, (simulate (setDelta 0 θ) g).1 = some out → (∀ row ∈ out, ClearChoice 0 row.outcome.values) →
        ∀ eps : ℝ, 0 < eps → ∃ delta₀ : ℝ, 0 < delta₀ ∧ ∀ delta, 0 < delta → delta < delta₀ →
          ∃ out', (simulate (setDelta delta θ) g).1 = some out' ∧ List.Forall₂ (NearlySameRow eps) out out') ∧
    ∃ fuel, ∀ e : EstimateEnv, (∀ n l, (e.order n l).Perm l) → fuel ≤ e.fuel →
      ∀ logLike, getCriterionFunc env ev r m e = some logLike →
        ∀ eps : ℝ, 0 < eps → ∃ delta₀ : ℝ, 0 < delta₀ ∧ ∀ delta, 0 < delta → delta < delta₀ →
          Option.Rel (fun v v' => |v' - v| < eps) (logLike (setDelta 0 θ)) (logLike (setDelta delta θ)) :=
  limit_of_rate r (C109_tiny_discount_with_processes_partial hp hr hev hf hid hg hθ hq hs hcore hexo static htypes hobs
    hnames hkeep hnd hother r hfit hallowed hno hrng hev0)

end Respy
