import Verif.Lemmas.ParamOrderCriterion
import Verif.Props.ParameterFunctionsExample

/-!
# C95 The order of the rows of the parameters does not matter

`process_params_and_options` selects rows of the parameters by their index. The rows may have any order, except that
`_validate_shocks` requires the one of the choices for the rows of the shocks. Models whose parameters have another
order have the same states and covariates, the same solution, the same samples and the same criterion; the
coefficients of a choice or a level are summed up in another order.
-/

namespace Respy

variable {env : ProcessEnv} {ev : FormulaEval} {m : UserModel} {p : Processed} {params' : Dict (Str × Str) ℝ}

theorem shockRows_of_names {params params' : Dict (Str × Str) ℝ} (h : List.Perm params params')
    (hnd : ((shockRows params).map fun p => p.1.2).Nodup)
    (hn : (shockRows params).map (fun p => p.1.2) = (shockRows params').map fun p => p.1.2) :
    shockRows params = shockRows params' := by
  have hp : (shockRows params).Perm (shockRows params') := h.filter _
  have hlen : (shockRows params).length = (shockRows params').length := hp.length_eq
  refine List.ext_getElem hlen fun i h1 h2 => ?_
  have e1 : ((shockRows params).map fun p => p.1.2)[i]'(by simpa using h1) =
      ((shockRows params').map fun p => p.1.2)[i]'(by simpa using h2) := by
    simp only [hn]
  rw [List.getElem_map, List.getElem_map] at e1
  refine List.inj_on_of_nodup_map hnd (List.getElem_mem h1) (hp.mem_iff.2 (List.getElem_mem h2)) e1

/-- **C95.** If a model is accepted, then parameters with the same rows in another order are accepted if and only if
the rows of the shocks have the same order; then the model is the same up to the order of coefficients: the same
choices, levels, states, filters, covariates, restrictions, shocks and discount factors. -/
theorem C95_accepted (hp : processModel env m = some p) (h : List.Perm m.params params')
    (hnd : (Dict.keys m.params).Nodup) (hpos : PositiveProbabilities m.params)
    (hnames : ((shockRows m.params).map fun p => p.1.2).Nodup) :
    ((processModel env { m with params := params' }).isSome ↔ shockRows m.params = shockRows params') ∧
    ∀ p', processModel env { m with params := params' } = some p' → p.SameUpToOrder p' := by
  have hfwd : (processModel env { m with params := params' }).isSome → shockRows m.params = shockRows params' := by
    intro hs
    obtain ⟨p', hp'⟩ := Option.isSome_iff_exists.1 hs
    obtain ⟨covs, hf⟩ := processModel_from env m p hp
    obtain ⟨covs', hf'⟩ := processModel_from env _ p' hp'
    have hcov : covs = covs' := by
      have h1 := hf.relevant
      rw [removeIrrelevant_perm m.covariates (h.map fun p => p.1.2)] at h1
      exact Option.some.inj (h1.symm.trans hf'.relevant)
    have hch : p'.choices = p.choices := by
      rw [hf.choices, hf'.choices, hcov]
      exact (parseChoices_perm (h.map Prod.fst) covs').symm
    have h1 := hf.validated
    have h2 := hf'.validated
    rw [validateShocks_perm (List.Perm.refl _)] at h1
    rw [validateShocks_perm h, hch] at h2
    exact shockRows_of_names h hnames (h1.trans h2.symm)
  have hrel : shockRows m.params = shockRows params' →
      ∃ p', processModel env { m with params := params' } = some p' ∧ p.SameUpToOrder p' := by
    intro hs
    have hr := processModel_perm env m h hnd hpos hs
    rw [hp] at hr
    generalize processModel env { m with params := params' } = y at hr
    cases hr with
    | some hpp => exact ⟨_, rfl, hpp⟩
  refine ⟨⟨hfwd, fun hs => ?_⟩, fun p' hp' => ?_⟩
  · obtain ⟨p', hp', _⟩ := hrel hs
    rw [hp']
    rfl
  · obtain ⟨p1, hp1, hpp⟩ := hrel (hfwd (by rw [hp']; rfl))
    rw [hp'] at hp1
    cases hp1
    exact hpp

/-- Processed options, to be processed again. -/
theorem reprocessed_perm {p p' : Processed} (h : p.SameUpToOrder p') (m : UserModel) (params' θ : Dict (Str × Str) ℝ) :
    ({ m with params := params' } : UserModel).reprocessed p' θ = { m.reprocessed p θ with params := θ } := by
  unfold UserModel.reprocessed
  rw [h.groups, h.negativeChoiceSet, h.filters]

/-- Processing of processed options. -/
theorem reprocess_perm {p p' : Processed} (h : p.SameUpToOrder p') {θ θ' : Dict (Str × Str) ℝ} (hθ : OtherOrder θ θ') :
    Option.Rel Processed.SameUpToOrder (processModel env (m.reprocessed p θ))
      (processModel env (({ m with params := params' } : UserModel).reprocessed p' θ')) := by
  rw [reprocessed_perm h]
  exact processModel_perm env (m.reprocessed p θ) hθ.rows hθ.unique hθ.positive hθ.shocks

/-- **C95.** A solve function which is created with another order of the parameters, and called with another order of
the parameters, returns the same solution, or raises if the other one raises. -/
theorem C95_solve_function (h : OtherOrder m.params params') (r : SolveRoutines) :
    Option.Rel (fun solve solve' => ∀ θ θ', OtherOrder θ θ' → solve θ = solve' θ')
      (getSolveFunc env ev r m) (getSolveFunc env ev r { m with params := params' }) := by
  unfold getSolveFunc
  refine optionRel_bind (processModel_perm env m h.rows h.unique h.positive h.shocks) fun p p' hpp => ?_
  rw [hpp.buildSpec]
  refine optionRel_bind (optionRel_refl _) ?_
  rintro bt _ rfl
  refine .some fun θ θ' hθ => ?_
  have := reprocess_perm (env := env) (m := m) (params' := params') hpp hθ
  generalize processModel env (m.reprocessed p θ) = x at this
  generalize processModel env (({ m with params := params' } : UserModel).reprocessed p' θ') = y at this
  cases this with
  | none => rfl
  | some hqq => exact hpp.solveWith hqq ev r

/-- **C95.** A simulate function which is created with another order of the parameters, and called with another order
of the parameters, returns the same sample, with the same use of random numbers. -/
theorem C95_simulate_function {G : Type} (h : OtherOrder m.params params') (r : SolveRoutines) (e : SimulateEnv G) :
    Option.Rel (fun simulate simulate' => ∀ θ θ', OtherOrder θ θ' → ∀ g, simulate θ g = simulate' θ' g)
      (getSimulateFunc env ev r m e) (getSimulateFunc env ev r { m with params := params' } e) := by
  unfold getSimulateFunc
  refine optionRel_bind (processModel_perm env m h.rows h.unique h.positive h.shocks) fun p p' hpp => ?_
  rw [reprocessed_perm hpp]
  refine optionRel_bind (C95_solve_function (m := m.reprocessed p m.params) h r) fun solve solve' hsolve => ?_
  refine .some fun θ θ' hθ g => ?_
  have := reprocess_perm (env := env) (m := m) (params' := params') hpp hθ
  generalize processModel env (m.reprocessed p θ) = x at this
  generalize processModel env (({ m with params := params' } : UserModel).reprocessed p' θ') = y at this
  cases this with
  | none => rfl
  | some hqq =>
    dsimp only
    rw [hsolve θ θ' hθ, hqq.simulation]

theorem Processed.SameUpToOrder.reprocessable {p p' : Processed} (h : p.SameUpToOrder p') (hr : m.Reprocessable p) :
    ({ m with params := params' } : UserModel).Reprocessable p' := by
  have ht := h.observables.textLevels
  have hconv : p.convert = p'.convert := by
    unfold Processed.convert
    rw [h.choices, ht]
  obtain ⟨a1, a2, a3, a4, a5, a6, a7, a8⟩ := hr
  rw [hconv] at a2 a3 a4 a5
  rw [h.nTypes] at a6
  rw [h.choices, hconv] at a7
  rw [h.choices, h.filters, ht] at a8
  exact ⟨a1, a2, a3, a4, a5, a6, a7, a8⟩

theorem Processed.SameUpToOrder.formulasSound {p p' : Processed} (h : p.SameUpToOrder p') (hf : p.FormulasSound ev) :
    p'.FormulasSound ev := by
  refine ⟨fun c d hcd => hf.accurate c d (h.groups ▸ hcd), fun x hx => ?_, ?_⟩
  · rw [← h.choices, ← h.lags.length_eq, ← h.denseSpec] at hx
    rw [← h.groups]
    exact hf.names x hx
  · rw [← h.denseSpec]
    exact hf.dense

theorem Processed.SameUpToOrder.graded {p p' : Processed} (h : p.SameUpToOrder p')
    (hg : ∀ t beta, Dict.get? p.typeProb t = some beta → ∃ bound, Graded p.groups.all (beta.map Prod.fst) bound) :
    ∀ t beta, Dict.get? p'.typeProb t = some beta → ∃ bound, Graded p'.groups.all (beta.map Prod.fst) bound := by
  intro t beta hb
  have hr := h.typeProb.get t
  rw [hb] at hr
  generalize hx : Dict.get? p.typeProb t = x at hr
  cases hr with
  | some hperm =>
    obtain ⟨bound, hbound⟩ := hg t _ hx
    exact ⟨bound, h.groups ▸ hbound.of_start fun x hx => ((hperm.map Prod.fst).mem_iff).2 hx⟩

/-- **C95 (partial).** A criterion function which is created with another order of the parameters, and called with
another order of the parameters, has the same value. The sets of covariates of type probabilities may be visited in
any order. Missing: options whose formulas mention names inside of labels, other maximum experiences (C85), and searches
for covariates which do not end (C54). -/
theorem C95_criterion_function_partial (hp : processModel env m = some p) (hr : m.Reprocessable p)
    (hev : ev.Contract) (hf : p.FormulasSound ev) (hid : "identifier".toList ∉ Dict.keys p.groups.all)
    (hg : ∀ t beta, Dict.get? p.typeProb t = some beta → ∃ bound, Graded p.groups.all (beta.map Prod.fst) bound)
    (h : OtherOrder m.params params') (r : SolveRoutines) :
    ∃ fuel, ∀ e : EstimateEnv, (∀ n l, (e.order n l).Perm l) → fuel ≤ e.fuel →
      Option.Rel (fun logLike logLike' => ∀ θ θ', m.SameIndex θ →
          ({ m with params := params' } : UserModel).SameIndex θ' → OtherOrder θ θ' → logLike θ = logLike' θ')
        (getCriterionFunc env ev r m e) (getCriterionFunc env ev r { m with params := params' } e) := by
  have hrel := processModel_perm env m h.rows h.unique h.positive h.shocks
  rw [hp] at hrel
  generalize hp' : processModel env { m with params := params' } = y at hrel
  cases hrel with
  | @some _ p' hpp =>
  obtain ⟨covs, hpf⟩ := processModel_from env m p hp
  obtain ⟨n, hn⟩ := graded_types hg (hpf.groupFacts hr.keys).deps_nodup
  obtain ⟨fuel, hfuel⟩ := C87_criterion_function_partial hp hr hev hf hid hg r
  obtain ⟨fuel', hfuel'⟩ := C87_criterion_function_partial hp' (hpp.reprocessable hr) hev (hpp.formulasSound hf)
    (hpp.groups ▸ hid) (hpp.graded hg) r
  refine ⟨max (max fuel fuel') (n + 1), fun e ho hle => ?_⟩
  obtain ⟨h1, h2⟩ := hfuel e ho (by omega)
  obtain ⟨h1', h2'⟩ := hfuel' e ho (by omega)
  rw [← hpp.buildSpec, ← h1] at h1'
  cases hc : getCriterionFunc env ev r m e with
  | none =>
    cases hc' : getCriterionFunc env ev r { m with params := params' } e with
    | none => exact .none
    | some l' => rw [hc, hc'] at h1'; simp at h1'
  | some l =>
    cases hc' : getCriterionFunc env ev r { m with params := params' } e with
    | none => rw [hc, hc'] at h1'; simp at h1'
    | some l' =>
      refine .some fun θ θ' hθ hθ' hp => ?_
      obtain ⟨q, _, hq, _, _, e1⟩ := h2 l hc θ hθ
      obtain ⟨q', _, hq', _, _, e2⟩ := h2' l' hc' θ' hθ'
      have hqq := processModel_perm env { m with params := θ } hp.rows hp.unique hp.positive hp.shocks
      rw [hq, show processModel env { ({ m with params := θ } : UserModel) with params := θ' } = some q' from hq'] at hqq
      cases hqq with
      | some hqq =>
        obtain ⟨q1, _, hq1, _, hst, _⟩ := reprocess_groups ‹processModel env m = some p› hr θ hθ
        rw [hq] at hq1
        cases hq1
        obtain ⟨_, hqf⟩ := processModel_from env _ q hq
        rw [e1, e2, hqq.logLike (hqf.groupFacts hr.keys) (hst.formulasSound hf) (hst.groups ▸ hid) e ho, hqq.solveWith hqq]
        intro t
        obtain ⟨bound, b1, b2⟩ := hn t
        rw [groupShape_names hst.typeProb, hst.groups] at b1
        exact ⟨bound, b1, by omega⟩

/-! ### Examples -/

/-- All rows but those of the shocks in reverse order. -/
def shuffled (params : Dict (Str × Str) ℝ) : Dict (Str × Str) ℝ :=
  (params.filter fun p => !(["shocks_sdcorr", "shocks_cov", "shocks_chol"].any fun c =>
    c.toList <:+: p.1.1 ∨ c.toList <:+: p.1.2)).reverse ++ shockRows params

theorem otherOrder_shuffled (params : Dict (Str × Str) ℝ) (hnd : (Dict.keys params).Nodup)
    (hpos : PositiveProbabilities params) : OtherOrder params (shuffled params) := by
  refine ⟨?_, hnd, hpos, ?_⟩
  · unfold shuffled shockRows
    refine (List.perm_append_comm.trans ?_).symm
    refine (List.Perm.append_left _ (List.reverse_perm _)).trans ?_
    exact List.filter_append_perm _ _
  · unfold shuffled
    have e : ∀ l l' : Dict (Str × Str) ℝ, shockRows (l ++ l') = shockRows l ++ shockRows l' := fun l l' =>
      List.filter_append ..
    rw [e]
    have h1 : shockRows (params.filter fun p => !(["shocks_sdcorr", "shocks_cov", "shocks_chol"].any fun c =>
        c.toList <:+: p.1.1 ∨ c.toList <:+: p.1.2)).reverse = [] := by
      unfold shockRows
      rw [List.filter_eq_nil_iff]
      intro x hx
      rw [List.mem_reverse, List.mem_filter] at hx
      simpa only [Bool.not_eq_true', Bool.not_eq_true] using hx.2
    have h2 : shockRows (shockRows params) = shockRows params := by
      unfold shockRows
      rw [List.filter_filter]
      simp only [Bool.and_self]
    rw [h1, h2]
    rfl

theorem exampleUser_unique : (Dict.keys exampleUser.params).Nodup ∧ (Dict.keys estimateUser.params).Nodup := by
  decide +kernel

theorem estimateUser_positive : PositiveProbabilities estimateUser.params := by
  intro p hp hn
  simp only [estimateUser, exampleUser, List.cons_append, List.nil_append, List.mem_cons, List.not_mem_nil,
    or_false] at hp
  rcases hp with rfl | rfl | rfl | rfl | rfl | rfl | rfl | rfl | rfl | rfl | rfl | rfl | rfl | rfl <;>
    first | exact absurd hn (by decide) | norm_num

theorem exampleUser_positive : PositiveProbabilities exampleUser.params := fun p hp =>
  estimateUser_positive p (List.mem_append_left _ hp)

theorem shuffled_differs : (shuffled exampleUser.params).map Prod.fst ≠ exampleUser.params.map Prod.fst := by
  decide +kernel

/-- The rows of a model with shocks, observables and types in another order. -/
example : ∃ p p', processModel exampleEnv exampleUser = some p ∧
    processModel exampleEnv { exampleUser with params := shuffled exampleUser.params } = some p' ∧
    p.SameUpToOrder p' ∧ shuffled exampleUser.params ≠ exampleUser.params := by
  obtain ⟨p, _, hp, _⟩ := exampleUser_solve
  have h := otherOrder_shuffled _ exampleUser_unique.1 exampleUser_positive
  obtain ⟨h1, h2⟩ := C95_accepted hp h.rows h.unique h.positive (by decide +kernel)
  obtain ⟨p', hp'⟩ := Option.isSome_iff_exists.1 (h1.2 h.shocks)
  exact ⟨p, p', hp, hp', h2 p' hp', fun he => shuffled_differs (congrArg (List.map Prod.fst) he)⟩

/-- **C95 (negation).** The rows of the shocks in another order lead to an exception. -/
theorem C95_shocks_false : ∃ (env : ProcessEnv) (m : UserModel) (params' : Dict (Str × Str) ℝ),
    (processModel env m).isSome ∧ List.Perm m.params params' ∧ (Dict.keys m.params).Nodup ∧
    PositiveProbabilities m.params ∧ processModel env { m with params := params' } = none := by
  obtain ⟨p, _, hp, _⟩ := exampleUser_solve
  have h := (List.reverse_perm exampleUser.params).symm
  refine ⟨exampleEnv, exampleUser, exampleUser.params.reverse, by rw [hp]; rfl, h, exampleUser_unique.1,
    exampleUser_positive, ?_⟩
  rw [← Option.not_isSome_iff_eq_none, (C95_accepted hp h exampleUser_unique.1 exampleUser_positive
    (by decide +kernel)).1]
  intro he
  have h1 := congrArg (List.map Prod.fst) he
  revert h1
  decide +kernel

/-- Solve functions which exist and are called with parameters in another order. -/
example : ∃ solve solve' sp, getSolveFunc exampleEnv textEval exampleRoutines exampleUser = some solve ∧
    getSolveFunc exampleEnv textEval exampleRoutines { exampleUser with params := shuffled exampleUser.params } =
      some solve' ∧ solve exampleUser.params = some sp ∧ solve' (shuffled exampleUser.params) = some sp := by
  obtain ⟨p, core, hp, hr, hcore, hs, hexo, hfit, hall, hpts⟩ := exampleUser_solve
  obtain ⟨_, solve, sp, _, _, h1, h2, _⟩ := C85_solution_at_parameters_partial hp hr exampleRoutines exampleUser.params
    ⟨rfl, fun _ => rfl⟩ textEval_contract hs hcore hexo (fun _ _ h1 h2 => ⟨h1, h2⟩) (by decide +kernel)
    (exampleShocks _ (by decide +kernel)) hfit hall (fun _ _ => hpts _) firstRandom_contract (fun _ => SameShape.refl _)
  have h := otherOrder_shuffled _ exampleUser_unique.1 exampleUser_positive
  have hrel := C95_solve_function (env := exampleEnv) (ev := textEval) (m := exampleUser) h exampleRoutines
  rw [h1] at hrel
  generalize hy : getSolveFunc exampleEnv textEval exampleRoutines
    { exampleUser with params := shuffled exampleUser.params } = y at hrel
  cases hrel with
  | some hss => exact ⟨solve, _, sp, h1, rfl, h2, by rw [← hss _ _ h, h2]⟩

/-- The hypotheses on the criterion function for a model with two types. -/
example : ∃ p, processModel unitEnv estimateUser = some p ∧ estimateUser.Reprocessable p ∧
    p.FormulasSound textEval ∧ "identifier".toList ∉ Dict.keys p.groups.all ∧ 2 ≤ p.nTypes ∧
    (∀ t beta, Dict.get? p.typeProb t = some beta → ∃ bound, Graded p.groups.all (beta.map Prod.fst) bound) ∧
    OtherOrder estimateUser.params (shuffled estimateUser.params) := by
  obtain ⟨q, core, hq, h1, h2, h3, _, _, _, _, h4, h5, h6, _, h7, _, h8, h9, _, h10⟩ := estimateUser_hypotheses
  have hr := estimateUser_reprocessable
  rw [hq] at hr
  exact ⟨q, hq, reprocessable_of_check _ _ hr, h7, h8.identifier, h9, h8.graded,
    otherOrder_shuffled _ exampleUser_unique.2 estimateUser_positive⟩

end Respy
