import Verif.Props.ProcessModelExample
import Verif.Props.ProcessWeights

/-!
# C83: concrete models from which samples are drawn, and a model without `constant`
-/

namespace Respy

/-- The formula can be evaluated if the variables `deps` are known. -/
def textDefined (deps : List Str) (f : Str) : Bool :=
  decide (f = "False".toList) || decide (f = "1".toList) ||
    match readComparison f with
    | some (c, _) => decide (c ∈ deps)
    | none => decide (f ∈ deps)

theorem textEval_defined (deps : List Str) (f : Str) (h : textDefined deps f = true) (row : Str → Option ℝ)
    (hrow : ∀ x ∈ deps, (row x).isSome) : (textEval.value row f).isSome := by
  unfold textEval
  unfold textDefined at h
  dsimp only
  split
  · rfl
  · next h1 =>
    split
    · rfl
    · next h2 =>
      simp only [h1, h2, decide_false, Bool.false_or] at h
      split
      · next c m hr =>
        rw [hr] at h
        have := hrow c (of_decide_eq_true h)
        simpa using this
      · next hr =>
        rw [hr] at h
        exact hrow f (of_decide_eq_true h)

/-- The coefficients of a group are named as in the parameters; for probabilities there is a constant. -/
theorem parseGroup_names {L : Type} [LinearOrder L] {maxFloat : ℝ} {rows : List (GroupParam L)}
    {d : Dict L (List (Str × ℝ))} (h : parseGroup maxFloat rows = .ok (some d)) (l : L × List (Str × ℝ)) (hl : l ∈ d)
    (item : Str × ℝ) (hi : item ∈ l.2) :
    item.1 = "constant".toList ∨ ∃ r ∈ rows, item.1 = r.name ∧ r.name ≠ "probability".toList := by
  unfold parseGroup at h
  by_cases h0 : rows.length = 0
  · rw [if_pos h0] at h; simp at h
  · rw [if_neg h0] at h
    dsimp only at h
    split at h
    · simp only [Except.ok.injEq, Option.some.injEq] at h
      rw [← h] at hl
      obtain ⟨_, _, rfl⟩ := List.mem_map.1 hl
      obtain ⟨r, hr, rfl⟩ := List.mem_map.1 hi
      obtain ⟨i, hi⟩ := List.mem_iff_getElem?.1 (List.mem_filter.1 hr).1
      obtain ⟨_, _, _, _, rfl⟩ := List.getElem?_zipWith_eq_some.1 hi
      exact Or.inl rfl
    · split at h
      · cases h
      · next hn =>
        simp only [Except.ok.injEq, Option.some.injEq] at h
        rw [← h] at hl
        obtain ⟨_, _, rfl⟩ := List.mem_map.1 hl
        obtain ⟨r, hr, rfl⟩ := List.mem_map.1 hi
        refine Or.inr ⟨r, (List.mem_filter.1 hr).1, rfl, fun hp => hn ?_⟩
        exact List.countP_pos_iff.2 ⟨r, (List.mem_filter.1 hr).1, decide_eq_true hp⟩

/-- A test of `Processed.Samplable` for models in which all characteristics are drawn with the covariate
`constant`. -/
noncomputable def samplableCheck (m : UserModel) (p : Processed) : Bool :=
  decide (0 < p.nPeriods) && decide (p.filters = []) &&
  (p.experience.all fun e => (Dict.keys e.1).all fun x => decide (x ≤ e.2)) &&
  decide p.stateColumns.Nodup && (p.lags.all fun d => decide (Dict.keys d = p.choices.choices)) &&
  decide (2 ≤ p.nTypes → Dict.keys p.typeProb = List.range p.nTypes) &&
  (p.groups.all.all fun cd => textDefined cd.2.dependsOn cd.2.formula) &&
  decide ("period".toList ∉ Dict.keys p.groups.all ++ p.stateColumns) &&
  (p.observables.all fun o =>
    (decide (o.1 ∉ Dict.keys p.exogenous) && (levelParams "observable".toList o.1 m.params).all fun r =>
      decide (r.name = "probability".toList)) ||
    o.2.all fun l => l.2.all fun item => decide (item.1 = "constant".toList)) &&
  ((p.sampledVariables.drop p.observables.length).all fun v => v.betas.all fun beta => beta.all fun item =>
    decide (item.1 = "constant".toList)) &&
  decide ("constant".toList ∉ p.stateColumns) &&
  p.groups.all.any fun cd => decide (cd.1 = "constant".toList) && decide (cd.2.dependsOn = [])

theorem samplable_of_check {env : ProcessEnv} (m : UserModel) (p : Processed) (hp : processModel env m = some p)
    (h : samplableCheck m p = true) (input : List CharRow) : p.Samplable textEval input := by
  unfold samplableCheck at h
  simp only [Bool.and_eq_true, decide_eq_true_eq, List.all_eq_true, List.any_eq_true, Bool.or_eq_true] at h
  obtain ⟨⟨⟨⟨⟨⟨⟨⟨⟨⟨⟨h1, hf⟩, h2⟩, h3⟩, h4⟩, h5⟩, h6⟩, h7⟩, hobs⟩, h8⟩, h9⟩, ⟨⟨c, d⟩, hcd, rfl, hd⟩⟩ := h
  refine C83_samplable_of_grounded input h1 h2 (by rw [hf]; intro f hf; cases hf) h3 h4 h5
    (fun cd hcd row hrow => textEval_defined _ _ (h6 cd hcd) row hrow) h7 fun pre v post hsplit beta hb item hi => ?_
  have hv : v ∈ p.sampledVariables := by rw [hsplit]; simp
  have : item.1 = "constant".toList := by
    rw [← List.take_append_drop p.observables.length p.sampledVariables] at hv
    rcases List.mem_append.1 hv with hv | hv
    · have htake : p.sampledVariables.take p.observables.length =
          p.observables.map fun o => ⟨o.1, List.range o.2.length, o.2.map Prod.snd⟩ := by
        unfold Processed.sampledVariables
        rw [List.append_assoc, List.append_assoc]
        exact List.take_left' (by simp)
      rw [htake] at hv
      obtain ⟨o, ho, rfl⟩ := List.mem_map.1 hv
      obtain ⟨l, hl, rfl⟩ := List.mem_map.1 hb
      rcases hobs o ho with ⟨hx, hr⟩ | hall
      · obtain ⟨_, hfrom⟩ := processModel_from env m p hp
        rcases parseGroup_names (hfrom.observable_levels o ho hx) l hl item hi with h | ⟨r, hmem, _, hne⟩
        · exact h
        · exact absurd (hr r hmem) hne
      · exact hall l hl item hi
    · exact h8 v hv beta hb item hi
  rw [this]
  refine ⟨by decide, .covariate _ d hcd h9 ?_⟩
  have hd' : d.dependsOn = [] := hd
  rw [hd']
  intro x hx; cases hx

/-- Two individuals: nothing is known about the first, the first dense column of the second is known. -/
noncomputable def exampleSimulate (width known : Nat) : SimulateEnv Nat where
  rs := halfSource ℝ
  seed := 3
  input := [List.replicate width none, (List.replicate width none).set known (some 1)]
  draws := List.replicate 6 [0, 0]
  drawsWage := List.replicate 6 [0, 0]

/-- The rows are allowed. -/
def rowAllowedCheck (allowed : List (List Nat)) (row : CharRow) : Bool :=
  decide (row.length = allowed.length) && (row.zip allowed).all fun x => x.1.all fun v => decide (v ∈ x.2)

theorem rowAllowed_of_check (allowed : List (List Nat)) (row : CharRow) (h : rowAllowedCheck allowed row = true) :
    RowAllowed allowed row := by
  unfold rowAllowedCheck at h
  simp only [Bool.and_eq_true, decide_eq_true_eq, List.all_eq_true] at h
  refine List.forall₂_iff_zip.2 ⟨h.1, fun {x l} hx v hv => ?_⟩
  have := h.2 (x, l) hx
  rw [hv] at this
  simpa using this

theorem exampleSimulate_fits (p : Processed) (width known : Nat) (hn : p.nPeriods = 3)
    (hc : p.choices.choices.length = 2)
    (hrows : ((exampleSimulate width known).input.all
      (rowAllowedCheck ((p.buildSpec textEval).initialLevels p.denseLevels))) = true) :
    (exampleSimulate width known).Fits p (p.buildSpec textEval) := by
  refine ⟨halfSource_contract, by simp [exampleSimulate], ?_, ?_, ?_, ?_, fun row hr =>
    rowAllowed_of_check _ _ (List.all_eq_true.1 hrows row hr)⟩
  · rw [hn]; simp [exampleSimulate]
  · rw [hn]; simp [exampleSimulate]
  · intro row hr
    rw [hc, (List.mem_replicate.1 hr).2]; rfl
  · intro row hr
    rw [hc, (List.mem_replicate.1 hr).2]; rfl

theorem exampleUser_samplable : (processModel exampleEnv exampleUser).any (fun p =>
    exampleCheck exampleUser p && decide (p.exogenous.length = 0) && samplableCheck exampleUser p &&
    decide (p.sampledVariables.map SampledVariable.name = ["iq".toList, "exp_b".toList, "lagged_choice_1".toList,
      "type".toList]) &&
    (exampleSimulate 4 2).input.all
      (rowAllowedCheck ((p.buildSpec textEval).initialLevels p.denseLevels))) = true := by decide +kernel

/-- The hypotheses of `C83_samples_of_accepted_models_partial` hold for the model of C82 (see the examples there),
in which an observable, an experience, a lagged choice and a type are sampled. -/
theorem exampleUser_hypotheses : ∃ p core, processModel exampleEnv exampleUser = some p ∧
    createCore (p.buildSpec textEval).core = some core ∧ p.Supported exampleUser textEval core ∧
    p.exogenous = [] ∧ exampleSolveEnv.Fits (p.buildSpec textEval) core ∧
    (∀ d ∈ (p.buildSpec textEval).denseIndices, ∀ s ∈ core,
      ∃ c ∈ p.choices.choices, p.Allowed exampleUser textEval d s c) ∧
    (p.buildSpec textEval).PointsSuffice core p.discount.delta ∧
    p.Samplable textEval (exampleSimulate 4 2).input ∧ (exampleSimulate 4 2).Fits p (p.buildSpec textEval) ∧
    p.sampledVariables.map SampledVariable.name = ["iq".toList, "exp_b".toList, "lagged_choice_1".toList,
      "type".toList] := by
  obtain ⟨p, hp, hcheck⟩ := (Option.any_eq_true _ _).1 exampleUser_samplable
  simp only [Bool.and_eq_true, decide_eq_true_eq] at hcheck
  obtain ⟨⟨⟨⟨g1, g2⟩, g3⟩, g4⟩, g5⟩ := hcheck
  obtain ⟨core, h1, h2, h3, h4, h5⟩ := example_hypotheses _ p g1
  have g1' := g1
  unfold exampleCheck at g1'
  simp only [Bool.and_eq_true, decide_eq_true_eq] at g1'
  refine ⟨p, core, hp, h1, h2, List.length_eq_zero_iff.1 g2, h3, h4, h5, samplable_of_check _ p hp g3 _,
    exampleSimulate_fits p 4 2 g1'.1.2 (by rw [g1'.1.1.1.1.1.2]; rfl) g5, g4⟩

theorem exogenousUser_samplable : (processModel exampleEnv exogenousUser).any (fun p =>
    exampleCheck exogenousUser p && samplableCheck exogenousUser p &&
    decide (p.sampledVariables.map SampledVariable.name = ["able".toList, "sick".toList, "exp_b".toList]) &&
    (exampleSimulate 3 2).input.all
      (rowAllowedCheck ((p.buildSpec textEval).initialLevels p.denseLevels))) = true := by decide +kernel

/-- The hypotheses of `C83_samples_of_exogenous_models_partial` hold for the model of C82 with an exogenous process
(see the example there). -/
example : ∃ p, processModel exampleEnv exogenousUser = some p ∧
    p.Samplable textEval (exampleSimulate 3 2).input ∧ (exampleSimulate 3 2).Fits p (p.buildSpec textEval) ∧
    p.sampledVariables.map SampledVariable.name = ["able".toList, "sick".toList, "exp_b".toList] := by
  obtain ⟨p, hp, hcheck⟩ := (Option.any_eq_true _ _).1 exogenousUser_samplable
  simp only [Bool.and_eq_true, decide_eq_true_eq] at hcheck
  obtain ⟨⟨⟨g1, g3⟩, g4⟩, g5⟩ := hcheck
  unfold exampleCheck at g1
  simp only [Bool.and_eq_true, decide_eq_true_eq] at g1
  exact ⟨p, hp, samplable_of_check _ p hp g3 _,
    exampleSimulate_fits p 3 2 g1.1.2 (by rw [g1.1.1.1.1.1.2]; rfl) g5, g4⟩

/-! ### Probabilities -/

/-- The model of C82 with probabilities for the initial experience, which do not sum to one. -/
noncomputable def startsUser : UserModel :=
  { exampleUser with params := exampleUser.params ++ [
    (("initial_exp_b_1".toList, "probability".toList), 3),
    (("initial_exp_b_0".toList, "probability".toList), 1)] }

theorem startsUser_check : (processModel exampleEnv startsUser).any (fun p =>
    decide (p.choices.wExp[0]? = some "b".toList) && (p.observables.any fun o => decide (o.1 = "iq".toList)) &&
    decide (Dict.keys p.exogenous = [])) = true := by decide +kernel

/-- Hypotheses of `C83_initial_experience_probabilities`: both levels have a probability of at least one tenth. -/
example : ∃ p, processModel exampleEnv startsUser = some p ∧ p.choices.wExp[0]? = some "b".toList ∧
    (startsUser.params.filter fun q => decide (("initial_exp_".toList ++ "b".toList ++ ['_']) <:+: q.1.1)) =
      [1, 0].map (fun k => (("initial_exp_".toList ++ "b".toList ++ ['_'] ++ Nat.toDigits 10 k,
        "probability".toList), if k = 0 then (1 : ℝ) else 3)) ∧
    (∀ k ∈ [1, 0], (0 : ℝ) < if k = 0 then 1 else 3) ∧
    ∀ k ∈ [1, 0], 1 / exampleEnv.maxFloat ≤
      (if k = 0 then (1 : ℝ) else 3) / ([1, 0].map fun k => if k = 0 then (1 : ℝ) else 3).sum := by
  obtain ⟨p, hp, hcheck⟩ := (Option.any_eq_true _ _).1 startsUser_check
  simp only [Bool.and_eq_true, decide_eq_true_eq] at hcheck
  refine ⟨p, hp, hcheck.1.1, ?_, ?_, ?_⟩
  · rfl
  · intro k _; split <;> norm_num
  · intro k _
    simp only [exampleEnv]
    split <;> norm_num

/-- Hypotheses of `C83_observable_probabilities`. -/
example : ∃ p o, processModel exampleEnv startsUser = some p ∧ o ∈ p.observables ∧ o.1 = "iq".toList ∧
    o.1 ∉ Dict.keys p.exogenous ∧ (toLevels ["0".toList, "1".toList]).Nodup ∧
    (∀ t ∈ ["0".toList, "1".toList], t ≠ [] ∧ ∀ c ∈ t, isLevelChar c = true) ∧
    (startsUser.params.filter fun q => decide (("observable_".toList ++ "iq".toList ++ ['_']) <:+: q.1.1)) =
      ["0".toList, "1".toList].map (fun t => (("observable_".toList ++ "iq".toList ++ ['_'] ++ t,
        "probability".toList), (1 / 2 : ℝ))) ∧
    1 / exampleEnv.maxFloat ≤ (1 / 2 : ℝ) / (["0".toList, "1".toList].map fun _ => (1 / 2 : ℝ)).sum := by
  obtain ⟨p, hp, hcheck⟩ := (Option.any_eq_true _ _).1 startsUser_check
  simp only [Bool.and_eq_true, decide_eq_true_eq, List.any_eq_true] at hcheck
  obtain ⟨⟨_, o, ho, hiq⟩, hexo⟩ := hcheck
  refine ⟨p, o, hp, ho, hiq, by rw [hexo]; simp, by decide +kernel, by decide +kernel, rfl, ?_⟩
  simp only [exampleEnv]
  norm_num

/-! ### A model without `constant` -/

/-- A model whose options define the covariate `constant`, as recommended, but whose parameters do not use it. -/
noncomputable def noConstantUser : UserModel where
  params := [
    (("delta".toList, "delta".toList), 1 / 2),
    (("wage_b".toList, "exp_b".toList), 2),
    (("nonpec_a".toList, "exp_b".toList), 4),
    (("shocks_sdcorr".toList, "sd_b".toList), 1),
    (("shocks_sdcorr".toList, "sd_a".toList), 1),
    (("shocks_sdcorr".toList, "corr_a_b".toList), 0)]
  nPeriods := 3
  points := 201
  covariates := [("constant".toList, "1".toList)]
  negativeChoiceSet := [("b".toList, ["exp_b == 1".toList])]
  filters := []

theorem noConstantUser_check : (processModel exampleEnv noConstantUser).any (fun p =>
    exampleCheck noConstantUser p && decide (p.exogenous.length = 0) &&
    decide ("constant".toList ∉ p.stateColumns) && decide ("constant".toList ∉ Dict.keys p.groups.all) &&
    p.sampledVariables.any fun v => v.betas.any fun beta =>
      decide (beta.map Prod.fst = ["constant".toList])) = true := by decide +kernel

/-- **C83 does not hold without the hypothesis on covariates.** The model without `constant` in its parameters is
accepted and meets the hypotheses of `C82_accepted_models_are_solved_partial`, although samples cannot be drawn: the
covariate `constant` is removed from the options because no parameter uses it, and the default distribution of the initial
experience uses it. -/
theorem C83_missing_constant_false :
    ("constant".toList, "1".toList) ∈ noConstantUser.covariates ∧
    ∃ p core, processModel exampleEnv noConstantUser = some p ∧
      createCore (p.buildSpec textEval).core = some core ∧ p.Supported noConstantUser textEval core ∧
      p.exogenous = [] ∧ exampleSolveEnv.Fits (p.buildSpec textEval) core ∧
      (∀ d ∈ (p.buildSpec textEval).denseIndices, ∀ s ∈ core,
        ∃ c ∈ p.choices.choices, p.Allowed noConstantUser textEval d s c) ∧
      (p.buildSpec textEval).PointsSuffice core p.discount.delta ∧
      (∀ q ∈ noConstantUser.params, mentionsShocks q.1 = true → ∃ c ∈ shockCategories, q.1.1 = c.toList) ∧
      ∀ {G : Type} (ev : FormulaEval) (senv : SolveEnv) (e : SimulateEnv G) (sp : Option (SimSpace ℝ)) (g : G),
        e.input ≠ [] → ((p.simulation ev senv e sp).run () g).1 = none := by
  refine ⟨by simp [noConstantUser], ?_⟩
  obtain ⟨p, hp, hcheck⟩ := (Option.any_eq_true _ _).1 noConstantUser_check
  simp only [Bool.and_eq_true, decide_eq_true_eq, List.any_eq_true] at hcheck
  obtain ⟨⟨⟨⟨g1, g2⟩, g3⟩, g4⟩, v, hv, beta, hb, hbeta⟩ := hcheck
  obtain ⟨core, h1, h2, h3, h4, h5⟩ := example_hypotheses _ p g1
  refine ⟨p, core, hp, h1, h2, List.length_eq_zero_iff.1 g2, h3, h4, h5, exampleShocks _ (by decide +kernel), ?_⟩
  intro G ev senv e sp g hne
  obtain ⟨pre, post, hsplit⟩ := List.append_of_mem hv
  unfold Simulation.run Processed.simulation
  dsimp only
  cases sp with
  | none => rfl
  | some sp =>
    dsimp only
    rw [hsplit, List.map_append, List.map_cons, sampleAll_none _ _ _ _ ?_ _ _ hne]
    intro fp hfp
    unfold Processed.characteristic
    dsimp only
    rw [levelProbabilities_unknown _ beta hb _ hbeta g3 g4 fp hfp]
    rfl

end Respy
