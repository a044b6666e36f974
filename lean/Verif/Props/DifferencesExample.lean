import Verif.Props.Differences

/-!
# C98: a concrete model
-/

namespace Respy

/-- A model with two types, an observable and a lagged choice. The rewards of both choices have a constant. -/
noncomputable def levelUser : UserModel :=
  { exampleUser with params := [
      (("delta".toList, "delta".toList), 1 / 2),
      (("wage_b".toList, "constant".toList), 1),
      (("wage_b".toList, "exp_b".toList), 2),
      (("wage_b".toList, "type_1".toList), 3),
      (("wage_b".toList, "same".toList), 6),
      (("nonpec_a".toList, "constant".toList), 4),
      (("nonpec_b".toList, "constant".toList), 5),
      (("shocks_sdcorr".toList, "sd_b".toList), 1),
      (("shocks_sdcorr".toList, "sd_a".toList), 1),
      (("shocks_sdcorr".toList, "corr_a_b".toList), 0),
      (("observable_iq_0".toList, "probability".toList), 1 / 2),
      (("observable_iq_1".toList, "probability".toList), 1 / 2),
      (("type_1".toList, "constant".toList), 1),
      (("type_1".toList, "able".toList), 2)] }

/-- A test of the properties of the model. -/
noncomputable def levelCheck (p : Processed) : Bool :=
  exampleCheck levelUser p && decide (p.exogenous.length = 0) &&
  decide (denseGrid p.denseSpec = some [[0, 0], [0, 1], [1, 0], [1, 1]]) && decide (p.choices.wWage.length = 1) &&
  decide ((denseColumns p.denseSpec).length = 2) &&
  (p.groups.all.all fun cd => textDefined cd.2.dependsOn cd.2.formula) &&
  decide (∀ x ∈ coreColumns p.choices.wExp p.lags.length ++ (denseColumns p.denseSpec).map String.toList,
    x ∉ Dict.keys p.groups.all) &&
  decide ((denseColumns p.denseSpec).map String.toList).Nodup &&
  decide ("identifier".toList ∉ Dict.keys p.groups.all) &&
  decide (p.typeProb.map (fun kv => kv.2.map Prod.fst) = [["constant".toList], ["constant".toList, "able".toList]]) &&
  gradedCheck p.groups.all ["constant".toList] [["constant".toList]] &&
  gradedCheck p.groups.all ["constant".toList, "able".toList] [["constant".toList, "able".toList], ["iq".toList]] &&
  reprocessableCheck levelUser p &&
  (createCore (p.buildSpec textEval).core).any fun core => decide (core.length * 4 ≤ p.points)

theorem levelUser_check : (processModel unitEnv levelUser).any levelCheck = true := by decide +kernel

/-- The category of a reward is checked. -/
def rewardCategoryCheck (c : Str) : Bool :=
  (decide ("wage_".toList <+: c) || decide ("nonpec_".toList <+: c)) && (c.all fun x => decide (x ∈ wordCharacters)) &&
    !decide ("lagged_choice_".toList <:+: c)

theorem isRewardCategory_of_check {c : Str} (h : rewardCategoryCheck c = true) : IsRewardCategory c := by
  unfold rewardCategoryCheck at h
  rw [Bool.and_eq_true, Bool.and_eq_true, Bool.or_eq_true, Bool.not_eq_true', decide_eq_true_eq, decide_eq_true_eq,
    decide_eq_false_iff_not, List.all_eq_true] at h
  exact ⟨h.1.1, fun x hx => of_decide_eq_true (h.1.2 x hx), h.2⟩

theorem level_draws {t n : Nat} {z : List ℝ} (hz : z ∈ (((exampleSolveEnv.base n 0)[t]?).getD [])) : ∀ x ∈ z, x = 0 := by
  unfold exampleSolveEnv at hz
  dsimp only at hz
  by_cases ht : t < 3
  · rw [List.getElem?_replicate, if_pos ht, Option.getD_some] at hz
    simp only [List.mem_cons, List.not_mem_nil, or_false, or_self] at hz
    rw [hz]
    exact fun x hx => (List.mem_replicate.1 hx).2
  · rw [List.getElem?_replicate, if_neg ht] at hz
    cases hz

/-- All hypotheses of `C98_level_of_parameters_partial` hold for the model and the constant. -/
example (k : ℝ) (hk : 0 ≤ k) :
    (∀ (G : Type) (e : SimulateEnv G) simulate, getSimulateFunc unitEnv textEval exampleRoutines levelUser e =
      some simulate → ∀ g,
      Option.Rel (List.Forall₂ SameBehaviour) (simulate levelUser.params g).1
          (simulate (raiseLevel "constant".toList k levelUser.params) g).1 ∧
        (simulate (raiseLevel "constant".toList k levelUser.params) g).2 = (simulate levelUser.params g).2) ∧
    ∃ fuel, ∀ e : EstimateEnv, (∀ n l, (e.order n l).Perm l) → fuel ≤ e.fuel →
      ∀ logLike, getCriterionFunc unitEnv textEval exampleRoutines levelUser e = some logLike →
        logLike (raiseLevel "constant".toList k levelUser.params) = logLike levelUser.params := by
  obtain ⟨p, hp, hcheck⟩ := (Option.any_eq_true _ _).1 levelUser_check
  unfold levelCheck at hcheck
  simp only [Bool.and_eq_true] at hcheck
  obtain ⟨⟨⟨⟨⟨⟨⟨⟨⟨⟨⟨⟨⟨h1, h2⟩, h3⟩, h4⟩, h5⟩, h6⟩, h7⟩, h8⟩, h9⟩, h10⟩, h11⟩, h12⟩, h13⟩, h14⟩ := hcheck
  obtain ⟨core, a1, a2, a3, a4, -⟩ := example_hypotheses _ p h1
  have hnd : (Dict.keys levelUser.params).Nodup := by decide +kernel
  have hc : (Dict.keys levelUser.covariates).Nodup := by decide +kernel
  have hgrid := of_decide_eq_true h3
  have h6 := List.all_eq_true.1 h6
  have hf : p.FormulasSound textEval :=
    ⟨fun c d hcd => textEval_accurate d (h6 _ hcd), of_decide_eq_true h7, of_decide_eq_true h8⟩
  unfold exampleCheck at h1
  simp only [Bool.and_eq_true, decide_eq_true_eq] at h1
  obtain ⟨⟨⟨⟨⟨⟨_, b2⟩, b3⟩, b4⟩, b5⟩, b6⟩, _⟩ := h1
  have hlen : ∀ grid, denseGrid p.denseSpec = some grid → ∀ point ∈ grid,
      (denseColumns p.denseSpec).length ≤ point.length := by
    intro grid hg point hpt
    rw [hgrid] at hg
    cases hg
    rw [of_decide_eq_true h5]
    simp only [List.mem_cons, List.not_mem_nil, or_false] at hpt
    rcases hpt with rfl | rfl | rfl | rfl <;> decide
  have hgraded : ∀ t beta, Dict.get? p.typeProb t = some beta →
      ∃ bound, Graded p.groups.all (beta.map Prod.fst) bound := by
    intro t beta hb
    have := List.mem_map_of_mem (f := fun kv : Nat × List (Str × ℝ) => kv.2.map Prod.fst) (Dict.mem_of_get? _ _ _ hb)
    rw [of_decide_eq_true h10] at this
    rcases List.mem_cons.1 this with h | h
    · rw [h]
      exact ⟨_, graded_of_check _ _ _ h11⟩
    · rw [List.mem_singleton.1 h]
      exact ⟨_, graded_of_check _ _ _ h12⟩
  have hexo : p.exogenous = [] := List.length_eq_zero_iff.1 (of_decide_eq_true h2)
  have hother := exampleShocks levelUser (by decide +kernel)
  have hdelta : p.discount.delta = 1 / 2 := by
    obtain ⟨⟨delta, e1, e2, -⟩, -⟩ := C84_parameters_by_name (ev := textEval) hp hnd hother exampleSolveEnv
    have h : Dict.get? levelUser.params ("delta".toList, "delta".toList) = some (1 / 2) := by
      unfold levelUser
      dsimp only
      rw [Dict.get?, if_pos rfl]
    rw [h] at e1
    cases e1
    exact e2
  have hone : ∀ d ∈ (p.buildSpec textEval).denseIndices, ∀ s ∈ core,
      p.covariates textEval d s "constant".toList = some 1 := by
    intro d hd s hs
    have hm : ("constant".toList, "1".toList) ∈ levelUser.covariates := by
      show _ ∈ exampleUser.covariates
      unfold exampleUser
      exact List.mem_cons_self
    have hneed : Needed levelUser.covariates (levelUser.params.map fun q => q.1.2) "constant".toList :=
      .parameter _ (List.mem_map.2 ⟨_, hm, rfl⟩) (List.mem_map.2 ⟨(("wage_b".toList, "constant".toList), 1), by
        unfold levelUser
        exact List.mem_cons_of_mem _ List.mem_cons_self, rfl⟩)
    obtain ⟨v, hv1, hv2⟩ := (C84_covariates_by_formula hp hc hf a2 a1 hlen d hd s hs).2.1 _ _ hm hneed (by
      intro i _ _ he
      have h' : some 'c' = some 't' := congrArg List.head? he
      exact absurd h' (by decide))
    have hrep : replaceLabels p.choices.choices (textLevels p.observables) "1".toList = "1".toList :=
      replaceLabels_absent _ _ _ (by decide) (by decide)
    rw [hrep] at hv2
    have hv3 : some (1 : ℝ) = some v := hv2
    cases hv3
    exact hv1
  have hcore : core.length * 4 ≤ p.points := by
    rw [a1] at h14
    exact of_decide_eq_true h14
  have hzero : ∀ t cs, ∀ z ∈ (p.solveInput textEval exampleSolveEnv).baseOf t cs, ∀ x ∈ z, x = 0 :=
    fun t cs z hz => level_draws hz
  have hno : ∀ t, ¬ (p.buildSpec textEval).Interpolates core t := by
    intro t ht
    have hlen : ((p.buildSpec textEval).statesOfPeriod core t).length ≤ core.length * 4 := by
      have hden : (p.buildSpec textEval).denseIndices = [some 0, some 1, some 2, some 3] := by
        have : (p.buildSpec textEval).grid = some [[0, 0], [0, 1], [1, 0], [1, 1]] := hgrid
        unfold BuildSpec.denseIndices
        rw [this]; rfl
      have hfil := List.length_filter_le (fun s : CoreState => decide (s.period = t)) core
      unfold BuildSpec.statesOfPeriod
      rw [hden]
      simp only [List.flatMap_cons, List.flatMap_nil, List.length_append, List.length_map, List.length_nil]
      omega
    have := ht.1
    have hpts : (p.buildSpec textEval).points = p.points := rfl
    omega
  refine C98_level_of_parameters_partial hp (reprocessable_of_check _ _ h13) textEval_contract hf (of_decide_eq_true h9)
    hgraded ⟨rfl, fun _ => rfl⟩ hp a2 a1 hexo unitEnv_contracts.1 hnd hother exampleRoutines a3 a4 ?_
    firstRandom_contract (fun bt => ?_) ?_ ?_ (fun _ => 1) hone (fun _ => by rw [mul_one]; exact hk)
    (by rw [hdelta]; norm_num) ?_ ?_
  · exact fun _ t _ ht => absurd ht (hno t)
  · exact SameShape.refl _
  · have hall : ((levelUser.params.map Prod.fst).all fun key =>
        !decide ("nonpec_".toList <+: key.1) || rewardCategoryCheck key.1) = true := by decide +kernel
    intro y hy hpre
    have := List.all_eq_true.1 hall y.1 (List.mem_map.2 ⟨y, hy, rfl⟩)
    rw [Bool.or_eq_true, Bool.not_eq_true', decide_eq_false_iff_not] at this
    exact isRewardCategory_of_check (this.resolve_left (not_not_intro hpre))
  · rw [b2]
    exact of_decide_eq_true (by decide +kernel)
  · intro d hd s hs
    have hper : s.period < 3 := by
      have := createCore_period _ _ a1 s hs
      have h3 : (p.buildSpec textEval).core.nPeriods = 3 := b6
      omega
    show (p.solveInput textEval exampleSolveEnv).shocks _ _ ≠ []
    unfold SolveInput.shocks SolveInput.baseOf Processed.solveInput exampleSolveEnv
    dsimp only
    rw [List.getElem?_replicate, if_pos hper]
    simp
  · intro V hV
    refine viable_of_flows (C82_processed_models_well_formed hp textEval_contract a2 a1) (by rw [hdelta]; norm_num)
      (isTransition_static _ _) hV (fun d _ s _ ht => absurd ht (hno _)) fun d hd s hs e he => ?_
    refine ⟨1, (C82_choice_sets_by_name hp textEval_contract a2.toDescribed a1 d hd s hs 1 "a".toList
      (by rw [b2]; rfl)).2 (allowed_of_unrestricted _ p _ d s _ b4 (by rw [b3]; decide)), ?_⟩
    have hn : (p.solveInput textEval exampleRoutines.senv).nonpecOf d s 1 = 4 := by
      rw [C82_nonpecs_by_name hp exampleRoutines.senv d s 1 "a".toList (by rw [b2]; rfl)]
      have hfil : (levelUser.params.filter fun q => q.1.1 = "nonpec_".toList ++ "a".toList) =
          [(("nonpec_a".toList, "constant".toList), (4 : ℝ))] := by
        rfl
      rw [hfil]
      simp only [List.map_cons, List.map_nil, List.sum_cons, List.sum_nil]
      rw [hone d hd s hs]
      norm_num
    have he0 : e 1 = 0 := by
      obtain ⟨z, hz, rfl⟩ := List.mem_map.1 he
      unfold shockOf
      have hw : ¬ 1 < (p.solveInput textEval exampleRoutines.senv).nWages := by
        show ¬ 1 < p.choices.wWage.length
        rw [of_decide_eq_true h4]
        decide
      rw [if_neg hw]
      have hz0 : ∀ a, shocksOf ((p.buildSpec textEval).choiceSetAt d s) z a = 0 := by
        intro a
        unfold shocksOf
        rw [List.getD_eq_getElem?_getD]
        rcases hx : z[positionIn ((p.buildSpec textEval).choiceSetAt d s) a]? with _ | x
        · rfl
        · exact hzero _ _ z hz x (List.mem_of_getElem? hx)
      unfold latentShock
      simp only [hz0, mul_zero]
      simp
    unfold flowUtility
    rw [hn, he0]
    norm_num

/-- A model with an observable and an exogenous process. The rewards of both choices have a constant. -/
noncomputable def levelExogenousUser : UserModel :=
  { exogenousUser with params := [
      (("delta".toList, "delta".toList), 1 / 2),
      (("wage_b".toList, "constant".toList), 1),
      (("wage_b".toList, "able".toList), 2),
      (("wage_b".toList, "sick".toList), -3),
      (("nonpec_a".toList, "constant".toList), 4),
      (("nonpec_b".toList, "constant".toList), 5),
      (("wage_b".toList, "exp_b".toList), 2),
      (("shocks_sdcorr".toList, "sd_b".toList), 1),
      (("shocks_sdcorr".toList, "sd_a".toList), 1),
      (("shocks_sdcorr".toList, "corr_a_b".toList), 0),
      (("observable_able_0".toList, "probability".toList), 1 / 2),
      (("observable_able_1".toList, "probability".toList), 1 / 2),
      (("exogenous_process_sick_0".toList, "constant".toList), 1),
      (("exogenous_process_sick_1".toList, "able".toList), 3)] }

/-- A test of the properties of the model. -/
noncomputable def levelExogenousCheck (p : Processed) : Bool :=
  exampleCheck levelExogenousUser p && decide (p.exogenous.length = 1) &&
  decide (denseGrid p.denseSpec = some [[0, 0], [0, 1], [1, 0], [1, 1]]) && decide (p.choices.wWage.length = 1) &&
  decide ((denseColumns p.denseSpec).length = 2) &&
  (p.groups.all.all fun cd => textDefined cd.2.dependsOn cd.2.formula) &&
  decide (∀ x ∈ coreColumns p.choices.wExp p.lags.length ++ (denseColumns p.denseSpec).map String.toList,
    x ∉ Dict.keys p.groups.all) &&
  decide ((denseColumns p.denseSpec).map String.toList).Nodup &&
  decide ("identifier".toList ∉ Dict.keys p.groups.all) &&
  decide (p.typeProb.map (fun kv => kv.2.map Prod.fst) = []) &&
  decide (p.nTypes < 2) && decide (p.observables.map (fun o => (o.1, o.2.length)) =
      [("able".toList, 2)] ++ p.exogenous.map fun o => (o.1, o.2.length)) &&
  (p.exogenous.all fun e => e.2.all fun level => level.2.all fun item => decide (item.1 ∈ p.columns true)) &&
  reprocessableCheck levelExogenousUser p &&
  (createCore (p.buildSpec textEval).core).any fun core => decide (core.length * 4 ≤ p.points)

theorem levelExogenousUser_check : (processModel unitEnv levelExogenousUser).any levelExogenousCheck = true := by
  decide +kernel

/-- All hypotheses of `C98_level_with_processes_partial` hold for the model with an exogenous process and the
constant. -/
example (k : ℝ) (hk : 0 ≤ k) :
    (∀ (G : Type) (e : SimulateEnv G) simulate, getSimulateFunc unitEnv textEval exampleRoutines levelExogenousUser e =
      some simulate → ∀ g,
      Option.Rel (List.Forall₂ SameBehaviour) (simulate levelExogenousUser.params g).1
          (simulate (raiseLevel "constant".toList k levelExogenousUser.params) g).1 ∧
        (simulate (raiseLevel "constant".toList k levelExogenousUser.params) g).2 = (simulate levelExogenousUser.params g).2) ∧
    ∃ fuel, ∀ e : EstimateEnv, (∀ n l, (e.order n l).Perm l) → fuel ≤ e.fuel →
      ∀ logLike, getCriterionFunc unitEnv textEval exampleRoutines levelExogenousUser e = some logLike →
        logLike (raiseLevel "constant".toList k levelExogenousUser.params) = logLike levelExogenousUser.params := by
  obtain ⟨p, hp, hcheck⟩ := (Option.any_eq_true _ _).1 levelExogenousUser_check
  unfold levelExogenousCheck at hcheck
  simp only [Bool.and_eq_true] at hcheck
  obtain ⟨⟨⟨⟨⟨⟨⟨⟨⟨⟨⟨⟨⟨⟨h1, h2⟩, h3⟩, h4⟩, h5⟩, h6⟩, h7⟩, h8⟩, h9⟩, h10⟩, h11⟩, h12⟩, h15⟩, h13⟩, h14⟩ := hcheck
  obtain ⟨core, a1, a2, a3, a4, -⟩ := example_hypotheses _ p h1
  have hnd : (Dict.keys levelExogenousUser.params).Nodup := by decide +kernel
  have hc : (Dict.keys levelExogenousUser.covariates).Nodup := by decide +kernel
  have hgrid := of_decide_eq_true h3
  have h6 := List.all_eq_true.1 h6
  have hf : p.FormulasSound textEval :=
    ⟨fun c d hcd => textEval_accurate d (h6 _ hcd), of_decide_eq_true h7, of_decide_eq_true h8⟩
  unfold exampleCheck at h1
  simp only [Bool.and_eq_true, decide_eq_true_eq] at h1
  obtain ⟨⟨⟨⟨⟨⟨_, b2⟩, b3⟩, b4⟩, b5⟩, b6⟩, _⟩ := h1
  have hlen : ∀ grid, denseGrid p.denseSpec = some grid → ∀ point ∈ grid,
      (denseColumns p.denseSpec).length ≤ point.length := by
    intro grid hg point hpt
    rw [hgrid] at hg
    cases hg
    rw [of_decide_eq_true h5]
    simp only [List.mem_cons, List.not_mem_nil, or_false] at hpt
    rcases hpt with rfl | rfl | rfl | rfl <;> decide
  have hgraded : ∀ t beta, Dict.get? p.typeProb t = some beta →
      ∃ bound, Graded p.groups.all (beta.map Prod.fst) bound := by
    intro t beta hb
    have := List.mem_map_of_mem (f := fun kv : Nat × List (Str × ℝ) => kv.2.map Prod.fst) (Dict.mem_of_get? _ _ _ hb)
    rw [of_decide_eq_true h10] at this
    cases this
  have hexo : p.exogenous ≠ [] := List.ne_nil_of_length_eq_add_one (of_decide_eq_true h2)
  have hother := exampleShocks levelExogenousUser (by decide +kernel)
  have hdelta : p.discount.delta = 1 / 2 := by
    obtain ⟨⟨delta, e1, e2, -⟩, -⟩ := C84_parameters_by_name (ev := textEval) hp hnd hother exampleSolveEnv
    have h : Dict.get? levelExogenousUser.params ("delta".toList, "delta".toList) = some (1 / 2) := by
      unfold levelExogenousUser
      dsimp only
      rw [Dict.get?, if_pos rfl]
    rw [h] at e1
    cases e1
    exact e2
  have hone : ∀ d ∈ (p.buildSpec textEval).denseIndices, ∀ s ∈ core,
      p.covariates textEval d s "constant".toList = some 1 := by
    intro d hd s hs
    have hm : ("constant".toList, "1".toList) ∈ levelExogenousUser.covariates := by
      show _ ∈ exogenousUser.covariates
      unfold exogenousUser
      exact List.mem_cons_self
    have hneed : Needed levelExogenousUser.covariates (levelExogenousUser.params.map fun q => q.1.2) "constant".toList :=
      .parameter _ (List.mem_map.2 ⟨_, hm, rfl⟩) (List.mem_map.2 ⟨(("wage_b".toList, "constant".toList), 1), by
        unfold levelExogenousUser
        exact List.mem_cons_of_mem _ List.mem_cons_self, rfl⟩)
    obtain ⟨v, hv1, hv2⟩ := (C84_covariates_by_formula hp hc hf a2 a1 hlen d hd s hs).2.1 _ _ hm hneed (by
      intro i _ _ he
      have h' : some 'c' = some 't' := congrArg List.head? he
      exact absurd h' (by decide))
    have hrep : replaceLabels p.choices.choices (textLevels p.observables) "1".toList = "1".toList :=
      replaceLabels_absent _ _ _ (by decide) (by decide)
    rw [hrep] at hv2
    have hv3 : some (1 : ℝ) = some v := hv2
    cases hv3
    exact hv1
  have hcore : core.length * 4 ≤ p.points := by
    rw [a1] at h14
    exact of_decide_eq_true h14
  have hzero : ∀ t cs, ∀ z ∈ (p.solveInput textEval exampleSolveEnv).baseOf t cs, ∀ x ∈ z, x = 0 :=
    fun t cs z hz => level_draws hz
  have hno : ∀ t, ¬ (p.buildSpec textEval).Interpolates core t := by
    intro t ht
    have hlen : ((p.buildSpec textEval).statesOfPeriod core t).length ≤ core.length * 4 := by
      have hden : (p.buildSpec textEval).denseIndices = [some 0, some 1, some 2, some 3] := by
        have : (p.buildSpec textEval).grid = some [[0, 0], [0, 1], [1, 0], [1, 1]] := hgrid
        unfold BuildSpec.denseIndices
        rw [this]; rfl
      have hfil := List.length_filter_le (fun s : CoreState => decide (s.period = t)) core
      unfold BuildSpec.statesOfPeriod
      rw [hden]
      simp only [List.flatMap_cons, List.flatMap_nil, List.length_append, List.length_map, List.length_nil]
      omega
    have := ht.1
    have hpts : (p.buildSpec textEval).points = p.points := rfl
    omega
  refine C98_level_with_processes_partial hp (reprocessable_of_check _ _ h13) textEval_contract hf (of_decide_eq_true h9)
    hgraded ⟨rfl, fun _ => rfl⟩ hp a2 a1 hexo [("able".toList, 2)] (of_decide_eq_true h11)
    (of_decide_eq_true h12) (fun e he level hl item hi => of_decide_eq_true
      (List.all_eq_true.1 (List.all_eq_true.1 (List.all_eq_true.1 h15 e he) level hl) item hi)) unitEnv_contracts.1 hnd hother exampleRoutines a3 a4 ?_
    firstRandom_contract (fun bt => ?_) ?_ ?_ (fun _ => 1) hone (fun _ => by rw [mul_one]; exact hk)
    (by rw [hdelta]; norm_num) ?_ (fun d _ s _ ht => absurd ht (hno _)) ?_
  · exact fun _ t _ ht => absurd ht (hno t)
  · exact SameShape.refl _
  · have hall : ((levelExogenousUser.params.map Prod.fst).all fun key =>
        !decide ("nonpec_".toList <+: key.1) || rewardCategoryCheck key.1) = true := by decide +kernel
    intro y hy hpre
    have := List.all_eq_true.1 hall y.1 (List.mem_map.2 ⟨y, hy, rfl⟩)
    rw [Bool.or_eq_true, Bool.not_eq_true', decide_eq_false_iff_not] at this
    exact isRewardCategory_of_check (this.resolve_left (not_not_intro hpre))
  · rw [b2]
    exact of_decide_eq_true (by decide +kernel)
  · intro d hd s hs
    have hper : s.period < 3 := by
      have := createCore_period _ _ a1 s hs
      have h3 : (p.buildSpec textEval).core.nPeriods = 3 := b6
      omega
    show (p.solveInput textEval exampleSolveEnv).shocks _ _ ≠ []
    unfold SolveInput.shocks SolveInput.baseOf Processed.solveInput exampleSolveEnv
    dsimp only
    rw [List.getElem?_replicate, if_pos hper]
    simp
  · intro d hd s hs e he
    refine ⟨1, (C82_choice_sets_by_name hp textEval_contract a2.toDescribed a1 d hd s hs 1 "a".toList
      (by rw [b2]; rfl)).2 (allowed_of_unrestricted _ p _ d s _ b4 (by rw [b3]; decide)), ?_⟩
    have hn : (p.solveInput textEval exampleRoutines.senv).nonpecOf d s 1 = 4 := by
      rw [C82_nonpecs_by_name hp exampleRoutines.senv d s 1 "a".toList (by rw [b2]; rfl)]
      have hfil : (levelExogenousUser.params.filter fun q => q.1.1 = "nonpec_".toList ++ "a".toList) =
          [(("nonpec_a".toList, "constant".toList), (4 : ℝ))] := by
        rfl
      rw [hfil]
      simp only [List.map_cons, List.map_nil, List.sum_cons, List.sum_nil]
      rw [hone d hd s hs]
      norm_num
    have he0 : e 1 = 0 := by
      obtain ⟨z, hz, rfl⟩ := List.mem_map.1 he
      unfold shockOf
      have hw : ¬ 1 < (p.solveInput textEval exampleRoutines.senv).nWages := by
        show ¬ 1 < p.choices.wWage.length
        rw [of_decide_eq_true h4]
        decide
      rw [if_neg hw]
      have hz0 : ∀ a, shocksOf ((p.buildSpec textEval).choiceSetAt d s) z a = 0 := by
        intro a
        unfold shocksOf
        rw [List.getD_eq_getElem?_getD]
        rcases hx : z[positionIn ((p.buildSpec textEval).choiceSetAt d s) a]? with _ | x
        · rfl
        · exact hzero _ _ z hz x (List.mem_of_getElem? hx)
      unfold latentShock
      simp only [hz0, mul_zero]
      simp
    unfold flowUtility
    rw [hn, he0]
    norm_num

/-- The rewards of the example with a level which is higher by two. -/
noncomputable def higherRewards : LinearRewards ℝ where
  wage := (exampleInputOf Real.exp).rewards.wage
  nonpec := fun a => some [("constant".toList, if a = 2 then 5 else 2)]

theorem example_constant (d : Option Nat) (s : CoreState) (v : ℝ) :
    linearIndex ((exampleInputOf Real.exp).covariates d s) [("constant".toList, v)] = v := by
  have h : (exampleInputOf Real.exp).covariates d s "constant".toList = some 1 := by
    unfold exampleInputOf
    dsimp only
    rw [if_neg (by decide), if_neg (by decide)]
  unfold linearIndex
  rw [List.map_cons, List.map_nil, List.sum_cons, List.sum_nil, h, Option.getD_some, mul_one, add_zero]

theorem example_nonpec (d : Option Nat) (s : CoreState) (a : Nat) :
    (exampleInputOf Real.exp).nonpecOf d s a = if a = 2 then 3 else 0 := by
  have h : (exampleInputOf Real.exp).rewards.nonpec a = if a = 2 then some [("constant".toList, 3)] else none := rfl
  unfold SolveInput.nonpecOf
  rw [h]
  by_cases ha : a = 2
  · rw [if_pos ha, if_pos ha]
    exact example_constant d s 3
  · rw [if_neg ha, if_neg ha]

/-- The hypotheses of `C98_level_of_rewards_with_processes` hold for a model with two types, an exogenous process and
two interpolated periods. -/
example (rng : InterpolationRandom) (hrng : rng.Contract) (sqrt : ℝ → ℝ) (ols : List ℝ → List (List ℝ) → List ℝ) :
    ∃ bt sp sp', buildSpace exogenousPointsBuild = some bt ∧
      (exampleInputOf Real.exp).solveModel exogenousPointsBuild ((exampleInputOf Real.exp).transitions exampleLevels
        exogenousPointsBuild) (kw94 bt.space rng sqrt ols (expShocks Real.exp 100 2 (exampleInputOf Real.exp).cholesky)) 7
        (fun bt => initialValues bt.space) id id = some sp ∧
      ({ exampleInputOf Real.exp with rewards := higherRewards } : SolveInput ℝ).solveModel exogenousPointsBuild
        ((exampleInputOf Real.exp).transitions exampleLevels exogenousPointsBuild) (kw94 bt.space rng sqrt ols
        (expShocks Real.exp 100 2 (exampleInputOf Real.exp).cholesky)) 7 (fun bt => initialValues bt.space) id id =
          some sp' ∧ SimSpace.SameDifferences 3 (95 / 100) sp sp' := by
  obtain ⟨core, wf0, hl⟩ := exogenousBuild_wf
  have wf : exogenousPointsBuild.WF core := 
    ⟨wf0.spec, wf0.created, wf0.periods, wf0.covered, wf0.several, wf0.compatible, wf0.distinct, wf0.closed⟩
  have hsz := exogenousPointsBuild_sizes core wf0
  simp only [List.range_succ, List.range_zero, List.nil_append, List.cons_append, List.map_cons,
    List.map_nil, List.cons.injEq, Prod.mk.injEq, and_true] at hsz
  obtain ⟨⟨a1, a2⟩, ⟨b1, b2⟩, c1, c2⟩ := hsz
  have hp : exogenousPointsBuild.points = 30 := rfl
  have hcs : ∀ d s, exogenousPointsBuild.choiceSetAt d s = choiceSet exampleRestr s := by
    intro d s; cases d <;> rfl
  have h2 : ∀ d s, (exogenousPointsBuild.choiceSetAt d s)[2]? = some true := by
    intro d s
    rw [hcs]
    rfl
  have hinp := exampleInputOf_wf Real.exp exogenousPointsBuild core rfl hcs
  obtain ⟨bt, sp, sp', e1, e2, e3, e4, -⟩ := C98_level_of_rewards_with_processes exogenousPointsBuild core wf [[0, 1]]
    ⟨by simp [exogenousPointsBuild, exogenousBuild], rfl, by simp, fun _ => rfl⟩ (exampleInputOf Real.exp) higherRewards exampleLevels rfl
    (by simp [exampleLevels]) (fun _ _ _ _ _ _ _ _ _ _ => rfl) hinp
    ⟨fun _ _ _ _ _ _ _ _ _ => rfl, fun _ _ _ _ _ _ _ _ _ => rfl, hinp.sizes, hinp.base, hinp.cholesky, hinp.choices⟩
    rfl (fun _ => 2) (fun _ => by norm_num) (by
      intro d _ s _ a _
      rw [example_nonpec]
      refine (example_constant d s (if a = 2 then 5 else 2)).trans ?_
      split <;> norm_num)
    (by unfold exampleInputOf; norm_num) (by
      intro d _ s hs
      have hper : s.period < 3 := createCore_period _ _ wf.created s hs
      unfold SolveInput.shocks SolveInput.baseOf exampleInputOf
      dsimp only
      rw [List.getElem?_replicate, if_pos hper]
      simp) rng hrng sqrt ols 100 (fun d _ s _ _ => ⟨2, h2 d s, by
        unfold flowUtility expectedShock
        rw [if_neg (by decide : ¬ 2 < (exampleInputOf Real.exp).nWages), example_nonpec, if_pos rfl]
        norm_num⟩) (by
      intro d _ s hs e he
      refine ⟨2, h2 d s, ?_⟩
      have he0 : e 2 = 0 := by
        obtain ⟨z, hz, rfl⟩ := List.mem_map.1 he
        unfold shockOf
        rw [if_neg (by decide : ¬ 2 < (exampleInputOf Real.exp).nWages)]
        have hz0 : ∀ a, shocksOf (exogenousPointsBuild.choiceSetAt d s) z a = 0 := by
          intro a
          unfold shocksOf
          rw [List.getD_eq_getElem?_getD]
          rcases hx : z[positionIn (exogenousPointsBuild.choiceSetAt d s) a]? with _ | x
          · rfl
          · have hper : s.period < 3 := createCore_period _ _ wf.created s hs
            unfold SolveInput.baseOf exampleInputOf at hz
            dsimp only at hz
            rw [List.getElem?_replicate, if_pos hper, Option.getD_some, List.mem_singleton] at hz
            rw [hz] at hx
            exact (List.mem_replicate.1 (List.mem_of_getElem? hx)).2
        unfold latentShock
        simp only [hz0, mul_zero]
        simp
      unfold flowUtility
      rw [he0, example_nonpec, if_pos rfl]
      norm_num) (fun d _ s _ => ⟨2, h2 d s⟩) (by
      intro _ t ht _
      have ht : t < 3 := ht
      rw [hp]
      match t with
      | 0 => omega
      | 1 => omega
      | 2 => omega) 7 (fun bt => initialValues bt.space) (fun _ => SameShape.refl _) id id (95 / 100)
  exact ⟨bt, sp, sp', e1, e2, e3, e4⟩

end Respy
