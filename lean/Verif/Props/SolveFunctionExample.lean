import Verif.Props.SolveFunction

/-!
# C85 Examples and limits
-/

namespace Respy

/-- A test of `UserModel.Reprocessable`. -/
def reprocessableCheck (m : UserModel) (p : Processed) : Bool :=
  decide (Dict.keys m.covariates).Nodup &&
  (m.covariates.all fun kv => decide (p.convert (p.convert kv.2) = p.convert kv.2) &&
    ((Dict.keys m.covariates).all fun k => !decide (k <:+: kv.2) || decide (k <:+: p.convert kv.2)) &&
    decide (findAll "exp_".toList isNameChar (p.convert kv.2) = findAll "exp_".toList isNameChar kv.2) &&
    decide (findAllPlain "lagged_choice_".toList Char.isDigit (p.convert kv.2) =
      findAllPlain "lagged_choice_".toList Char.isDigit kv.2) &&
    ((List.range' 1 (p.nTypes - 1)).all fun i => !decide (kv.1 = "type_".toList ++ codeText i))) &&
  (p.choices.choices.all fun c => ((Dict.get? m.negativeChoiceSet c).getD []).all fun f =>
    decide (p.convert (p.convert f) = p.convert f)) &&
  p.filters.all fun f => decide (convertFilter p.choices.choices (textLevels p.observables)
    ⟨p.choices.wExp, p.choices.woExp, p.choices.wWage⟩ f = some [f])

theorem reprocessable_of_check (m : UserModel) (p : Processed) (h : reprocessableCheck m p = true) :
    m.Reprocessable p := by
  unfold reprocessableCheck at h
  simp only [Bool.and_eq_true, decide_eq_true_eq, List.all_eq_true, Bool.or_eq_true, Bool.not_eq_true',
    decide_eq_false_iff_not] at h
  obtain ⟨⟨⟨h1, h2⟩, h3⟩, h4⟩ := h
  refine ⟨h1, fun c f hf => (h2 _ hf).1.1.1.1, fun c f hf k hk hkf => ?_, fun c f hf => (h2 _ hf).1.1.2,
    fun c f hf => (h2 _ hf).1.2, fun i hi1 hi2 f hf => ?_, h3, h4⟩
  · exact ((h2 _ hf).1.1.1.2 k hk).resolve_left (not_not_intro hkf)
  · exact absurd rfl ((h2 _ hf).2 i (List.mem_range'_1.2 ⟨hi1, by omega⟩))

/-- Other parameters with the index of `exampleUser`. -/
noncomputable def exampleTheta : Dict (Str × Str) ℝ := exampleUser.params.map fun kv => (kv.1, kv.2 / 2)

theorem exampleUser_reprocessable : (processModel exampleEnv exampleUser).any (fun p =>
    exampleCheck exampleUser p && decide (p.exogenous.length = 0) && reprocessableCheck exampleUser p) = true := by decide +kernel

theorem exampleTheta_index : exampleUser.SameIndex exampleTheta := by
  refine ⟨?_, fun c => ?_⟩
  · unfold exampleTheta
    rw [List.map_map]
    rfl
  · have h : ∀ d : Dict (Str × Str) ℝ, (∀ kv ∈ d, kv.1.1 ≠ "maximum_exp".toList) →
        Dict.get? d ("maximum_exp".toList, c) = none := by
      intro d hd
      induction d with
      | nil => rfl
      | cons a as ih =>
        rw [Dict.get?, if_neg fun he => hd a List.mem_cons_self (congrArg Prod.fst he)]
        exact ih fun kv hkv => hd kv (List.mem_cons_of_mem _ hkv)
    have hk : ∀ k ∈ exampleUser.params.map Prod.fst, k.1 ≠ "maximum_exp".toList := by decide +kernel
    rw [h, h]
    · intro kv hkv
      obtain ⟨x, hx, rfl⟩ := List.mem_map.1 hkv
      exact hk x.1 (List.mem_map_of_mem (f := Prod.fst) hx)
    · intro kv hkv
      exact hk _ (List.mem_map_of_mem (f := Prod.fst) hkv)

/-- Routines with zeros as arrays before the first call. -/
noncomputable def exampleRoutines : SolveRoutines where
  senv := exampleSolveEnv
  rng := firstRandom
  sqrt := id
  ols := fun _ _ => []
  maxLog := 1
  seed := 0
  ev0 := fun bt => initialValues bt.space
  valueCounts := id
  keyOrder := id

/-- The hypotheses of the theorems hold for a model with a label in a formula, an observable and types, and for
parameters which differ. -/
theorem exampleUser_solve : ∃ p core, processModel exampleEnv exampleUser = some p ∧ exampleUser.Reprocessable p ∧
    createCore (p.buildSpec textEval).core = some core ∧ p.Supported exampleUser textEval core ∧ p.exogenous = [] ∧
    exampleSolveEnv.Fits (p.buildSpec textEval) core ∧
    (∀ d ∈ (p.buildSpec textEval).denseIndices, ∀ s ∈ core,
      ∃ c ∈ p.choices.choices, p.Allowed exampleUser textEval d s c) ∧
    ∀ δ : ℝ, (p.buildSpec textEval).PointsSuffice core δ := by
  obtain ⟨p, hp, hcheck⟩ := (Option.any_eq_true _ _).1 exampleUser_reprocessable
  simp only [Bool.and_eq_true, decide_eq_true_eq] at hcheck
  obtain ⟨⟨g1, g2⟩, g3⟩ := hcheck
  obtain ⟨core, h1, h2, h3, h4, _⟩ := example_hypotheses _ p g1
  refine ⟨p, core, hp, reprocessable_of_check _ _ g3, h1, h2, List.length_eq_zero_iff.1 g2, h3, h4, ?_⟩
  intro δ _ t _ _
  unfold exampleCheck at g1
  simp only [Bool.and_eq_true, decide_eq_true_eq] at g1
  have : (p.buildSpec textEval).points = 201 := g1.2
  rw [this]
  omega

example : ∃ solve sp, getSolveFunc exampleEnv textEval exampleRoutines exampleUser = some solve ∧
    solve exampleTheta = some sp ∧ exampleTheta ≠ exampleUser.params := by
  obtain ⟨p, core, hp, hr, hcore, hs, hexo, hfit, hall, hpts⟩ := exampleUser_solve
  obtain ⟨_, solve, sp, _, _, h1, h2, _⟩ := C85_solution_at_parameters_partial hp hr exampleRoutines exampleTheta
    exampleTheta_index textEval_contract hs hcore hexo (fun _ _ h1 h2 => ⟨h1, h2⟩) (by decide +kernel)
    (exampleShocks _ (by decide +kernel)) hfit hall (fun _ _ => hpts _) firstRandom_contract (fun _ => SameShape.refl _)
  refine ⟨solve, sp, h1, h2, fun he => ?_⟩
  have := congrArg (fun l => (l.map Prod.snd)[0]?) he
  simp only [exampleTheta, exampleUser] at this
  norm_num at this

/-! ### Names inside of labels -/

/-- The covariate `b` is not used, but it is mentioned inside of the label in the formula of `same`. -/
noncomputable def labelUser : UserModel where
  params := [
    (("delta".toList, "delta".toList), 1 / 2),
    (("wage_b".toList, "constant".toList), 1),
    (("wage_b".toList, "exp_b".toList), 2),
    (("nonpec_a".toList, "same".toList), 6),
    (("shocks_sdcorr".toList, "sd_b".toList), 1),
    (("shocks_sdcorr".toList, "sd_a".toList), 1),
    (("shocks_sdcorr".toList, "corr_a_b".toList), 0)]
  nPeriods := 3
  points := 201
  covariates := [("constant".toList, "1".toList), ("same".toList, "lagged_choice_1 == 'b'".toList),
    ("b".toList, "lagged_choice_2 == 'a'".toList)]
  negativeChoiceSet := []
  filters := []

theorem labelUser_check : (processModel exampleEnv labelUser).any (fun p => decide (p.lags.length = 2) &&
    (processModel exampleEnv (labelUser.reprocessed p labelUser.params)).any fun q => decide (q.lags.length = 1)) =
      true := by decide +kernel

/-- **C85 (negation).** Options which are processed again can lead to another model: a covariate which is mentioned
only inside of a label counts as relevant the first time, so that there are two lagged choices, and not the second
time. -/
theorem C85_processed_twice_false : ∃ env m p q, processModel env m = some p ∧
    processModel env (m.reprocessed p m.params) = some q ∧ p.lags.length = 2 ∧ q.lags.length = 1 := by
  obtain ⟨p, hp, h⟩ := (Option.any_eq_true _ _).1 labelUser_check
  simp only [Bool.and_eq_true, decide_eq_true_eq] at h
  obtain ⟨q, hq, h2⟩ := (Option.any_eq_true _ _).1 h.2
  exact ⟨exampleEnv, labelUser, p, q, hp, hq, h.1, of_decide_eq_true h2⟩

/-! ### Maximum experiences -/

/-- A model with maximum experience `v`. -/
noncomputable def maxUser (v : ℝ) : UserModel where
  params := [
    (("delta".toList, "delta".toList), 1 / 2),
    (("wage_b".toList, "constant".toList), 1),
    (("wage_b".toList, "exp_b".toList), 2),
    (("nonpec_a".toList, "constant".toList), 4),
    (("shocks_sdcorr".toList, "sd_b".toList), 1),
    (("shocks_sdcorr".toList, "sd_a".toList), 1),
    (("shocks_sdcorr".toList, "corr_a_b".toList), 0),
    (("maximum_exp".toList, "b".toList), v)]
  nPeriods := 3
  points := 201
  covariates := [("constant".toList, "1".toList)]
  negativeChoiceSet := []
  filters := []

def maxCore (n : Nat) : Option (List CoreState) :=
  createCore { nPeriods := 3, nChoices := 2, starts := [[0]], maxExp := [n], nLags := 0, filters := [] }

noncomputable def maxCheck (m : UserModel) (n : Nat) (p : Processed) : Bool :=
  decide (p.choices.choices = ["b".toList, "a".toList]) && decide (p.choices.wExp = ["b".toList]) &&
  decide (p.lags.length = 0) && decide (p.filters = []) &&
  (p.choices.choices.all fun c => decide (p.userRestrictions m c = [])) && decide (p.nPeriods = 3) &&
  decide (p.points = 201) && decide (denseColumns p.denseSpec = []) && decide (p.exogenous.length = 0) &&
  decide ((p.experience.map fun e => Dict.keys e.1) = [[0]]) &&
  (p.choices.choices.all fun c => ((p.wage c).toList ++ (p.nonpec c).toList).all fun beta => beta.all fun item =>
    decide (item.1 ∈ p.columns (denseGrid p.denseSpec).isSome)) &&
  decide (denseGrid p.denseSpec = none) &&
  ((maxCore n).any fun core => core.all fun s => (p.stateFrame textEval none s).isSome) &&
  reprocessableCheck m p

theorem maxUser_check_one : (processModel exampleEnv (maxUser 1)).any (maxCheck (maxUser 1) 1) = true := by
  decide +kernel

theorem maxUser_check_two : (processModel exampleEnv (maxUser 2)).any (maxCheck (maxUser 2) 2) = true := by
  decide +kernel

/-- The solve function of a model with maximum experience `n`. -/
theorem maxUser_solve (v : ℝ) (n : Nat) (hn : n < 256) (hv : ⌊v⌋₊ = n)
    (h : (processModel exampleEnv (maxUser v)).any (maxCheck (maxUser v) n) = true) :
    ∃ p core solve sp, processModel exampleEnv (maxUser v) = some p ∧ maxCore n = some core ∧
      (p.buildSpec textEval).WF core ∧ (p.buildSpec textEval).exogLevels = [] ∧
      (p.buildSpec textEval).denseIndices = [none] ∧
      getSolveFunc exampleEnv textEval exampleRoutines (maxUser v) = some solve ∧
      solve (maxUser v).params = some sp ∧
      ∃ bt, buildSpace (p.buildSpec textEval) = some bt ∧ sp.indexer = bt.indexer := by
  obtain ⟨p, hp, h⟩ := (Option.any_eq_true _ _).1 h
  unfold maxCheck at h
  simp only [Bool.and_eq_true, decide_eq_true_eq, List.all_eq_true] at h
  obtain ⟨⟨⟨⟨⟨⟨⟨⟨⟨⟨⟨⟨⟨a1, a2⟩, a3⟩, a4⟩, a5⟩, a6⟩, a7⟩, a8⟩, a9⟩, a10⟩, a11⟩, a12⟩, a13⟩, a14⟩ := h
  obtain ⟨core, hcore0, b13⟩ := (Option.any_eq_true _ _).1 a13
  simp only [List.all_eq_true] at b13
  obtain ⟨start, mx, he, hmx, _⟩ := C82_experience_by_name hp 0 "b".toList (by rw [a2]; rfl)
  have hmx : mx = n := by
    rw [← hv]
    refine hmx v ?_
    unfold maxUser
    dsimp only
    iterate 7 rw [Dict.get?, if_neg (by decide)]
    rw [Dict.get?, if_pos rfl]
  subst hmx
  have hexp : p.experience = [(start, mx)] := by
    have hl := congrArg List.length a10
    simp only [List.length_map, List.length_cons, List.length_nil] at hl
    obtain ⟨e, he'⟩ := List.length_eq_one_iff.1 hl
    rw [he'] at he ⊢
    simpa using he
  have hst : Dict.keys start = [0] := by
    rw [hexp] at a10
    simpa using a10
  have hspec : (p.buildSpec textEval).core =
      { nPeriods := 3, nChoices := 2, starts := [[0]], maxExp := [mx], nLags := 0, filters := [] } := by
    unfold Processed.buildSpec
    simp only [hexp, a1, a3, a4, a6, List.map_cons, List.map_nil, hst, List.length_cons, List.length_nil]
  have hcore : createCore (p.buildSpec textEval).core = some core := by
    rw [hspec]; exact hcore0
  have hgrid : (p.buildSpec textEval).grid = none := a12
  have hind : (p.buildSpec textEval).denseIndices = [none] := by
    unfold BuildSpec.denseIndices
    rw [hgrid]
  have hexo := List.length_eq_zero_iff.1 a9
  have hs : p.Supported (maxUser v) textEval core := by
    refine ⟨⟨?_, ?_, ?_, ?_, ?_, ?_, ?_, ?_, ?_, ?_, Or.inl ?_, ?_, ?_, ?_⟩, Or.inl a4⟩
    · rw [a1]; simp
    · rw [a2]; simp
    · rw [a12]; intro grid hg; cases hg
    · omega
    · rw [a6]
      exact C01_periods_covered ⟨3, 2, [[0]], [mx], 0, []⟩
        ⟨by simp, rfl, by simp, by simp, by simpa using hn, by simp⟩ rfl (by simp) core hcore0
    · omega
    · rw [a4]; intro f hf; cases hf
    · intro e he x hx
      rw [hexp, List.mem_singleton] at he
      rw [he, hst, List.mem_singleton] at hx
      omega
    · intro e he
      rw [hexp, List.mem_singleton] at he
      rw [he]
      exact hn
    · intro c hc f hf
      rw [a5 c hc] at hf
      cases hf
    · intro c hc f hf
      rw [a5 c hc] at hf
      cases hf
    · rw [a8]; intro x hx; cases hx
    · intro d hd s hm
      rw [hind, List.mem_singleton] at hd
      rw [hd]
      exact b13 s hm
    · intro c hc beta hb item hi
      refine a11 c hc beta ?_ item hi
      rcases hb with hb | hb
      · simp [hb]
      · simp [hb]
  have hpts : ∀ δ : ℝ, (p.buildSpec textEval).PointsSuffice core δ := by
    intro δ _ t _ _
    have : (p.buildSpec textEval).points = 201 := a7
    rw [this]
    omega
  obtain ⟨q, solve, sp, V, h1, h2, h3, _, bt, par, ev1, h4, h5, _⟩ := C85_solution_at_parameters_partial hp
    (reprocessable_of_check _ _ a14) exampleRoutines (maxUser v).params ⟨rfl, fun _ => rfl⟩ textEval_contract hs hcore
    hexo (fun _ _ h1 h2 => ⟨h1, h2⟩) (show (Dict.keys (maxUser v).params).Nodup from
      (by decide +kernel : (Dict.keys (maxUser 0).params).Nodup)) (exampleShocks _
      (by decide +kernel : ((maxUser 0).params.map Prod.fst).all (fun k =>
        !mentionsShocks k || shockCategories.any fun c => decide (k.1 = c.toList)) = true))
    (exampleSolveEnv_fits p core a6 (by rw [a1]; rfl))
    (fun d hd s hm => ⟨"a".toList, by rw [a1]; simp, allowed_of_unrestricted _ p _ d s _
      (a5 _ (by rw [a1]; simp)) (by rw [a2]; decide)⟩) (fun q _ => hpts _) firstRandom_contract (fun _ => SameShape.refl _)
  refine ⟨p, core, solve, sp, hp, hcore0, C82_processed_models_well_formed hp textEval_contract hs hcore, ?_, hind, h2,
    h3, bt, h4, by rw [h5]; rfl⟩
  simp [Processed.buildSpec, hexo]

/-- The solve function uses the state space of the parameters with which it was created. -/
theorem solveWith_indexer (p q : Processed) (ev : FormulaEval) (r : SolveRoutines) (sp : SimSpace ℝ)
    (h : p.solveWith q ev r = some sp) : ∃ bt, buildSpace (p.buildSpec ev) = some bt ∧ sp.indexer = bt.indexer := by
  unfold Processed.solveWith at h
  obtain ⟨bt, hbt, h⟩ := Option.bind_eq_some_iff.1 h
  unfold SolveInput.solveModel at h
  rw [hbt] at h
  simp only [Option.bind_eq_bind, Option.bind_some] at h
  obtain ⟨_, _, h⟩ := Option.bind_eq_some_iff.1 h
  obtain ⟨_, _, h⟩ := Option.bind_eq_some_iff.1 h
  split at h
  · cases h
    exact ⟨bt, hbt, rfl⟩
  · cases h

/-- Only states of the core are in the indexer. -/
theorem buildSpace_indexer (b : BuildSpec) (bt : Built) (h : buildSpace b = some bt) (core : List CoreState)
    (hcore : createCore b.core = some core) (s : CoreState) (hs : s ∈ Dict.keys bt.indexer) : s ∈ core := by
  unfold buildSpace at h
  rw [hcore] at h
  simp only [Option.bind_eq_bind, Option.bind_some] at h
  obtain ⟨_, _, h⟩ := Option.bind_eq_some_iff.1 h
  obtain ⟨_, _, h⟩ := Option.bind_eq_some_iff.1 h
  obtain ⟨_, _, h⟩ := Option.bind_eq_some_iff.1 h
  obtain ⟨_, _, h⟩ := Option.bind_eq_some_iff.1 h
  simp only [Option.pure_def, Option.some.injEq] at h
  rw [← h] at hs
  unfold createIndexer at hs
  rw [Dict.mem_keys_ofItems] at hs
  obtain ⟨kv, hkv, rfl⟩ := List.mem_map.1 hs
  obtain ⟨l, hl, hkv⟩ := List.mem_flatten.1 hkv
  obtain ⟨i, hi, rfl⟩ := List.mem_mapIdx.1 hl
  obtain ⟨j, hj, rfl⟩ := List.mem_mapIdx.1 hkv
  have := List.getElem_mem hj
  unfold locRows at this
  obtain ⟨k, _, hk⟩ := List.mem_filterMap.1 this
  exact List.mem_of_getElem? hk

/-- **C85 (negation).** The solve function does not return the solution at the parameters of the call if the maximum
experience changes: the states are those of the parameters with which the function was created. -/
theorem C85_maximum_experience_false : ∃ env ev r m θ solve solve' sp, ∃ p,
    processModel env m = some p ∧ m.Reprocessable p ∧ m.params.map Prod.fst = θ.map Prod.fst ∧
    getSolveFunc env ev r m = some solve ∧ getSolveFunc env ev r { m with params := θ } = some solve' ∧
    solve' θ = some sp ∧ solve θ ≠ some sp := by
  obtain ⟨p, core, solve, sp, h1, h2, h3, h4, h5, h6, _⟩ := maxUser_solve 1 1 (by omega) (by simp) maxUser_check_one
  obtain ⟨q, core', solve', sp', g1, g2, g3, g4, g5, g6, g7, bt', g8, g9⟩ := maxUser_solve 2 2 (by omega) (by simp)
    maxUser_check_two
  refine ⟨exampleEnv, textEval, exampleRoutines, maxUser 1, (maxUser 2).params, solve, solve', sp', p, h1, ?_, rfl, h6,
    g6, g7, fun hsp => ?_⟩
  · obtain ⟨p', hp', h⟩ := (Option.any_eq_true _ _).1 maxUser_check_one
    rw [h1] at hp'
    cases hp'
    unfold maxCheck at h
    rw [Bool.and_eq_true] at h
    exact reprocessable_of_check _ _ h.2
  · have hb : ∃ bt, buildSpace (p.buildSpec textEval) = some bt ∧ sp'.indexer = bt.indexer := by
      unfold getSolveFunc at h6
      simp only [h1, Option.bind_eq_bind, Option.bind_some] at h6
      obtain ⟨_, _, h7⟩ := Option.bind_eq_some_iff.1 h6
      simp only [Option.pure_def, Option.some.injEq] at h7
      rw [← h7] at hsp
      obtain ⟨q', _, h8⟩ := Option.bind_eq_some_iff.1 hsp
      exact solveWith_indexer _ _ _ _ _ h8
    obtain ⟨bt, hbt, hidx⟩ := hb
    have hin : (⟨2, [2], []⟩ : CoreState) ∈ core' := by
      have : (maxCore 2).any (fun c => decide ((⟨2, [2], []⟩ : CoreState) ∈ c)) = true := by decide +kernel
      rw [g2] at this
      exact of_decide_eq_true this
    have hout : (⟨2, [2], []⟩ : CoreState) ∉ core := by
      have : (maxCore 1).any (fun c => decide ((⟨2, [2], []⟩ : CoreState) ∉ c)) = true := by decide +kernel
      rw [h2] at this
      exact of_decide_eq_true this
    obtain ⟨bt'', hb1, hb2⟩ := buildSpace_noExogenous _ _ g3 g4
    rw [g8] at hb1
    cases hb1
    obtain ⟨ck, pos, _, _, hget, _⟩ := hb2.loc _ hin none (by rw [g5]; simp)
    rw [← g9, hidx] at hget
    exact hout (buildSpace_indexer _ _ hbt core h3.created _ 
      (List.mem_map_of_mem (f := Prod.fst) (Dict.mem_of_get? _ _ _ hget)))

end Respy
