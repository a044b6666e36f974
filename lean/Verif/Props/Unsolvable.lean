import Verif.Props.SolveFunctionExample
import Verif.Props.CreationProcessed

/-!
# C103: accepted models which cannot be solved
-/

namespace Respy

/-! ### Helper lemmas: the periods of the dense keys -/

theorem densePeriodChoice_periods (core : List CoreState) (groups : List ((Nat × List Bool) × List Nat))
    (restr : Nat → List (List (FrameFormula CoreState))) (nDense : Nat) (dpc : Dict Complex Nat)
    (h : densePeriodChoice core groups restr nDense = .ok dpc) :
    ∀ c ∈ Dict.keys dpc, ∃ g ∈ groups, g.1.1 = c.period := by
  by_cases hall : ∀ d < nDense, ∀ g ∈ groups, ∃ cs, setsInGroup (restr d) core g.2 = [cs]
  · classical
    have hok := densePeriodChoice_ok core groups restr nDense
      (fun d g => if hg : d < nDense ∧ g ∈ groups then (hall d hg.1 g hg.2).choose else [])
      (fun d hd g hg => by
        simp only [hd, hg, and_self, dif_pos]
        exact (hall d hd g hg).choose_spec)
    rw [hok] at h
    cases h
    intro c hc
    rw [Dict.mem_keys_ofItems] at hc
    obtain ⟨kv, hkv, rfl⟩ := List.mem_map.1 hc
    unfold dpcItems at hkv
    obtain ⟨d, _, hkv⟩ := List.mem_flatMap.1 hkv
    obtain ⟨g, hg, rfl⟩ := List.mem_map.1 hkv
    exact ⟨g.1, List.fst_mem_of_mem_zipIdx hg, rfl⟩
  · push Not at hall
    obtain ⟨d, hd, g, hg, hne⟩ := hall
    rw [densePeriodChoice_error core groups restr nDense ⟨d, hd, g, hg, hne⟩] at h
    cases h

theorem densePeriodCores_periods (b : BuildSpec) (core : List CoreState) (dpc : Dict Complex Nat)
    (h : b.densePeriodCores core (corePeriodChoice b.restrCore core) = some dpc) :
    ∀ c ∈ Dict.keys dpc, ∃ s ∈ core, s.period = c.period := by
  have hg : ∀ g ∈ corePeriodChoice b.restrCore core, ∃ s ∈ core, s.period = g.1.1 := by
    intro g hg
    obtain ⟨s, hs, hk⟩ := ((corePeriodChoice_keys b.restrCore core).2 g.1).1 (List.mem_map_of_mem hg)
    exact ⟨s, hs, by rw [← hk]; rfl⟩
  intro c hc
  unfold BuildSpec.densePeriodCores at h
  split at h
  · cases h
    unfold densePeriodChoiceNoDense at hc
    rw [Dict.mem_keys_ofItems] at hc
    obtain ⟨kv, hkv, rfl⟩ := List.mem_map.1 hc
    obtain ⟨g, hgm, rfl⟩ := List.mem_map.1 hkv
    exact hg _ (List.fst_mem_of_mem_zipIdx hgm)
  · split at h
    · cases h
    · rename_i grid _ _
      cases hd : densePeriodChoice core (corePeriodChoice b.restrCore core) b.restr grid.length with
      | error e => rw [hd] at h; cases h
      | ok d =>
        rw [hd] at h
        cases h
        obtain ⟨g, hgm, hp⟩ := densePeriodChoice_periods _ _ _ _ _ hd c hc
        obtain ⟨s, hs, hsp⟩ := hg g hgm
        exact ⟨s, hs, hsp.trans hp⟩

theorem buildSpace_complexes {b : BuildSpec} {core : List CoreState} (hc : createCore b.core = some core) {bt : Built}
    (h : buildSpace b = some bt) :
    bt.space.nPeriods = b.core.nPeriods ∧ ∀ c ∈ bt.space.complexes, ∃ s ∈ core, s.period = c.period := by
  have hd := densePeriodCores_periods b core _ (buildSpace_dpc hc h)
  unfold buildSpace at h
  rw [hc, Option.bind_eq_bind, Option.bind_some] at h
  obtain ⟨dpc, h1, h⟩ := Option.bind_eq_some_iff.1 h
  obtain ⟨indices, h2, h⟩ := Option.bind_eq_some_iff.1 h
  obtain ⟨transit, h3, h⟩ := Option.bind_eq_some_iff.1 h
  obtain ⟨children, h4, h⟩ := Option.bind_eq_some_iff.1 h
  cases h
  exact ⟨rfl, hd⟩

section
variable {env : ProcessEnv} {m : UserModel} {p : Processed} {ev : FormulaEval} {core : List CoreState}

/-- **C103.** A model is solved only if its state space has a state, and, with a discount factor other than zero, only
if it has a state in each period: filters must not remove all states of a period. -/
theorem C103_solved_models_cover_periods (hp : processModel env m = some p)
    (hcore : createCore (p.buildSpec ev).core = some core) (r : SolveRoutines)
    (solve : Dict (Str × Str) ℝ → Option (SimSpace ℝ)) (hsolve : getSolveFunc env ev r m = some solve)
    (params : Dict (Str × Str) ℝ) (sp : SimSpace ℝ) (h : solve params = some sp) :
    core ≠ [] ∧ (Dict.get? params ("delta".toList, "delta".toList) ≠ some 0 →
      ∀ t < m.nPeriods, ∃ s ∈ core, s.period = t) := by
  unfold getSolveFunc at hsolve
  rw [hp, Option.bind_eq_bind, Option.bind_some] at hsolve
  obtain ⟨bt, hbt, hsolve⟩ := Option.bind_eq_some_iff.1 hsolve
  cases hsolve
  obtain ⟨q, hq, h⟩ := Option.bind_eq_some_iff.1 h
  unfold Processed.solveWith at h
  dsimp only at h
  rw [hbt, Option.bind_some] at h
  unfold SolveInput.solveModel at h
  rw [hbt, Option.bind_eq_bind, Option.bind_some] at h
  obtain ⟨tr, _, h⟩ := Option.bind_eq_some_iff.1 h
  obtain ⟨par, hpar, h⟩ := Option.bind_eq_some_iff.1 h
  obtain ⟨hn, hper⟩ := buildSpace_complexes hcore hbt
  have hcx : bt.space.complexes ≠ [] ∧ par.delta = q.discount.delta := by
    unfold SolveInput.paramObjects at hpar
    split at hpar
    · cases hpar
    · rename_i hne
      obtain ⟨_, _, hpar⟩ := Option.bind_eq_some_iff.1 hpar
      obtain ⟨_, _, hpar⟩ := Option.bind_eq_some_iff.1 hpar
      cases hpar
      exact ⟨hne, rfl⟩
  refine ⟨?_, ?_⟩
  · obtain ⟨c, hc⟩ := List.exists_mem_of_ne_nil _ hcx.1
    obtain ⟨s, hs, _⟩ := hper c hc
    exact List.ne_nil_of_mem hs
  · intro hdelta0 t ht
    obtain ⟨_, hf⟩ := processModel_from env m p hp
    rw [← hf.nPeriods] at ht
    have hdelta : q.discount.delta ≠ 0 := by
      intro h0
      obtain ⟨_, hfq⟩ := processModel_from env _ q hq
      have hd := hfq.discount
      unfold parseDiscount at hd
      obtain ⟨delta, hd1, hd⟩ := Option.bind_eq_some_iff.1 hd
      refine hdelta0 (hd1.trans ?_)
      simp only [Option.pure_def, Option.some.injEq] at hd
      rw [← hd] at h0
      exact congrArg some h0
    have hok : (solveBackward bt.space (kw94 bt.space r.rng r.sqrt r.ols
        (expShocks Real.exp r.maxLog q.choices.wWage.length q.cholesky)) par r.seed (r.ev0 bt)).2 = true := by
      by_contra hc
      simp only [Bool.not_eq_true] at hc
      simp only [hc, Bool.false_eq_true, if_false] at h
      exact absurd h (by simp)
    obtain ⟨_, h2⟩ := backwardLoop_spec bt.space _ (kw94_interpolationKeys bt.space _ _ _ _) par _ _ _ hok
    obtain ⟨s1, vals, s2, hv, _⟩ := h2 t (by rw [hn]; exact ht)
    have hkeys : bt.space.keysOfPeriod t ≠ [] := by
      intro hk
      unfold periodValues at hv
      rw [if_neg (by rw [hcx.2]; exact hdelta)] at hv
      have hint : bt.space.anyInterpolated t = false := by
        unfold SolveSpace.anyInterpolated
        rw [hk]
        simp
      rw [hint, hk] at hv
      simp at hv
    obtain ⟨k, hk⟩ := List.exists_mem_of_ne_nil _ hkeys
    obtain ⟨c, hc, hct⟩ := (mem_keysOfPeriod _ _ k).1 hk
    obtain ⟨s, hs, hst⟩ := hper c (List.mem_of_getElem? hc)
    exact ⟨s, hs, hst.trans hct⟩

/-- **C103 (negated).** Accepted models in which no choice has experience cannot be solved: the state space has no
states. -/
theorem C103_no_experience_false (hp : processModel env m = some p) (hexp : p.choices.wExp = []) (r : SolveRoutines)
    (params : Dict (Str × Str) ℝ) : ((getSolveFunc env ev r m).bind fun solve => solve params) = none := by
  by_contra hne
  obtain ⟨sp, hsp⟩ := Option.ne_none_iff_exists'.1 hne
  obtain ⟨solve, hsolve, h⟩ := Option.bind_eq_some_iff.1 hsp
  have he : p.experience = [] := by
    obtain ⟨covariates, hf⟩ := processModel_from env m p hp
    rw [← List.length_eq_zero_iff, hf.experience_length, hexp]
    rfl
  refine (C103_solved_models_cover_periods (core := []) hp ?_ r solve hsolve params sp h).1 rfl
  unfold createCore additionalExp Processed.buildSpec
  simp only [he, List.map_nil, List.mapM_nil, Option.pure_def, Option.map_some, List.zipWith_nil_right,
    coreFromExperiences, if_true]
  congr 1
  have h1 : ∀ n k, addLaggedChoices n k [] = [] := by
    intro n k
    unfold addLaggedChoices
    split <;> simp
  have h2 : ∀ fs : List (CoreState → Bool), filterCore fs [] = [] := by
    intro fs
    induction fs with
    | nil => rfl
    | cons f fs ih => exact ih
  rw [h1, h2]
  rfl

/-- **C103 (negated).** Accepted models with a single choice and observed characteristics, types or exogenous processes
cannot be solved: the state space cannot be created. -/
theorem C103_one_choice_false (hp : processModel env m = some p) (hone : p.choices.choices.length = 1)
    (hcore : createCore (p.buildSpec ev).core = some core) (hne : core ≠ []) (grid : List (List Nat))
    (hgrid : denseGrid p.denseSpec = some grid) (hg : grid ≠ []) (r : SolveRoutines) :
    getSolveFunc env ev r m = none := by
  cases h : buildSpace (p.buildSpec ev) with
  | none =>
    unfold getSolveFunc
    rw [hp, Option.bind_eq_bind, Option.bind_some, h]
    rfl
  | some bt =>
    exfalso
    have hd := buildSpace_dpc hcore h
    unfold BuildSpec.densePeriodCores at hd
    have hgr : (p.buildSpec ev).grid = some grid := hgrid
    rw [hgr] at hd
    dsimp only at hd
    rw [if_pos] at hd
    · cases hd
    refine ⟨?_, ?_, hg⟩
    · show (p.restrictions ev none).length = 1
      simp [Processed.restrictions, hone]
    · obtain ⟨s, hs⟩ := List.exists_mem_of_ne_nil _ hne
      intro hnil
      have := ((corePeriodChoice_keys (p.buildSpec ev).restrCore core).2 _).2 ⟨s, hs, rfl⟩
      rw [hnil] at this
      cases this

end

/-! ### Examples -/

/-- The hypotheses of `C103_solved_models_cover_periods` are met by a solved model with three periods. -/
example : ∃ p core solve sp, processModel exampleEnv (maxUser 2) = some p ∧
    createCore (p.buildSpec textEval).core = some core ∧
    getSolveFunc exampleEnv textEval exampleRoutines (maxUser 2) = some solve ∧
    solve (maxUser 2).params = some sp := by
  obtain ⟨p, core, solve, sp, h1, _, h3, _, _, h6, h7, _⟩ := maxUser_solve 2 2 (by decide) (by simp) maxUser_check_two
  exact ⟨p, core, solve, sp, h1, h3.created, h6, h7⟩

/-- Two choices without wages whose experience does not matter, in a single period. -/
noncomputable def staticUser : UserModel where
  params := [
    (("delta".toList, "delta".toList), 1 / 2),
    (("nonpec_a".toList, "constant".toList), 1),
    (("nonpec_b".toList, "constant".toList), 2),
    (("shocks_sdcorr".toList, "sd_a".toList), 1),
    (("shocks_sdcorr".toList, "sd_b".toList), 1),
    (("shocks_sdcorr".toList, "corr_b_a".toList), 0)]
  nPeriods := 1
  points := 201
  covariates := [("constant".toList, "1".toList)]
  negativeChoiceSet := []
  filters := []

/-- The model is accepted, and no choice has experience. -/
example : ∃ p, processModel exampleEnv staticUser = some p ∧ p.choices.wExp = [] ∧
    p.choices.choices = ["a".toList, "b".toList] := by
  have h : (processModel exampleEnv staticUser).any (fun p => decide (p.choices.wExp = []) &&
      decide (p.choices.choices = ["a".toList, "b".toList])) = true := by decide +kernel
  obtain ⟨p, hp, h⟩ := (Option.any_eq_true _ _).1 h
  simp only [Bool.and_eq_true, decide_eq_true_eq] at h
  exact ⟨p, hp, h⟩

/-- One choice with a wage and an observed characteristic with two levels. -/
noncomputable def oneChoiceUser : UserModel where
  params := [
    (("delta".toList, "delta".toList), 1 / 2),
    (("wage_b".toList, "constant".toList), 1),
    (("wage_b".toList, "exp_b".toList), 2),
    (("shocks_sdcorr".toList, "sd_b".toList), 1),
    (("observable_iq_0".toList, "probability".toList), 1 / 2),
    (("observable_iq_1".toList, "probability".toList), 1 / 2)]
  nPeriods := 3
  points := 201
  covariates := [("constant".toList, "1".toList)]
  negativeChoiceSet := []
  filters := []

/-- The model is accepted, it has states and a grid of two characteristics. -/
example : ∃ p core grid, processModel exampleEnv oneChoiceUser = some p ∧ p.choices.choices.length = 1 ∧
    createCore (p.buildSpec textEval).core = some core ∧ core ≠ [] ∧ denseGrid p.denseSpec = some grid ∧
    grid ≠ [] := by
  have h : (processModel exampleEnv oneChoiceUser).any (fun p => decide (p.choices.choices = ["b".toList]) &&
      decide (p.lags.length = 0) && decide (p.filters = []) && decide (p.nPeriods = 3) &&
      decide ((p.experience.map fun e => (Dict.keys e.1, e.2)) = [([0], 2)]) &&
      (denseGrid p.denseSpec).any fun g => decide (g = [[0], [1]])) = true := by decide +kernel
  obtain ⟨p, hp, h⟩ := (Option.any_eq_true _ _).1 h
  simp only [Bool.and_eq_true, decide_eq_true_eq] at h
  obtain ⟨⟨⟨⟨⟨a1, a2⟩, a3⟩, a4⟩, a5⟩, a6⟩ := h
  obtain ⟨grid, hg, a6⟩ := (Option.any_eq_true _ _).1 a6
  rw [decide_eq_true_eq] at a6
  have h1 := congrArg (List.map Prod.fst) a5
  have h2 := congrArg (List.map Prod.snd) a5
  simp only [List.map_map, Function.comp_def, List.map_cons, List.map_nil] at h1 h2
  have h2' : p.experience.map Prod.snd = [2] := h2
  have hspec : (p.buildSpec textEval).core = ⟨3, 1, [[0]], [2], 0, []⟩ := by
    unfold Processed.buildSpec
    simp only [a1, a2, a3, a4, h1, h2']
    rfl
  have hc : (createCore ⟨3, 1, [[0]], [2], 0, []⟩).any (fun core => decide (core.length = 6)) = true := by decide +kernel
  obtain ⟨core, hcore, hlen⟩ := (Option.any_eq_true _ _).1 hc
  rw [decide_eq_true_eq] at hlen
  exact ⟨p, core, grid, hp, by rw [a1]; rfl, by rw [hspec]; exact hcore,
    (by rintro rfl; cases hlen), hg, by rw [a6]; simp⟩

/-- The model of C82 with the filter that everybody has some experience, which removes the first period. -/
noncomputable def emptyPeriodUser : UserModel := { exampleUser with filters := ["exp_b == 0".toList] }

/-- **C103 (negated).** The filters of an accepted model may remove all states of a period, and the model cannot be
solved then. -/
theorem C103_filtered_period_false : ∃ p, processModel exampleEnv emptyPeriodUser = some p ∧
    ∀ (r : SolveRoutines) (params : Dict (Str × Str) ℝ),
      Dict.get? params ("delta".toList, "delta".toList) ≠ some 0 →
      ((getSolveFunc exampleEnv textEval r emptyPeriodUser).bind fun solve => solve params) = none := by
  have h : (processModel exampleEnv emptyPeriodUser).any (fun p =>
      decide (p.choices.choices = ["b".toList, "a".toList]) && decide (p.choices.wExp = ["b".toList]) &&
      decide (p.lags.length = 1) && decide (p.filters = ["exp_b == 0".toList]) && decide (p.nPeriods = 3) &&
      decide ((p.experience.map fun e => (Dict.keys e.1, e.2)) = [([0], 2)])) = true := by decide +kernel
  obtain ⟨p, hp, h⟩ := (Option.any_eq_true _ _).1 h
  simp only [Bool.and_eq_true, decide_eq_true_eq] at h
  obtain ⟨⟨⟨⟨⟨a1, a2⟩, a3⟩, a4⟩, a5⟩, a6⟩ := h
  have h1 := congrArg (List.map Prod.fst) a6
  have h2 := congrArg (List.map Prod.snd) a6
  simp only [List.map_map, Function.comp_def, List.map_cons, List.map_nil] at h1 h2
  have h2' : p.experience.map Prod.snd = [2] := h2
  have hspec : (p.buildSpec textEval).core = ⟨3, 2, [[0]], [2], 1,
      [fun s => textEval.holds (Dict.get? (p.coreRow s)) "exp_b == 0".toList]⟩ := by
    unfold Processed.buildSpec
    simp only [a1, a3, a4, a5, h1, h2']
    rfl
  have hwf : (p.buildSpec textEval).core.WF := by
    rw [hspec]
    refine ⟨?_, rfl, ?_, ?_, ?_, ?_⟩ <;> simp
  obtain ⟨core, hcore, _⟩ := C01_core_nodup_sorted _ hwf
  refine ⟨p, hp, fun r params hd => ?_⟩
  by_contra hne
  obtain ⟨sp, hsp⟩ := Option.ne_none_iff_exists'.1 hne
  obtain ⟨solve, hsolve, h⟩ := Option.bind_eq_some_iff.1 hsp
  obtain ⟨s, hs, hs0⟩ := (C103_solved_models_cover_periods hp hcore r solve hsolve params sp h).2 hd 0 (by decide)
  have hs' := (C05_core_mem_iff _ hwf (by rw [hspec]) core hcore s).1 hs
  rw [hspec] at hs'
  obtain ⟨_, ⟨init, extra, e1, e2, e3, e4, e5⟩, _⟩ := hs'
  dsimp only at e1 e2 e5
  match init, e1, extra, e2 with
  | [x], .cons hx .nil, [e], _ =>
    have he : e = 0 := by
      simp only [List.sum_cons, List.sum_nil, Nat.add_zero] at e4
      omega
    subst he
    have hf := e5 _ (List.mem_singleton.2 rfl)
    have hrow := coreRow_experience p ⟨s.period, [0], s.lags⟩ (by rw [a2]; simp) 0 "b".toList 0 (by rw [a2]; rfl) rfl
    have := filteredHolds _ 0 0 hrow
    have h3 : "exp_".toList ++ "b".toList ++ " == ".toList ++ Nat.toDigits 10 0 = "exp_b == 0".toList := by decide
    rw [h3] at this
    rw [this] at hf
    simp at hf

end Respy
