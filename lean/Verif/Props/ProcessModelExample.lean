import Verif.Props.ProcessModel
import Verif.Props.LaggedChoices
import Mathlib.Tactic.IntervalCases

/-!
# A concrete model for C82
-/

namespace Respy

/-- `x == m` as a pair. -/
def readComparison (f : Str) : Option (Str × Nat) :=
  let r := f.dropWhile (· ≠ ' ')
  if " == ".toList.isPrefixOf r ∧ (r.drop 4).all Char.isDigit then
    some (f.takeWhile (· ≠ ' '), digitsValue (r.drop 4))
  else none

/-- An evaluator of some formulas: `False`, `1`, comparisons of columns with numbers and names of columns. -/
noncomputable def textEval : FormulaEval where
  value := fun row f =>
    if f = "False".toList then some 0
    else if f = "1".toList then some 1
    else match readComparison f with
      | some (c, m) => (row c).map fun x => if x = (m : ℝ) then 1 else 0
      | none => row f
  defined := fun cols f =>
    if f = "False".toList then true
    else if f = "1".toList then true
    else match readComparison f with
      | some (c, _) => decide (c ∈ cols)
      | none => decide (f ∈ cols)

theorem readComparison_text (c : Str) (m : Nat) (hc : ∀ x ∈ c, isNameChar x = true) :
    readComparison ("exp_".toList ++ c ++ " == ".toList ++ Nat.toDigits 10 m) = some ("exp_".toList ++ c, m) := by
  have e : "exp_".toList ++ c ++ " == ".toList ++ Nat.toDigits 10 m =
      ("exp_".toList ++ c) ++ (" == ".toList ++ Nat.toDigits 10 m) := by simp
  have hall : ∀ x ∈ "exp_".toList ++ c, decide (x ≠ ' ') = true := by
    intro x hx
    rcases List.mem_append.1 hx with h | h
    · have : ∀ y ∈ "exp_".toList, decide (y ≠ ' ') = true := by decide
      exact this x h
    · refine decide_eq_true ?_
      rintro rfl
      exact absurd (hc _ h) (by decide)
  obtain ⟨h1, h2⟩ := takeWhile_append_of_all (fun x => decide (x ≠ ' ')) ("exp_".toList ++ c) (" == ".toList ++ Nat.toDigits 10 m)
    hall (by
      intro x hx
      have : x = ' ' := by simpa using hx.symm
      subst this
      decide)
  unfold readComparison
  rw [e]
  dsimp only
  rw [h1, h2]
  have hd2 : (" == ".toList ++ Nat.toDigits 10 m).drop 4 = Nat.toDigits 10 m := rfl
  rw [hd2, if_pos ⟨List.isPrefixOf_iff_prefix.2 (List.prefix_append _ _),
    List.all_eq_true.2 fun x hx => codeText_digits m x hx⟩, digitsValue_toDigits]

theorem experience_text_ne (c : Str) (m : Nat) :
    "exp_".toList ++ c ++ " == ".toList ++ Nat.toDigits 10 m ≠ "False".toList ∧
    "exp_".toList ++ c ++ " == ".toList ++ Nat.toDigits 10 m ≠ "1".toList := by
  constructor <;> intro h <;> simp at h

theorem textEval_contract : textEval.Contract where
  false_defined := fun _ => rfl
  false_value := fun _ => rfl
  experience_defined := by
    intro cols c m hc hmem
    unfold textEval
    dsimp only
    rw [if_neg (experience_text_ne c m).1, if_neg (experience_text_ne c m).2, readComparison_text c m hc]
    exact decide_eq_true hmem
  experience_value := by
    intro row c m x hc hrow
    unfold textEval
    dsimp only
    rw [if_neg (experience_text_ne c m).1, if_neg (experience_text_ne c m).2, readComparison_text c m hc]
    dsimp only
    rw [hrow]
    rfl
  more_columns := by
    intro cols cols' f h hsub
    unfold textEval at h ⊢
    dsimp only at h ⊢
    split
    · rfl
    · next h1 =>
      rw [if_neg h1] at h
      split
      · rfl
      · next h2 =>
        rw [if_neg h2] at h
        split
        · next c m hr =>
          rw [hr] at h
          exact decide_eq_true (hsub _ (of_decide_eq_true h))
        · next hr =>
          rw [hr] at h
          exact decide_eq_true (hsub _ (of_decide_eq_true h))
  same_columns := by
    intro cols f row row' h hrow
    unfold textEval at h ⊢
    dsimp only at h ⊢
    split
    · rfl
    · next h1 =>
      rw [if_neg h1] at h
      split
      · rfl
      · next h2 =>
        rw [if_neg h2] at h
        split
        · next c m hr =>
          rw [hr] at h
          rw [hrow _ (of_decide_eq_true h)]
        · next hr =>
          rw [hr] at h
          exact hrow _ (of_decide_eq_true h)

/-- Two choices `b` (with experience) and `a`, two types, one lagged choice in the covariate `same`, an observable
with two levels, and a restriction of the user on `b`. -/
noncomputable def exampleUser : UserModel where
  params := [
    (("delta".toList, "delta".toList), 1 / 2),
    (("wage_b".toList, "constant".toList), 1),
    (("wage_b".toList, "exp_b".toList), 2),
    (("wage_b".toList, "type_1".toList), 3),
    (("nonpec_a".toList, "constant".toList), 4),
    (("nonpec_a".toList, "able".toList), 5),
    (("nonpec_a".toList, "same".toList), 6),
    (("shocks_sdcorr".toList, "sd_b".toList), 1),
    (("shocks_sdcorr".toList, "sd_a".toList), 1),
    (("shocks_sdcorr".toList, "corr_a_b".toList), 0),
    (("observable_iq_0".toList, "probability".toList), 1 / 2),
    (("observable_iq_1".toList, "probability".toList), 1 / 2),
    (("type_1".toList, "constant".toList), 1)]
  nPeriods := 3
  points := 201
  covariates := [("constant".toList, "1".toList), ("able".toList, "iq".toList),
    ("same".toList, "lagged_choice_1 == 'b'".toList)]
  negativeChoiceSet := [("b".toList, ["exp_b == 1".toList])]
  filters := []

/-- The identity in place of `robust_cholesky` (for a unit matrix it is the factor). -/
noncomputable def exampleEnv : ProcessEnv where
  maxFloat := 10
  minFloat := -10
  robustCholesky := id

/-- Draws of zeros for choice sets with up to two alternatives. -/
noncomputable def exampleSolveEnv : SolveEnv where
  lo := -10
  hi := 10
  base := fun n _ => List.replicate 3 [List.replicate n 0, List.replicate n 0]
  sizes := [0, 1, 2]
  seed := 7

/-- A test of `Processed.Supported`. -/
noncomputable def supportedCheck (m : UserModel) (p : Processed) : Bool :=
  decide (p.choices.choices ≠ []) && decide (p.choices.wExp ≠ []) &&
  (decide (p.choices.choices.length ≠ 1) && decide (denseGrid p.denseSpec ≠ some [])) &&
  decide (0 < p.nPeriods) && decide (p.lags.length ≤ 1) && decide (p.filters = []) &&
  (p.experience.all fun e => (Dict.keys e.1).all fun x => decide (x < 256)) &&
  (p.experience.all fun e => decide (e.2 < 256)) &&
  (p.choices.choices.all fun c => (p.userRestrictions m c).all fun f => textEval.defined (p.columns false) f) &&
  ((denseColumns p.denseSpec).all fun x => !decide (x.toList ∈ p.columns false)) &&
  (p.choices.choices.all fun c => ((p.wage c).toList ++ (p.nonpec c).toList).all fun beta => beta.all fun item =>
    decide (item.1 ∈ p.columns (denseGrid p.denseSpec).isSome)) &&
  (createCore (p.buildSpec textEval).core).any fun core =>
    ((p.buildSpec textEval).denseIndices.all fun d => core.all fun s => (p.stateFrame textEval d s).isSome) &&
    (List.range p.nPeriods).all fun t => core.any fun s => decide (s.period = t)

theorem supported_of_check (m : UserModel) (p : Processed) (h : supportedCheck m p = true) :
    ∃ core, createCore (p.buildSpec textEval).core = some core ∧ p.Supported m textEval core := by
  unfold supportedCheck at h
  simp only [Bool.and_eq_true, decide_eq_true_eq, List.all_eq_true, Bool.not_eq_true', decide_eq_false_iff_not] at h
  obtain ⟨⟨⟨⟨⟨⟨⟨⟨⟨⟨⟨h1, g1⟩, g2⟩, g3⟩, h2⟩, h3⟩, h4⟩, h5⟩, h6⟩, h7⟩, h8⟩, h9⟩ := h
  obtain ⟨core, hcore, h9⟩ := (Option.any_eq_true _ _).1 h9
  simp only [Bool.and_eq_true, List.all_eq_true, List.any_eq_true, decide_eq_true_eq, List.mem_range] at h9
  obtain ⟨h9, g4⟩ := h9
  refine ⟨core, hcore, ⟨h1, g1, fun grid hg => ⟨fun h => g2.2 (h ▸ hg), g2.1⟩, g3, g4, h2, fun f hf => absurd hf (by rw [h3]; exact List.not_mem_nil), h4, h5, fun c hc f hf =>
    textEval_contract.more_columns _ _ f (h6 c hc f hf) (columns_dense p _), Or.inl h6, h7, h9,
    fun c hc beta hb item hi => ?_⟩, Or.inl h3⟩
  refine h8 c hc beta ?_ item hi
  rcases hb with hb | hb
  · simp [hb]
  · simp [hb]

/-- Draws of zeros fit to models with three periods and two choices. -/
theorem exampleSolveEnv_fits (p : Processed) (core : List CoreState) (hn : p.nPeriods = 3)
    (hc : p.choices.choices.length = 2) : exampleSolveEnv.Fits (p.buildSpec textEval) core := by
  refine ⟨fun n seed => ?_, fun d _ s _ => ?_⟩
  · have hper : (p.buildSpec textEval).core.nPeriods = 3 := hn
    rw [hper]
    refine ⟨by simp [exampleSolveEnv], fun arr ha row hr => ?_⟩
    simp only [exampleSolveEnv, List.mem_replicate] at ha
    rw [ha.2] at hr
    simp only [List.mem_cons, List.not_mem_nil, or_false, or_self] at hr
    rw [hr]; simp
  · have hle := List.count_le_length (a := true) (l := (p.buildSpec textEval).choiceSetAt d s)
    rw [choiceSetAt_length, hc] at hle
    have : ∀ n ≤ 2, n ∈ exampleSolveEnv.sizes := by
      intro n hn
      interval_cases n <;> simp [exampleSolveEnv]
    exact this _ hle

/-- A choice without experience and restrictions is allowed. -/
theorem allowed_of_unrestricted (m : UserModel) (p : Processed) (ev : FormulaEval) (d : Option Nat)
    (s : CoreState) (c : Str) (h1 : p.userRestrictions m c = []) (h2 : c ∉ p.choices.wExp) :
    p.Allowed m ev d s c := by
  refine ⟨fun f hf => ?_, fun i start mx e hi => ?_⟩
  · rw [h1] at hf; cases hf
  · exact absurd (List.mem_of_getElem? hi) h2

/-- What else is needed of the processed model. -/
noncomputable def exampleCheck (m : UserModel) (p : Processed) : Bool :=
  supportedCheck m p && decide (p.choices.choices = ["b".toList, "a".toList]) &&
  decide (p.choices.wExp = ["b".toList]) && decide (p.userRestrictions m "a".toList = []) &&
  decide (p.userRestrictions m "b".toList = ["exp_b == 1".toList]) && decide (p.nPeriods = 3) &&
  decide (p.points = 201)

theorem example_hypotheses (m : UserModel) (p : Processed) (h : exampleCheck m p = true) :
    ∃ core, createCore (p.buildSpec textEval).core = some core ∧ p.Supported m textEval core ∧
    exampleSolveEnv.Fits (p.buildSpec textEval) core ∧
    (∀ d ∈ (p.buildSpec textEval).denseIndices, ∀ s ∈ core,
      ∃ c ∈ p.choices.choices, p.Allowed m textEval d s c) ∧
    (p.buildSpec textEval).PointsSuffice core p.discount.delta := by
  unfold exampleCheck at h
  simp only [Bool.and_eq_true, decide_eq_true_eq] at h
  obtain ⟨⟨⟨⟨⟨⟨h1, h2⟩, h3⟩, h4⟩, _⟩, h5⟩, h6⟩ := h
  obtain ⟨core, hcore, hs⟩ := supported_of_check m p h1
  refine ⟨core, hcore, hs, exampleSolveEnv_fits p core h5 (by rw [h2]; rfl), fun d _ s _ => ?_, ?_⟩
  · refine ⟨"a".toList, by rw [h2]; simp, allowed_of_unrestricted m p _ d s _ h4 ?_⟩
    rw [h3]; decide
  · intro _ t _ _
    have : (p.buildSpec textEval).points = 201 := h6
    rw [this]
    omega

theorem exampleUser_check : (processModel exampleEnv exampleUser).any (fun p =>
    exampleCheck exampleUser p && decide (p.exogenous.length = 0) &&
    decide (denseGrid p.denseSpec = some [[0, 0], [0, 1], [1, 0], [1, 1]])) = true := by decide +kernel

/-- The hypotheses of the theorems on models without exogenous processes hold for the model; there are four
dense indices. -/
example : ∃ p core, processModel exampleEnv exampleUser = some p ∧
    createCore (p.buildSpec textEval).core = some core ∧ p.Supported exampleUser textEval core ∧
    p.exogenous = [] ∧ exampleSolveEnv.Fits (p.buildSpec textEval) core ∧
    (∀ d ∈ (p.buildSpec textEval).denseIndices, ∀ s ∈ core,
      ∃ c ∈ p.choices.choices, p.Allowed exampleUser textEval d s c) ∧
    (p.buildSpec textEval).PointsSuffice core p.discount.delta ∧
    denseGrid p.denseSpec = some [[0, 0], [0, 1], [1, 0], [1, 1]] := by
  obtain ⟨p, hp, hcheck⟩ := (Option.any_eq_true _ _).1 exampleUser_check
  simp only [Bool.and_eq_true, decide_eq_true_eq] at hcheck
  obtain ⟨core, h1, h2, h3, h4, h5⟩ := example_hypotheses _ p hcheck.1.1
  exact ⟨p, core, hp, h1, h2, List.length_eq_zero_iff.1 hcheck.1.2, h3, h4, h5, hcheck.2⟩

theorem exampleShocks (m : UserModel) (h : ((m.params.map Prod.fst).all fun k =>
    !mentionsShocks k || shockCategories.any fun c => decide (k.1 = c.toList)) = true) :
    ∀ q ∈ m.params, mentionsShocks q.1 = true → ∃ c ∈ shockCategories, q.1.1 = c.toList := by
  intro q hq hm
  have := List.all_eq_true.1 h q.1 (List.mem_map.2 ⟨q, hq, rfl⟩)
  rw [hm] at this
  simpa using this

/-- The remaining hypotheses hold for the model. -/
example : textEval.Contract ∧ exampleEnv.KeepsShape ∧ (Dict.keys exampleUser.params).Nodup ∧
    (∀ q ∈ exampleUser.params, mentionsShocks q.1 = true → ∃ c ∈ shockCategories, q.1.1 = c.toList) ∧
    firstRandom.Contract :=
  ⟨textEval_contract, fun _ _ h1 h2 => ⟨h1, h2⟩, by decide +kernel, exampleShocks _ (by decide +kernel),
    firstRandom_contract⟩

/-- A model with an observable and an exogenous process which depends on the observable. -/
noncomputable def exogenousUser : UserModel where
  params := [
    (("delta".toList, "delta".toList), 1 / 2),
    (("wage_b".toList, "constant".toList), 1),
    (("wage_b".toList, "able".toList), 2),
    (("nonpec_a".toList, "constant".toList), 4),
    (("nonpec_a".toList, "sick".toList), 5),
    (("wage_b".toList, "exp_b".toList), 2),
    (("shocks_sdcorr".toList, "sd_b".toList), 1),
    (("shocks_sdcorr".toList, "sd_a".toList), 1),
    (("shocks_sdcorr".toList, "corr_a_b".toList), 0),
    (("observable_able_0".toList, "probability".toList), 1 / 2),
    (("observable_able_1".toList, "probability".toList), 1 / 2),
    (("exogenous_process_sick_0".toList, "constant".toList), 1),
    (("exogenous_process_sick_1".toList, "able".toList), 3)]
  nPeriods := 3
  points := 201
  covariates := [("constant".toList, "1".toList)]
  negativeChoiceSet := [("b".toList, ["exp_b == 1".toList])]
  filters := []

theorem exogenousUser_check : (processModel exampleEnv exogenousUser).any (fun p =>
    exampleCheck exogenousUser p && decide (p.exogenous.length = 1) && decide (p.nTypes < 2) &&
    decide (p.observables.map (fun o => (o.1, o.2.length)) =
      [("able".toList, 2)] ++ p.exogenous.map fun o => (o.1, o.2.length)) &&
    (p.exogenous.all fun e => e.2.all fun level => level.2.all fun item => decide (item.1 ∈ p.columns true))) = true := by
  decide +kernel

/-- The hypotheses of `C82_exogenous_models_are_solved_partial` hold for the model. -/
example : ∃ p core, processModel exampleEnv exogenousUser = some p ∧
    createCore (p.buildSpec textEval).core = some core ∧ p.Supported exogenousUser textEval core ∧
    p.exogenous ≠ [] ∧ p.nTypes < 2 ∧ p.observables.map (fun o => (o.1, o.2.length)) =
      [("able".toList, 2)] ++ p.exogenous.map (fun o => (o.1, o.2.length)) ∧
    (∀ e ∈ p.exogenous, ∀ level ∈ e.2, ∀ item ∈ level.2, item.1 ∈ p.columns true) ∧
    exampleSolveEnv.Fits (p.buildSpec textEval) core ∧
    (∀ d ∈ (p.buildSpec textEval).denseIndices, ∀ s ∈ core,
      ∃ c ∈ p.choices.choices, p.Allowed exogenousUser textEval d s c) ∧
    (p.buildSpec textEval).PointsSuffice core p.discount.delta ∧
    (Dict.keys exogenousUser.params).Nodup ∧
    ∀ q ∈ exogenousUser.params, mentionsShocks q.1 = true → ∃ c ∈ shockCategories, q.1.1 = c.toList := by
  obtain ⟨p, hp, hcheck⟩ := (Option.any_eq_true _ _).1 exogenousUser_check
  simp only [Bool.and_eq_true, decide_eq_true_eq, List.all_eq_true] at hcheck
  obtain ⟨⟨⟨⟨g1, g2⟩, g3⟩, g4⟩, g5⟩ := hcheck
  obtain ⟨core, h1, h2, h3, h4, h5⟩ := example_hypotheses _ p g1
  exact ⟨p, core, hp, h1, h2, List.ne_nil_of_length_eq_add_one g2, g3, g4, g5, h3, h4, h5, by decide +kernel,
    exampleShocks _ (by decide +kernel)⟩

end Respy
