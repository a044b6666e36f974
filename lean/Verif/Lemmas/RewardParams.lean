import Verif.Lemmas.SameIndex
import Verif.Props.LaggedChoices
import Verif.Props.Levels
import Verif.Spec.RewardParams

/-!
# Lemmas: parameters which differ in the coefficients of rewards
-/

namespace Respy

variable {θ θ' : Dict (Str × Str) ℝ}

theorem SameOutsideRewards.index (h : SameOutsideRewards θ θ') : θ.map Prod.fst = θ'.map Prod.fst := by
  unfold SameOutsideRewards at h
  induction h with
  | nil => rfl
  | cons hx _ ih => rw [List.map_cons, List.map_cons, hx.1, ih]

theorem not_reward_of (c : Str) (h1 : ¬ "wage_".toList <+: c) (h2 : ¬ "nonpec_".toList <+: c) :
    ¬ IsRewardCategory c := fun h => h.1.elim h1 h2

theorem not_reward_literal {c : Str}
    (h : (!"wage_".toList.isPrefixOf c && !"nonpec_".toList.isPrefixOf c) = true) : ¬ IsRewardCategory c := by
  rw [Bool.and_eq_true, Bool.not_eq_true', Bool.not_eq_true'] at h
  refine not_reward_of c ?_ ?_
  · rw [← List.isPrefixOf_iff_prefix, h.1]; exact Bool.false_ne_true
  · rw [← List.isPrefixOf_iff_prefix, h.2]; exact Bool.false_ne_true

theorem SameOutsideRewards.get? (h : SameOutsideRewards θ θ') (k : Str × Str) (hk : ¬ IsRewardCategory k.1) :
    Dict.get? θ k = Dict.get? θ' k := by
  unfold SameOutsideRewards at h
  induction h with
  | nil => rfl
  | @cons x y l l' hx _ ih =>
    unfold Dict.get?
    by_cases hxk : x.1 = k
    · rw [if_pos hxk, if_pos (hx.1 ▸ hxk), hx.2 (hxk ▸ hk)]
    · rw [if_neg hxk, if_neg (hx.1 ▸ hxk)]
      exact ih

theorem SameOutsideRewards.filterMap {β : Type _} (h : SameOutsideRewards θ θ')
    (f : (Str × Str) × ℝ → Option β) (hf : ∀ x y, x.1 = y.1 → IsRewardCategory x.1.1 → f x = none ∧ f y = none) :
    θ.filterMap f = θ'.filterMap f := by
  unfold SameOutsideRewards at h
  induction h with
  | nil => rfl
  | @cons x y l l' hx _ ih =>
    by_cases hr : IsRewardCategory x.1.1
    · obtain ⟨h1, h2⟩ := hf x y hx.1 hr
      rw [List.filterMap_cons_none h1, List.filterMap_cons_none h2, ih]
    · rw [show x = y from Prod.ext hx.1 (hx.2 hr), List.filterMap_cons, List.filterMap_cons, ih]

theorem SameOutsideRewards.filter (h : SameOutsideRewards θ θ') (f : Str → Bool)
    (hf : ∀ c, f c = true → ¬ IsRewardCategory c) :
    (θ.filter fun x => f x.1.1) = θ'.filter fun x => f x.1.1 := by
  unfold SameOutsideRewards at h
  induction h with
  | nil => rfl
  | @cons x y l l' hx _ ih =>
    rw [List.filter_cons, List.filter_cons, ← hx.1, ih]
    cases hc : f x.1.1 with
    | false => rfl
    | true => rw [if_pos rfl, if_pos rfl, show x = y from Prod.ext hx.1 (hx.2 (hf _ hc))]

theorem SameOutsideRewards.hasCategory (h : SameOutsideRewards θ θ') (c : String) :
    hasCategory θ c = hasCategory θ' c :=
  sameKeys_any h.index fun k => decide (k.1 = c.toList)

theorem SameOutsideRewards.ofCategory (h : SameOutsideRewards θ θ') (c : String) (hc : ¬ IsRewardCategory c.toList) :
    ofCategory θ c = ofCategory θ' c := by
  unfold Respy.ofCategory
  rw [h.filter (fun x => decide (x = c.toList)) fun x hx => by rw [of_decide_eq_true hx]; exact hc]

theorem SameOutsideRewards.parseShocks (h : SameOutsideRewards θ θ') : parseShocks θ = parseShocks θ' := by
  unfold Respy.parseShocks
  dsimp only
  rw [h.ofCategory "shocks_sdcorr" (not_reward_literal (by decide +kernel)),
    h.ofCategory "shocks_cov" (not_reward_literal (by decide +kernel)),
    h.ofCategory "shocks_chol" (not_reward_literal (by decide +kernel)), h.hasCategory, h.hasCategory, h.hasCategory,
    show (fun c => Respy.hasCategory θ c) = fun c => Respy.hasCategory θ' c from funext h.hasCategory]

theorem SameOutsideRewards.parseDiscount (h : SameOutsideRewards θ θ') : parseDiscount θ = parseDiscount θ' := by
  unfold Respy.parseDiscount
  rw [h.get? ("delta".toList, "delta".toList) (not_reward_literal (by decide +kernel)),
    h.get? ("beta".toList, "beta".toList) (not_reward_literal (by decide +kernel))]

theorem SameOutsideRewards.parseMeasurement (h : SameOutsideRewards θ θ') (choices wWage : List Str) :
    parseMeasurementErrors choices wWage θ = parseMeasurementErrors choices wWage θ' := by
  unfold parseMeasurementErrors
  rw [h.hasCategory, show (fun l => Dict.get? θ ("meas_error".toList, l)) =
    fun l => Dict.get? θ' ("meas_error".toList, l) from funext fun l =>
      h.get? _ (not_reward_literal (c := "meas_error".toList) (by decide +kernel))]

/-- A category of rewards is not matched by a pattern which begins with another letter. -/
theorem IsRewardCategory.extract {c : Str} (h : IsRewardCategory c) (x : Char) (pre : Str) (cls : Char → Bool)
    (hx : x ≠ 'w' ∧ x ≠ 'n') : extract (x :: pre) cls c = none := by
  refine extract_word_none _ cls c (fun y hy => isWordChar_of_mem y (h.2.1 y hy)) (by simp) ?_
  rintro ⟨t, rfl⟩
  rcases h.1 with ⟨t', ht⟩ | ⟨t', ht⟩
  · have : some 'w' = some x := congrArg List.head? ht
    exact hx.1 (Option.some.inj this).symm
  · have : some 'n' = some x := congrArg List.head? ht
    exact hx.2 (Option.some.inj this).symm

theorem SameOutsideRewards.levelParams (h : SameOutsideRewards θ θ') (x : Char) (keyword name : Str)
    (hx : x ≠ 'w' ∧ x ≠ 'n') : levelParams (x :: keyword) name θ = levelParams (x :: keyword) name θ' := by
  unfold Respy.levelParams
  rw [h.filterMap]
  intro a b hab hr
  rw [← hab, List.cons_append, List.cons_append, List.cons_append, hr.extract x _ _ hx]
  exact ⟨rfl, rfl⟩

theorem SameOutsideRewards.parseLevels (h : SameOutsideRewards θ θ') (maxFloat : ℝ) (x : Char) (keyword : Str)
    (names : List Str) (hx : x ≠ 'w' ∧ x ≠ 'n') :
    parseLevels maxFloat (x :: keyword) θ names = parseLevels maxFloat (x :: keyword) θ' names := by
  unfold Respy.parseLevels
  simp only [h.levelParams x keyword _ hx]

theorem SameOutsideRewards.parseExogenous (h : SameOutsideRewards θ θ') (maxFloat : ℝ) :
    parseExogenous maxFloat θ = parseExogenous maxFloat θ' := by
  unfold Respy.parseExogenous
  rw [show (θ.map fun p => p.1.1) = θ'.map fun p => p.1.1 by
    simpa [Function.comp_def] using congrArg (List.map Prod.fst) h.index]
  have : ∀ names, Respy.parseLevels maxFloat "exogenous_process".toList θ names =
      Respy.parseLevels maxFloat "exogenous_process".toList θ' names :=
    fun names => h.parseLevels maxFloat 'e' _ names (by decide)
  simp only [this]

theorem SameOutsideRewards.parseObservables (h : SameOutsideRewards θ θ') (maxFloat : ℝ)
    (exogenous : Dict Str LevelDict) :
    parseObservables maxFloat θ exogenous = parseObservables maxFloat θ' exogenous := by
  unfold Respy.parseObservables
  rw [show (θ.map fun p => p.1.1) = θ'.map fun p => p.1.1 by
    simpa [Function.comp_def] using congrArg (List.map Prod.fst) h.index]
  have : ∀ names, Respy.parseLevels maxFloat "observable".toList θ names =
      Respy.parseLevels maxFloat "observable".toList θ' names :=
    fun names => h.parseLevels maxFloat 'o' _ names (by decide)
  simp only [this]

theorem SameOutsideRewards.parseExperience (h : SameOutsideRewards θ θ') (maxFloat : ℝ) (nPeriods : Nat) :
    parseExperience maxFloat nPeriods θ = parseExperience maxFloat nPeriods θ' := by
  funext c
  unfold Respy.parseExperience
  have : experienceParams c θ = experienceParams c θ' := by
    unfold experienceParams
    refine h.filterMap _ ?_
    intro a b hab hr
    have := hr.extract 'i' ("nitial_exp_".toList ++ c ++ ['_']) Char.isDigit (by decide)
    have : extract ("initial_exp_".toList ++ c ++ ['_']) Char.isDigit a.1.1 = none := this
    rw [← hab, this]
    exact ⟨rfl, rfl⟩
  rw [this, h.get? ("maximum_exp".toList, c) (not_reward_literal (c := "maximum_exp".toList) (by decide +kernel))]

theorem SameOutsideRewards.parseTypes (h : SameOutsideRewards θ θ') (maxFloat : ℝ) :
    parseTypes maxFloat θ = parseTypes maxFloat θ' := by
  unfold Respy.parseTypes
  have hrows : (θ.filterMap fun p => (typeIndex p.1.1).map fun i => (⟨i, p.1.2, p.2⟩ : GroupParam Nat)) =
      θ'.filterMap fun p => (typeIndex p.1.1).map fun i => (⟨i, p.1.2, p.2⟩ : GroupParam Nat) := by
    refine h.filterMap _ ?_
    intro a b hab hr
    have := hr.extract 't' "ype_".toList Char.isDigit (by decide)
    have : extract "type_".toList Char.isDigit a.1.1 = none := this
    unfold typeIndex
    rw [← hab, this]
    exact ⟨rfl, rfl⟩
  have h1 := sameKeys_any h.index fun k => decide (k.1 = "type_0".toList)
  have h2 := sameKeys_any h.index fun k => decide (k.2 = "type_0".toList)
  rw [h1, h2, h.index, hrows]

theorem SameOutsideRewards.parseLags (h : SameOutsideRewards θ θ') (maxFloat minFloat : ℝ) (choices : List Str)
    (covariates : Dict Str Str) : parseLaggedChoices maxFloat minFloat choices covariates θ =
      parseLaggedChoices maxFloat minFloat choices covariates θ' := by
  have : ∀ lag, lagParams lag θ = lagParams lag θ' := by
    intro lag
    unfold lagParams
    refine h.filterMap _ ?_
    intro a b hab hr
    have hnil : findAllPlain ("lagged_choice_".toList ++ Nat.toDigits 10 lag ++ ['_']) isNameChar a.1.1 = [] := by
      rw [List.eq_nil_iff_forall_not_mem]
      intro g hg
      refine hr.2.2 (List.IsInfix.trans ?_ (findAllPlainFuel_sound _ _ _ _ _ hg).1)
      exact ⟨[], Nat.toDigits 10 lag ++ ['_'] ++ g, by simp⟩
    rw [← hab, hnil]
    exact ⟨rfl, rfl⟩
  unfold parseLaggedChoices lagDistribution
  simp only [this]

/-- Parameters which differ in the coefficients of rewards are processed to models which differ in these
coefficients. -/
theorem SameOutsideRewards.processModel (h : SameOutsideRewards θ θ') (env : ProcessEnv) (m : UserModel) :
    processModel env { m with params := θ' } = (processModel env { m with params := θ }).map fun q =>
      { q with
        wage := fun c => choiceParameters θ' ("wage_".toList ++ c)
        nonpec := fun c => choiceParameters θ' ("nonpec_".toList ++ c) } := by
  have main : Option.Rel (fun q q' => q' = { q with
      wage := fun c => choiceParameters θ' ("wage_".toList ++ c)
      nonpec := fun c => choiceParameters θ' ("nonpec_".toList ++ c) }) (Respy.processModel env { m with params := θ })
      (Respy.processModel env { m with params := θ' }) := by
    unfold Respy.processModel
    dsimp only
    rw [← sameKeys_names h.index, ← h.index, ← h.parseDiscount, ← h.parseExogenous, ← h.parseExperience,
      ← h.parseShocks, ← h.parseTypes]
    refine optionRel_bind (optionRel_refl _) ?_
    rintro _ _ rfl
    refine optionRel_bind (optionRel_refl _) ?_
    rintro _ _ rfl
    refine optionRel_bind (optionRel_refl _) ?_
    rintro _ _ rfl
    rw [← h.parseObservables]
    refine optionRel_bind (optionRel_refl _) ?_
    rintro _ _ rfl
    refine optionRel_bind (optionRel_refl _) ?_
    rintro _ _ rfl
    refine optionRel_bind (optionRel_refl _) ?_
    rintro _ _ rfl
    rw [← h.parseMeasurement]
    refine optionRel_bind (optionRel_refl _) ?_
    rintro _ _ rfl
    refine optionRel_bind (optionRel_refl _) ?_
    rintro _ _ rfl
    rw [← h.parseLags]
    refine optionRel_bind (optionRel_refl _) ?_
    rintro _ _ rfl
    refine optionRel_bind (optionRel_refl _) ?_
    rintro _ _ rfl
    refine optionRel_bind (optionRel_refl _) ?_
    rintro _ _ rfl
    rw [← validateShocks_sameKeys h.index]
    split
    · exact .some rfl
    · exact .none
  generalize Respy.processModel env { m with params := θ } = x at main
  generalize Respy.processModel env { m with params := θ' } = y at main
  cases main with
  | none => rfl
  | some h => rw [h]; rfl

end Respy
