import Verif.Lemmas.SameIndex
import Verif.Props.LaggedChoices
import Verif.Props.Levels
import Verif.Spec.DeltaParams

/-!
# Lemmas: parameters which differ in the discount factor
-/

namespace Respy

variable {θ θ' : Dict (Str × Str) ℝ}

theorem SameOutsideDelta.index (h : SameOutsideDelta θ θ') : θ.map Prod.fst = θ'.map Prod.fst := by
  unfold SameOutsideDelta at h
  induction h with
  | nil => rfl
  | cons hx _ ih => rw [List.map_cons, List.map_cons, hx.1, ih]

theorem SameOutsideDelta.get? (h : SameOutsideDelta θ θ') (k : Str × Str) (hk : k.1 ≠ "delta".toList) :
    Dict.get? θ k = Dict.get? θ' k := by
  unfold SameOutsideDelta at h
  induction h with
  | nil => rfl
  | @cons x y l l' hx _ ih =>
    unfold Dict.get?
    by_cases hxk : x.1 = k
    · rw [if_pos hxk, if_pos (hx.1 ▸ hxk), hx.2 (hxk ▸ hk)]
    · rw [if_neg hxk, if_neg (hx.1 ▸ hxk)]
      exact ih

theorem SameOutsideDelta.filterMap {β : Type _} (h : SameOutsideDelta θ θ')
    (f : (Str × Str) × ℝ → Option β) (hf : ∀ x y, x.1 = y.1 → x.1.1 = "delta".toList → f x = none ∧ f y = none) :
    θ.filterMap f = θ'.filterMap f := by
  unfold SameOutsideDelta at h
  induction h with
  | nil => rfl
  | @cons x y l l' hx _ ih =>
    by_cases hr : x.1.1 = "delta".toList
    · obtain ⟨h1, h2⟩ := hf x y hx.1 hr
      rw [List.filterMap_cons_none h1, List.filterMap_cons_none h2, ih]
    · rw [show x = y from Prod.ext hx.1 (hx.2 hr), List.filterMap_cons, List.filterMap_cons, ih]

theorem SameOutsideDelta.filter (h : SameOutsideDelta θ θ') (f : Str → Bool)
    (hf : ∀ c, f c = true → c ≠ "delta".toList) :
    (θ.filter fun x => f x.1.1) = θ'.filter fun x => f x.1.1 := by
  unfold SameOutsideDelta at h
  induction h with
  | nil => rfl
  | @cons x y l l' hx _ ih =>
    rw [List.filter_cons, List.filter_cons, ← hx.1, ih]
    cases hc : f x.1.1 with
    | false => rfl
    | true => rw [if_pos rfl, if_pos rfl, show x = y from Prod.ext hx.1 (hx.2 (hf _ hc))]

theorem SameOutsideDelta.hasCategory (h : SameOutsideDelta θ θ') (c : String) :
    hasCategory θ c = hasCategory θ' c :=
  sameKeys_any h.index fun k => decide (k.1 = c.toList)

theorem SameOutsideDelta.ofCategory (h : SameOutsideDelta θ θ') (c : String) (hc : c.toList ≠ "delta".toList) :
    ofCategory θ c = ofCategory θ' c := by
  unfold Respy.ofCategory
  rw [h.filter (fun x => decide (x = c.toList)) fun x hx => by rw [of_decide_eq_true hx]; exact hc]

theorem SameOutsideDelta.parseShocks (h : SameOutsideDelta θ θ') : parseShocks θ = parseShocks θ' := by
  unfold Respy.parseShocks
  dsimp only
  rw [h.ofCategory "shocks_sdcorr" (by decide +kernel),
    h.ofCategory "shocks_cov" (by decide +kernel),
    h.ofCategory "shocks_chol" (by decide +kernel), h.hasCategory, h.hasCategory, h.hasCategory,
    show (fun c => Respy.hasCategory θ c) = fun c => Respy.hasCategory θ' c from funext h.hasCategory]

theorem SameOutsideDelta.parseMeasurement (h : SameOutsideDelta θ θ') (choices wWage : List Str) :
    parseMeasurementErrors choices wWage θ = parseMeasurementErrors choices wWage θ' := by
  unfold parseMeasurementErrors
  rw [h.hasCategory, show (fun l => Dict.get? θ ("meas_error".toList, l)) =
    fun l => Dict.get? θ' ("meas_error".toList, l) from funext fun l =>
      h.get? _ (show "meas_error".toList ≠ "delta".toList by decide +kernel)]

/-- The category `delta` is not matched by a pattern which begins with another letter. -/
theorem delta_extract (x : Char) (pre : Str) (cls : Char → Bool) (hx : x ≠ 'd') :
    extract (x :: pre) cls "delta".toList = none := by
  refine extract_word_none _ cls _ (by decide +kernel) (by simp) ?_
  rintro ⟨t, ht⟩
  have : some x = some 'd' := congrArg List.head? ht
  exact hx (Option.some.inj this)

theorem SameOutsideDelta.levelParams (h : SameOutsideDelta θ θ') (x : Char) (keyword name : Str)
    (hx : x ≠ 'd') : levelParams (x :: keyword) name θ = levelParams (x :: keyword) name θ' := by
  unfold Respy.levelParams
  rw [h.filterMap]
  intro a b hab hr
  rw [← hab, hr, List.cons_append, List.cons_append, List.cons_append, delta_extract x _ _ hx]
  exact ⟨rfl, rfl⟩

theorem SameOutsideDelta.parseLevels (h : SameOutsideDelta θ θ') (maxFloat : ℝ) (x : Char) (keyword : Str)
    (names : List Str) (hx : x ≠ 'd') :
    parseLevels maxFloat (x :: keyword) θ names = parseLevels maxFloat (x :: keyword) θ' names := by
  unfold Respy.parseLevels
  simp only [h.levelParams x keyword _ hx]

theorem SameOutsideDelta.parseExogenous (h : SameOutsideDelta θ θ') (maxFloat : ℝ) :
    parseExogenous maxFloat θ = parseExogenous maxFloat θ' := by
  unfold Respy.parseExogenous
  rw [show (θ.map fun p => p.1.1) = θ'.map fun p => p.1.1 by
    simpa [Function.comp_def] using congrArg (List.map Prod.fst) h.index]
  have : ∀ names, Respy.parseLevels maxFloat "exogenous_process".toList θ names =
      Respy.parseLevels maxFloat "exogenous_process".toList θ' names :=
    fun names => h.parseLevels maxFloat 'e' _ names (by decide)
  simp only [this]

theorem SameOutsideDelta.parseObservables (h : SameOutsideDelta θ θ') (maxFloat : ℝ)
    (exogenous : Dict Str LevelDict) :
    parseObservables maxFloat θ exogenous = parseObservables maxFloat θ' exogenous := by
  unfold Respy.parseObservables
  rw [show (θ.map fun p => p.1.1) = θ'.map fun p => p.1.1 by
    simpa [Function.comp_def] using congrArg (List.map Prod.fst) h.index]
  have : ∀ names, Respy.parseLevels maxFloat "observable".toList θ names =
      Respy.parseLevels maxFloat "observable".toList θ' names :=
    fun names => h.parseLevels maxFloat 'o' _ names (by decide)
  simp only [this]

theorem SameOutsideDelta.parseExperience (h : SameOutsideDelta θ θ') (maxFloat : ℝ) (nPeriods : Nat) :
    parseExperience maxFloat nPeriods θ = parseExperience maxFloat nPeriods θ' := by
  funext c
  unfold Respy.parseExperience
  have : experienceParams c θ = experienceParams c θ' := by
    unfold experienceParams
    refine h.filterMap _ ?_
    intro a b hab hr
    have := delta_extract 'i' ("nitial_exp_".toList ++ c ++ ['_']) Char.isDigit (by decide)
    have : extract ("initial_exp_".toList ++ c ++ ['_']) Char.isDigit a.1.1 = none := by rw [hr]; exact this
    rw [← hab, this]
    exact ⟨rfl, rfl⟩
  rw [this, h.get? ("maximum_exp".toList, c) (show "maximum_exp".toList ≠ "delta".toList by decide +kernel)]

theorem SameOutsideDelta.parseTypes (h : SameOutsideDelta θ θ') (maxFloat : ℝ) :
    parseTypes maxFloat θ = parseTypes maxFloat θ' := by
  unfold Respy.parseTypes
  have hrows : (θ.filterMap fun p => (typeIndex p.1.1).map fun i => (⟨i, p.1.2, p.2⟩ : GroupParam Nat)) =
      θ'.filterMap fun p => (typeIndex p.1.1).map fun i => (⟨i, p.1.2, p.2⟩ : GroupParam Nat) := by
    refine h.filterMap _ ?_
    intro a b hab hr
    have := delta_extract 't' "ype_".toList Char.isDigit (by decide)
    have : extract "type_".toList Char.isDigit a.1.1 = none := by rw [hr]; exact this
    unfold typeIndex
    rw [← hab, this]
    exact ⟨rfl, rfl⟩
  have h1 := sameKeys_any h.index fun k => decide (k.1 = "type_0".toList)
  have h2 := sameKeys_any h.index fun k => decide (k.2 = "type_0".toList)
  rw [h1, h2, h.index, hrows]

theorem SameOutsideDelta.parseLags (h : SameOutsideDelta θ θ') (maxFloat minFloat : ℝ) (choices : List Str)
    (covariates : Dict Str Str) : parseLaggedChoices maxFloat minFloat choices covariates θ =
      parseLaggedChoices maxFloat minFloat choices covariates θ' := by
  have : ∀ lag, lagParams lag θ = lagParams lag θ' := by
    intro lag
    unfold lagParams
    refine h.filterMap _ ?_
    intro a b hab hr
    have hnil : findAllPlain ("lagged_choice_".toList ++ Nat.toDigits 10 lag ++ ['_']) isNameChar a.1.1 = [] := by
      rw [List.eq_nil_iff_forall_not_mem]
      intro g hg
      rw [hr] at hg
      refine absurd (List.IsInfix.trans ?_ (findAllPlainFuel_sound _ _ _ _ _ hg).1 :
        "lagged_choice_".toList <:+: "delta".toList) (by decide +kernel)
      exact ⟨[], Nat.toDigits 10 lag ++ ['_'] ++ g, by simp⟩
    rw [← hab, hnil]
    exact ⟨rfl, rfl⟩
  unfold parseLaggedChoices lagDistribution
  simp only [this]

theorem SameOutsideDelta.choiceParameters (h : SameOutsideDelta θ θ') (cat : Str) (hc : cat ≠ "delta".toList) :
    choiceParameters θ cat = choiceParameters θ' cat := by
  unfold Respy.choiceParameters
  rw [h.filter (fun x => decide (x = cat)) fun x hx => by rw [of_decide_eq_true hx]; exact hc,
    sameKeys_any h.index fun k => decide (k.1 = cat)]

theorem reward_ne_delta (c : Str) :
    "wage_".toList ++ c ≠ "delta".toList ∧ "nonpec_".toList ++ c ≠ "delta".toList := by
  constructor <;> intro h <;> exact absurd (congrArg List.head? h) (by simp)

/-- Parameters which differ in the discount factor are processed to models which differ in the discount factor. -/
theorem SameOutsideDelta.processModel (h : SameOutsideDelta θ θ') (env : ProcessEnv) (m : UserModel) (q : Processed)
    (hq : Respy.processModel env { m with params := θ } = some q) (disc : Discount ℝ)
    (hdisc : parseDiscount θ' = some disc) :
    Respy.processModel env { m with params := θ' } = some { q with discount := disc } := by
  have main : Option.Rel (fun q q' => q' = { q with discount := disc }) (Respy.processModel env { m with params := θ })
      (Respy.processModel env { m with params := θ' }) := by
    have hsome : ∃ d, parseDiscount θ = some d := by
      unfold Respy.processModel at hq
      simp only [Option.bind_eq_bind, Option.bind_eq_some_iff] at hq
      obtain ⟨_, _, d, hd, _⟩ := hq
      exact ⟨d, hd⟩
    obtain ⟨d0, hd0⟩ := hsome
    unfold Respy.processModel
    dsimp only
    rw [← sameKeys_names h.index, ← h.index, ← h.parseExogenous, ← h.parseExperience,
      ← h.parseShocks, ← h.parseTypes, hdisc, hd0]
    refine optionRel_bind (optionRel_refl _) ?_
    rintro _ _ rfl
    simp only [Option.bind_eq_bind, Option.bind_some]
    refine optionRel_bind (optionRel_refl _) ?_
    rintro _ _ rfl
    rw [← h.parseObservables]
    refine optionRel_bind (optionRel_refl _) ?_
    rintro _ _ rfl
    refine optionRel_bind (optionRel_refl _) ?_
    rintro _ _ rfl
    refine optionRel_bind (optionRel_refl _) ?_
    rintro _ _ rfl
    rw [← h.parseMeasurement]
    refine optionRel_bind (optionRel_refl _) ?_
    rintro _ _ rfl
    refine optionRel_bind (optionRel_refl _) ?_
    rintro _ _ rfl
    rw [← h.parseLags]
    refine optionRel_bind (optionRel_refl _) ?_
    rintro _ _ rfl
    refine optionRel_bind (optionRel_refl _) ?_
    rintro _ _ rfl
    refine optionRel_bind (optionRel_refl _) ?_
    rintro _ _ rfl
    rw [← validateShocks_sameKeys h.index]
    split
    · refine .some ?_
      simp only [h.choiceParameters _ (reward_ne_delta _).1, h.choiceParameters _ (reward_ne_delta _).2]
    · exact .none
  rw [hq] at main
  generalize Respy.processModel env { m with params := θ' } = y at main ⊢
  cases main with
  | some h => rw [h]

theorem setDelta_same (delta : ℝ) (θ : Dict (Str × Str) ℝ) : SameOutsideDelta θ (setDelta delta θ) := by
  unfold SameOutsideDelta setDelta
  rw [List.forall₂_map_right_iff, List.forall₂_same]
  intro y _
  refine ⟨rfl, fun hn => ?_⟩
  dsimp only
  rw [if_neg hn]

/-- The discount factor of the parameters is replaced. -/
theorem setDelta_parse (delta : ℝ) (θ : Dict (Str × Str) ℝ) (d : Discount ℝ) (hd : parseDiscount θ = some d) :
    parseDiscount (setDelta delta θ) = some ⟨delta, d.beta, d.beta * delta⟩ := by
  have hget : ∀ l : Dict (Str × Str) ℝ, Dict.get? (setDelta delta l) ("delta".toList, "delta".toList) =
      (Dict.get? l ("delta".toList, "delta".toList)).map fun _ => delta := by
    intro l
    induction l with
    | nil => rfl
    | cons x l ih =>
      unfold setDelta at ih ⊢
      rw [List.map_cons]
      unfold Dict.get?
      by_cases hx : x.1 = ("delta".toList, "delta".toList)
      · rw [if_pos hx, if_pos hx, hx, if_pos rfl, Option.map_some]
      · rw [if_neg hx, if_neg hx]
        exact ih
  unfold parseDiscount at hd ⊢
  rw [hget, ← (setDelta_same delta θ).get? ("beta".toList, "beta".toList) (by decide +kernel)]
  simp only [Option.bind_eq_bind, Option.bind_eq_some_iff, Option.pure_def, Option.some.injEq] at hd ⊢
  obtain ⟨x, hx, rfl⟩ := hd
  exact ⟨delta, by rw [hx]; rfl, rfl⟩

end Respy
