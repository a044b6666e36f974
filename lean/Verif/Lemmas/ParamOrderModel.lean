import Verif.Lemmas.ParamOrder
import Verif.Lemmas.SolveFunction
import Verif.Model.ParameterFunctions

/-!
# Models which differ in the order of coefficients have the same solution and the same samples

Auxiliary results for C95.
-/

namespace Respy

/-! ### Processing -/

theorem SameCoefficients.map_keys {L β : Type _} {d d' : Dict L (List (Str × ℝ))} (h : SameCoefficients d d')
    {f : L × List (Str × ℝ) → β} (hf : ∀ x y : L × List (Str × ℝ), x.1 = y.1 → f x = f y) : d.map f = d'.map f := by
  induction h with
  | nil => rfl
  | cons hab _ ih => rw [List.map_cons, List.map_cons, ih, hf _ _ hab.1]

theorem SameLevels.textLevels {d d' : Dict Str LevelDict} (h : SameLevels d d') : textLevels d = textLevels d' := by
  unfold Respy.textLevels
  induction h with
  | nil => rfl
  | @cons a b as bs hab _ ih =>
    rw [List.map_cons, List.map_cons, ih, hab.1]
    congr 2
    exact hab.2.map_keys fun x y hxy => by rw [hxy]

theorem SameLevels.lengths {d d' : Dict Str LevelDict} (h : SameLevels d d') :
    (d.map fun o => (o.1, o.2.length)) = d'.map fun o => (o.1, o.2.length) := by
  induction h with
  | nil => rfl
  | @cons a b as bs hab _ ih => rw [List.map_cons, List.map_cons, ih, hab.1, hab.2.length]

theorem defaultText_perm (nPeriods : Nat) (wExp : List Str) {e e' : List (Dict Nat (List (Str × ℝ)) × Nat)}
    (h : List.Forall₂ (fun e e' => SameCoefficients e.1 e'.1 ∧ e.2 = e'.2) e e') :
    defaultText nPeriods (wExp.zip e) = defaultText nPeriods (wExp.zip e') := by
  funext c
  have hr : Option.Rel (fun a b => SameCoefficients a.1 b.1 ∧ a.2 = b.2) (Dict.get? (wExp.zip e) c)
      (Dict.get? (wExp.zip e') c) := by
    induction h generalizing wExp with
    | nil => cases wExp <;> exact .none
    | @cons a b as bs hab _ ih =>
      cases wExp with
      | nil => exact .none
      | cons w ws =>
        rw [List.zip_cons_cons, List.zip_cons_cons, Dict.get?, Dict.get?]
        split
        · exact .some hab
        · exact ih ws
  unfold defaultText
  revert hr
  generalize Dict.get? (wExp.zip e) c = x
  generalize Dict.get? (wExp.zip e') c = y
  intro hr
  cases hr with
  | none => rfl
  | some hr =>
    rename_i a b
    obtain ⟨a1, a2⟩ := a
    obtain ⟨b1, b2⟩ := b
    obtain ⟨hr, h2⟩ := hr
    dsimp only at hr h2
    subst h2
    simp only [hr.keys]

theorem removeIrrelevant_perm (covariates : Dict Str Str) {names names' : List Str} (h : names.Perm names') :
    removeIrrelevant covariates names = removeIrrelevant covariates names' := by
  unfold removeIrrelevant
  congr 1
  exact List.filter_congr fun kv _ => by simp only [h.mem_iff]

theorem validateShocks_same {params params' : Dict (Str × Str) ℝ} (h : List.Perm params params')
    (hs : shockRows params = shockRows params') (choices : List Str) :
    validateShocks params choices = validateShocks params' choices := by
  rw [Bool.eq_iff_iff, validateShocks_perm h, validateShocks_perm (List.Perm.refl _), hs]

/-- Models whose parameters have another order, except for the shocks. -/
theorem processModel_perm (env : ProcessEnv) (m : UserModel) {params' : Dict (Str × Str) ℝ}
    (h : List.Perm m.params params') (hnd : (Dict.keys m.params).Nodup) (hpos : PositiveProbabilities m.params)
    (hs : shockRows m.params = shockRows params') :
    Option.Rel Processed.SameUpToOrder (processModel env m) (processModel env { m with params := params' }) := by
  unfold processModel
  simp only [removeIrrelevant_perm m.covariates (h.map fun p => p.1.2)]
  refine optionRel_bind (optionRel_refl _) ?_
  rintro covs _ rfl
  rw [parseDiscount_perm h hnd]
  refine optionRel_bind (optionRel_refl _) ?_
  rintro disc _ rfl
  refine optionRel_bind (parseExogenous_perm h hpos env.maxFloat) fun ex ex' hex => ?_
  refine optionRel_bind (parseObservables_perm h hpos env.maxFloat hex) fun ob ob' hob => ?_
  rw [parseChoices_perm (h.map Prod.fst) covs]
  refine optionRel_bind (optionRel_mapM' fun c _ => parseExperience_perm h hnd hpos env.maxFloat m.nPeriods c)
    fun exper exper' hexper => ?_
  rw [parseShocks_perm h hs]
  refine optionRel_bind (optionRel_refl _) ?_
  rintro sh _ rfl
  rw [parseMeasurementErrors_perm h hnd]
  refine optionRel_bind (optionRel_refl _) ?_
  rintro me _ rfl
  refine optionRel_bind (parseTypes_perm h hpos env.maxFloat) fun ty ty' hty => ?_
  refine optionRel_bind (parseLaggedChoices_perm h hpos env.maxFloat env.minFloat _ _) fun la la' hla => ?_
  have hlen : la.length = la'.length := hla.length_eq
  simp only [hob.textLevels, defaultText_perm _ _ hexper, hty.1, hlen, hob.keys, validateShocks_same h hs]
  refine optionRel_bind (optionRel_refl _) ?_
  rintro fi _ rfl
  refine optionRel_bind (optionRel_refl _) ?_
  rintro gr _ rfl
  split
  · exact .some ⟨rfl, rfl, rfl, hex, hob, rfl, fun c => choiceParameters_perm h _, fun c => choiceParameters_perm h _,
      hexper, rfl, rfl, rfl, hty.2, hla, rfl, rfl, rfl⟩
  · exact .none

/-! ### Linear indices -/

theorem pandasDot_perm {K : Type _} [Field K] [LinearOrder K] (row : StateRow K) {beta beta' : List (Str × K)}
    (h : beta.Perm beta') : pandasDot row beta = pandasDot row beta' := by
  unfold pandasDot
  generalize (0 : K) = acc
  induction h generalizing acc with
  | nil => rfl
  | cons x _ ih =>
    rw [List.foldlM_cons, List.foldlM_cons]
    cases row x.1 with
    | none => rfl
    | some v => exact ih _
  | swap x y l =>
    simp only [List.foldlM_cons]
    cases row x.1 with
    | none => cases row y.1 <;> rfl
    | some v => cases row y.1 with
      | none => rfl
      | some w =>
        simp only [Option.map_some, Option.bind_eq_bind, Option.bind_some]
        rw [show acc + y.2 * w + x.2 * v = acc + x.2 * v + y.2 * w by ring]
  | trans _ _ ih ih' => rw [ih, ih']

/-- Coefficients of rewards in another order. -/
structure LinearRewards.SameUpToOrder {K : Type _} (rp rp' : LinearRewards K) : Prop where
  wage : ∀ a, Option.Rel List.Perm (rp.wage a) (rp'.wage a)
  nonpec : ∀ a, Option.Rel List.Perm (rp.nonpec a) (rp'.nonpec a)

section
variable {K : Type _} [Field K] [LinearOrder K]

theorem choiceRewards_perm (exp : K → K) {rp rp' : LinearRewards K} (h : rp.SameUpToOrder rp') :
    choiceRewards exp rp = choiceRewards exp rp' := by
  have h1 : wageEntry exp rp = wageEntry exp rp' := by
    funext row a
    unfold wageEntry
    have := h.wage a
    revert this
    generalize rp.wage a = x
    generalize rp'.wage a = y
    intro hxy
    cases hxy with
    | none => rfl
    | some hp => simp only [pandasDot_perm row hp]
  have h2 : nonpecEntry rp = nonpecEntry rp' := by
    funext row a
    unfold nonpecEntry
    have := h.nonpec a
    revert this
    generalize rp.nonpec a = x
    generalize rp'.nonpec a = y
    intro hxy
    cases hxy with
    | none => rfl
    | some hp => exact pandasDot_perm row hp
  unfold choiceRewards
  rw [h1, h2]

theorem solveModel_perm (inp : SolveInput K) {rp rp' : LinearRewards K} (h : rp.SameUpToOrder rp') (b : BuildSpec)
    (transitions : Built → Option (Dict Nat (List (Nat × List K)))) (interp : Interpolation K) (seed : Nat)
    (ev0 : Built → Dict Nat (List K)) (valueCounts keyOrder : List Nat → List Nat) :
    SolveInput.solveModel { inp with rewards := rp } b transitions interp seed ev0 valueCounts keyOrder =
      SolveInput.solveModel { inp with rewards := rp' } b transitions interp seed ev0 valueCounts keyOrder := by
  have hpo : SolveInput.paramObjects { inp with rewards := rp } = SolveInput.paramObjects { inp with rewards := rp' } := by
    have ho : SolveInput.objectsOfKey { inp with rewards := rp } =
        SolveInput.objectsOfKey { inp with rewards := rp' } := by
      unfold SolveInput.objectsOfKey
      simp only [choiceRewards_perm _ h]
    unfold SolveInput.paramObjects
    simp only [ho]
  unfold SolveInput.solveModel
  simp only [hpo]

end

/-- Lists of lists of coefficients. -/
theorem mapM_pandasDot_perm (row : StateRow ℝ) {betas betas' : List (List (Str × ℝ))}
    (h : List.Forall₂ List.Perm betas betas') : betas.mapM (pandasDot row) = betas'.mapM (pandasDot row) := by
  induction h with
  | nil => rfl
  | cons hab _ ih => rw [List.mapM_cons, List.mapM_cons, ih, pandasDot_perm row hab]

theorem SameCoefficients.values {L : Type _} {d d' : Dict L (List (Str × ℝ))} (h : SameCoefficients d d') :
    List.Forall₂ List.Perm (d.map Prod.snd) (d'.map Prod.snd) := by
  induction h with
  | nil => exact .nil
  | cons hab _ ih => exact .cons hab.2 ih

section
variable {p q : Processed}

theorem Processed.SameUpToOrder.denseSpec (h : p.SameUpToOrder q) : p.denseSpec = q.denseSpec := by
  have e : ∀ d : Dict Str LevelDict, (d.map fun o => (String.ofList o.1, o.2.length)) =
      (d.map fun o => (o.1, o.2.length)).map fun o => (String.ofList o.1, o.2) := by
    intro d
    rw [List.map_map]
    rfl
  unfold Processed.denseSpec
  rw [e, e, e, e, h.exogenous.lengths, h.observables.lengths, h.nTypes]

theorem Processed.SameUpToOrder.coreFrame (h : p.SameUpToOrder q) (ev : FormulaEval) :
    p.coreFrame ev = q.coreFrame ev := by
  funext s
  unfold Processed.coreFrame Processed.coreRow
  rw [h.choices, h.groups]

theorem Processed.SameUpToOrder.covariates (h : p.SameUpToOrder q) (ev : FormulaEval) :
    p.covariates ev = q.covariates ev := by
  have hs : p.stateFrame ev = q.stateFrame ev := by
    funext d s
    unfold Processed.stateFrame Processed.denseStateFrame Processed.denseFrame
    rw [h.coreFrame, h.denseSpec, h.groups]
  unfold Processed.covariates
  rw [hs]

theorem Processed.SameUpToOrder.buildSpec (h : p.SameUpToOrder q) (ev : FormulaEval) :
    p.buildSpec ev = q.buildSpec ev := by
  have h1 : (p.experience.map fun e => Dict.keys e.1) = q.experience.map fun e => Dict.keys e.1 := by
    have := h.experience
    generalize p.experience = x at this
    generalize q.experience = y at this
    induction this with
    | nil => rfl
    | cons hab _ ih => rw [List.map_cons, List.map_cons, ih, hab.1.keys]
  have h2 : p.experience.map Prod.snd = q.experience.map Prod.snd := by
    have := h.experience
    generalize p.experience = x at this
    generalize q.experience = y at this
    induction this with
    | nil => rfl
    | cons hab _ ih => rw [List.map_cons, List.map_cons, ih, hab.2]
  have h3 : (p.exogenous.map fun o => o.2.length) = q.exogenous.map fun o => o.2.length := by
    have := congrArg (List.map Prod.snd) h.exogenous.lengths
    simpa [Function.comp_def] using this
  have h4 : p.coreRow = q.coreRow := by
    funext s
    unfold Processed.coreRow
    rw [h.choices]
  have h5 : p.lags.length = q.lags.length := h.lags.length_eq
  have h6 : p.restrictions ev = q.restrictions ev := by
    unfold Processed.restrictions Processed.columns
    rw [h.denseSpec, h.groups, h.choices, h5, h.covariates, h.negativeChoiceSet]
  unfold Processed.buildSpec
  rw [h1, h2, h3, h4, h5, h6, h.denseSpec, h.nPeriods, h.points, h.choices, h.filters]

theorem Processed.SameUpToOrder.exogenousIndices (h : p.SameUpToOrder q) :
    exogenousIndices p.exogenousParams = exogenousIndices q.exogenousParams ∧
      p.exogenousParams.length = q.exogenousParams.length := by
  unfold Processed.exogenousParams
  refine ⟨?_, by rw [List.length_map, List.length_map]; exact h.exogenous.length_eq⟩
  funext row
  unfold Respy.exogenousIndices
  have := h.exogenous
  generalize p.exogenous = x at this
  generalize q.exogenous = y at this
  induction this with
  | nil => rfl
  | cons hab _ ih =>
    simp only [List.map_cons, List.mapM_cons] at ih ⊢
    rw [ih, mapM_pandasDot_perm row hab.2.values]

/-- The solution depends on the model up to the order of coefficients. -/
theorem Processed.SameUpToOrder.solveWith {p' q' : Processed} (h : p.SameUpToOrder p') (h' : q.SameUpToOrder q')
    (ev : FormulaEval) (r : SolveRoutines) : p.solveWith q ev r = p'.solveWith q' ev r := by
  have hx : p.exogenous = [] ↔ p'.exogenous = [] := by
    have := h.exogenous.length_eq
    rw [← List.length_eq_zero_iff, ← List.length_eq_zero_iff, this]
  have ht : ∀ inp : SolveInput ℝ, inp.transitions q.exogenousParams = inp.transitions q'.exogenousParams := by
    intro inp
    have he : transitionEntry q.exogenousParams = transitionEntry q'.exogenousParams := by
      funext c row
      unfold transitionEntry
      rw [h'.exogenousIndices.1, h'.exogenousIndices.2]
    unfold SolveInput.transitions SolveInput.transitionsOfKey transitionFrame
    rw [he]
  have hrew : LinearRewards.SameUpToOrder
      ⟨fun a => (q'.choices.choices[a]?).bind q.wage, fun a => (q'.choices.choices[a]?).bind q.nonpec⟩
      ⟨fun a => (q'.choices.choices[a]?).bind q'.wage, fun a => (q'.choices.choices[a]?).bind q'.nonpec⟩ := by
    constructor <;> intro a <;> dsimp only <;> cases q'.choices.choices[a]? with
    | none => exact .none
    | some c => first | exact h'.wage c | exact h'.nonpec c
  unfold Processed.solveWith Processed.solveInput
  rw [h.buildSpec, h.covariates, h'.choices, h'.cholesky, h'.discount]
  simp only [hx]
  congr 1
  funext bt
  rw [ht]
  exact solveModel_perm { q'.solveInput ev r.senv with covariates := p'.covariates ev } hrew _ _ _ _ _ _ _

/-! ### Samples -/

/-- Sampled variables whose coefficients have another order. -/
structure SampledVariable.SameUpToOrder (v v' : SampledVariable) : Prop where
  name : v.name = v'.name
  levels : v.levels = v'.levels
  betas : List.Forall₂ List.Perm v.betas v'.betas

theorem Processed.SameUpToOrder.sampledVariables (h : p.SameUpToOrder q) :
    List.Forall₂ SampledVariable.SameUpToOrder p.sampledVariables q.sampledVariables := by
  unfold Processed.sampledVariables
  refine List.rel_append (List.rel_append (List.rel_append ?_ ?_) ?_) ?_
  · rw [List.forall₂_map_left_iff, List.forall₂_map_right_iff]
    exact h.observables.imp fun a b hab => ⟨hab.1, by rw [hab.2.length], hab.2.values⟩
  · rw [List.forall₂_map_left_iff, List.forall₂_map_right_iff, h.choices]
    have := h.experience
    generalize p.experience = x at this
    generalize q.experience = y at this
    generalize q.choices.wExp = w
    induction this generalizing w with
    | nil => cases w <;> exact .nil
    | cons hab _ ih =>
      cases w with
      | nil => exact .nil
      | cons c w => exact .cons ⟨rfl, hab.1.keys, hab.1.values⟩ (ih w)
  · rw [List.forall₂_map_left_iff, List.forall₂_map_right_iff, List.forall₂_reverse_iff]
    have hz : ∀ (x y : List (Dict Str (List (Str × ℝ)))) (n : Nat), List.Forall₂ SameCoefficients x y →
        List.Forall₂ (fun a b => SameCoefficients a.1 b.1 ∧ a.2 = b.2) (x.zipIdx n) (y.zipIdx n) := by
      intro x y n hxy
      induction hxy generalizing n with
      | nil => exact .nil
      | cons hab _ ih => exact .cons ⟨hab, rfl⟩ (ih _)
    exact (hz _ _ 0 h.lags).imp fun a b hab => ⟨by rw [hab.2], by rw [hab.1.length], hab.1.values⟩
  · rw [h.nTypes]
    split
    · exact .cons ⟨rfl, by rw [h.typeProb.length], h.typeProb.values⟩ .nil
    · exact .nil

theorem Processed.SameUpToOrder.simulation (h : p.SameUpToOrder q) {G : Type} (ev : FormulaEval) (senv : SolveEnv)
    (e : SimulateEnv G) (sp : Option (SimSpace ℝ)) : p.simulation ev senv e sp = q.simulation ev senv e sp := by
  have h0 : p.stateColumns = q.stateColumns := by
    unfold Processed.stateColumns
    rw [h.choices, h.denseSpec, h.lags.length_eq]
  have h1 : p.sampleFrame ev = q.sampleFrame ev := by
    funext fp
    unfold Processed.sampleFrame
    rw [h0, h.groups]
  have h2 : ∀ v v' : SampledVariable, v.SameUpToOrder v' → p.characteristic ev v = q.characteristic ev v' := by
    intro v v' hv
    have : p.levelProbabilities ev v.betas = q.levelProbabilities ev v'.betas := by
      funext fp
      unfold Processed.levelProbabilities
      rw [h1]
      simp only [mapM_pandasDot_perm _ hv.betas]
    unfold Processed.characteristic
    rw [h0, hv.name, hv.levels, this]
  have h3 : p.sampledVariables.map (p.characteristic ev) = q.sampledVariables.map (q.characteristic ev) := by
    have := h.sampledVariables
    generalize p.sampledVariables = x at this
    generalize q.sampledVariables = y at this
    induction this with
    | nil => rfl
    | cons hab _ ih => rw [List.map_cons, List.map_cons, ih, h2 _ _ hab]
  unfold Processed.simulation Processed.rewardParams
  rw [h3, h.nPeriods, h.choices, h.cholesky, h.measurement, h.discount, h.lags.length_eq]

end

end Respy
