import Verif.Model.ProcessModel
import Verif.Lemmas.Dict
import Verif.Lemmas.DictUpdate
import Verif.Lemmas.MapM
import Verif.Props.Choices

/-! Helper lemmas: steps of the processing of parameters and options. -/

namespace Respy

/-! ### Computing covariates -/

section
variable {V : Type _} (eval : (Str → Option V) → Str → Option V) (notna : V → Bool) (checkNans : Bool)

theorem computePass_columns : ∀ (defs : List (Str × CovariateDef)) (df df' : Frame V)
    (left : List (Str × CovariateDef)), computePass eval notna checkNans df defs = .ok (df', left) →
    (∀ k v, df.columns.get? k = some v → df'.columns.get? k = some v) ∧
    (∀ k ∈ df'.columns.keys, k ∈ df.columns.keys ∨ k ∈ defs.map Prod.fst) ∧
    (∀ x ∈ left, x ∈ defs) ∧ (∀ x ∈ defs, x ∈ left ∨ x.1 ∈ df'.columns.keys) := by
  intro defs
  induction defs with
  | nil =>
    intro df df' left h
    simp only [computePass, Except.ok.injEq, Prod.mk.injEq] at h
    obtain ⟨rfl, rfl⟩ := h
    exact ⟨fun _ _ h => h, fun _ h => Or.inl h, fun _ h => h, fun _ h => Or.inl h⟩
  | cons x rest ih =>
    obtain ⟨c, d⟩ := x
    intro df df' left h
    simp only [computePass] at h
    have keep : ∀ (e : Frame V), (∀ k v, e.columns.get? k = some v → df'.columns.get? k = some v) →
        ∀ k ∈ e.columns.keys, k ∈ df'.columns.keys := by
      intro e he k hk
      by_contra hno
      have h1 := (Dict.get?_eq_none_iff _ _).2 hno
      cases hg : Dict.get? e.columns k with
      | none => exact (Dict.get?_eq_none_iff _ _).1 hg hk
      | some v => rw [he k v hg] at h1; cases h1
    split at h
    · next hc =>
      obtain ⟨h1, h2, h3, h4⟩ := ih df df' left h
      refine ⟨h1, fun k hk => ?_, fun x hx => List.mem_cons_of_mem _ (h3 x hx), fun x hx => ?_⟩
      · rcases h2 k hk with h | h
        · exact Or.inl h
        · exact Or.inr (List.mem_cons_of_mem _ h)
      · rcases List.mem_cons.1 hx with rfl | hx
        · exact Or.inr (keep df h1 c hc)
        · exact h4 x hx
    · next hc =>
      split at h
      · split at h
        · cases h
        · next v _ =>
          obtain ⟨h1, h2, h3, h4⟩ := ih ⟨df.columns.insert c v, df.index⟩ df' left h
          have hold : ∀ k w, df.columns.get? k = some w → (df.columns.insert c v).get? k = some w := by
            intro k w hk
            rw [Dict.get?_insert]
            split
            · next e =>
              subst e
              exact absurd (List.mem_map.2 ⟨_, Dict.mem_of_get? _ _ _ hk, rfl⟩) hc
            · exact hk
          refine ⟨fun k w hk => h1 k w (hold k w hk), fun k hk => ?_,
            fun x hx => List.mem_cons_of_mem _ (h3 x hx), fun x hx => ?_⟩
          · rcases h2 k hk with h | h
            · rcases (Dict.mem_keys_insert _ _ _ _).1 h with h | h
              · exact Or.inr (by simp [h])
              · exact Or.inl h
            · exact Or.inr (List.mem_cons_of_mem _ h)
          · rcases List.mem_cons.1 hx with rfl | hx
            · exact Or.inr (keep _ h1 c ((Dict.mem_keys_insert _ _ _ _).2 (Or.inl rfl)))
            · exact h4 x hx
      · split at h
        · cases h
        · next df'' left' hp =>
          simp only [Except.ok.injEq, Prod.mk.injEq] at h
          obtain ⟨rfl, rfl⟩ := h
          obtain ⟨h1, h2, h3, h4⟩ := ih df df'' left' hp
          refine ⟨h1, fun k hk => ?_, fun x hx => ?_, fun x hx => ?_⟩
          · rcases h2 k hk with h | h
            · exact Or.inl h
            · exact Or.inr (List.mem_cons_of_mem _ h)
          · rcases List.mem_cons.1 hx with rfl | hx
            · exact List.mem_cons_self
            · exact List.mem_cons_of_mem _ (h3 x hx)
          · rcases List.mem_cons.1 hx with rfl | hx
            · exact Or.inl List.mem_cons_self
            · rcases h4 x hx with h | h
              · exact Or.inl (List.mem_cons_of_mem _ h)
              · exact Or.inr h

theorem computeLoop_columns : ∀ (fuel : Nat) (defs : List (Str × CovariateDef)) (df df' : Frame V)
    (left : List (Str × CovariateDef)), computeLoop eval notna checkNans fuel df defs = .ok (df', left) →
    (∀ k v, df.columns.get? k = some v → df'.columns.get? k = some v) ∧
    (∀ k ∈ df'.columns.keys, k ∈ df.columns.keys ∨ k ∈ defs.map Prod.fst) ∧
    (∀ x ∈ left, x ∈ defs) ∧ (∀ x ∈ defs, x ∈ left ∨ x.1 ∈ df'.columns.keys) := by
  intro fuel
  induction fuel with
  | zero => intro defs df df' left h; cases h
  | succ fuel ih =>
    intro defs df df' left h
    simp only [computeLoop] at h
    split at h
    · cases h
    · next df₁ left₁ hp =>
      obtain ⟨h1, h2, h3, h4⟩ := computePass_columns eval notna checkNans defs df df₁ left₁ hp
      split at h
      · obtain ⟨g1, g2, g3, g4⟩ := ih left₁ df₁ df' left h
        refine ⟨fun k v hk => g1 k v (h1 k v hk), fun k hk => ?_, fun x hx => h3 x (g3 x hx), fun x hx => ?_⟩
        · rcases g2 k hk with h | h
          · exact h2 k h
          · obtain ⟨x, hx, rfl⟩ := List.mem_map.1 h
            exact Or.inr (List.mem_map.2 ⟨x, h3 x hx, rfl⟩)
        · rcases h4 x hx with h | h
          · exact g4 x h
          · right
            by_contra hno
            have e1 := (Dict.get?_eq_none_iff _ _).2 hno
            cases hg : Dict.get? df₁.columns x.1 with
            | none => exact (Dict.get?_eq_none_iff _ _).1 hg h
            | some v => rw [g1 _ v hg] at e1; cases e1
      · simp only [Except.ok.injEq, Prod.mk.injEq] at h
        obtain ⟨rfl, rfl⟩ := h
        exact ⟨h1, h2, h3, h4⟩

/-- Columns of a frame with covariates: old columns keep their values and all covariates are columns. -/
theorem computeCovariates_columns (df df' : Frame V) (definitions : Dict Str CovariateDef)
    (h : computeCovariates eval notna checkNans true df definitions = .ok df') :
    (∀ k v, df.columns.get? k = some v → df'.columns.get? k = some v) ∧
    (∀ k, k ∈ df'.columns.keys ↔ k ∈ df.columns.keys ∨ k ∈ definitions.keys) := by
  unfold computeCovariates at h
  split at h
  · cases h
  · next df₁ left hl =>
    obtain ⟨h1, h2, h3, h4⟩ := computeLoop_columns eval notna checkNans _ definitions df df₁ left hl
    split at h
    · cases h
    · next hleft =>
      simp only [Except.ok.injEq] at h
      subst h
      have hl0 : left = [] := by
        by_contra hne
        exact hleft ⟨hne, rfl⟩
      subst hl0
      refine ⟨h1, fun k => ⟨fun hk => h2 k hk, fun hk => ?_⟩⟩
      rcases hk with hk | hk
      · by_contra hno
        have e1 := (Dict.get?_eq_none_iff _ _).2 hno
        cases hg : Dict.get? df.columns k with
        | none => exact (Dict.get?_eq_none_iff _ _).1 hg hk
        | some v => rw [h1 _ v hg] at e1; cases e1
      · obtain ⟨x, hx, rfl⟩ := List.mem_map.1 hk
        rcases h4 x hx with h | h
        · cases h
        · exact h

end

/-! ### Labels -/

theorem replaceAllFuel_absent (q : Char) (old new : Str) : ∀ (fuel : Nat) (s : Str), q ∉ s →
    replaceAllFuel (q :: old) new fuel s = s := by
  intro fuel
  induction fuel with
  | zero => intro s _; rfl
  | succ fuel ih =>
    intro s hs
    unfold replaceAllFuel
    rw [if_neg]
    · cases s with
      | nil => rfl
      | cons c cs =>
        simp only [List.mem_cons, not_or] at hs
        simp only [ih cs hs.2]
    · intro h
      obtain ⟨t, ht⟩ := List.isPrefixOf_iff_prefix.1 h
      exact hs (ht ▸ (by simp))

theorem replaceInQuotes_absent (formula label code : Str) (h1 : '\'' ∉ formula) (h2 : '"' ∉ formula) :
    replaceInQuotes formula label code = formula := by
  unfold replaceInQuotes replaceAll
  rw [List.cons_append, List.cons_append, replaceAllFuel_absent _ _ _ _ _ h1,
    replaceAllFuel_absent _ _ _ _ _ h2]

/-- Formulas without quotes are not changed. -/
theorem replaceLabels_absent (choices : List Str) (observables : List (Str × List (Option Str)))
    (formula : Str) (h1 : '\'' ∉ formula) (h2 : '"' ∉ formula) :
    replaceLabels choices observables formula = formula := by
  unfold replaceLabels
  induction labelCodes choices observables with
  | nil => rfl
  | cons x xs ih => rw [List.foldl_cons, replaceInQuotes_absent _ _ _ h1 h2, ih]

theorem codeText_digits (n : Nat) : ∀ c ∈ codeText n, c.isDigit = true := by
  intro c hc
  unfold codeText at hc
  exact Nat.isDigit_of_mem_toDigits (by omega) (by omega) hc

/-! ### The steps -/

/-- The steps of `processModel`. -/
structure ProcessedFrom (env : ProcessEnv) (m : UserModel) (p : Processed) (covariates : Dict Str Str) : Prop where
  relevant : removeIrrelevant m.covariates (m.params.map fun p => p.1.2) = some covariates
  nPeriods : p.nPeriods = m.nPeriods
  points : p.points = m.points
  discount : parseDiscount m.params = some p.discount
  exogenous : parseExogenous env.maxFloat m.params = some p.exogenous
  observables : parseObservables env.maxFloat m.params p.exogenous = some p.observables
  choices : p.choices = parseChoices (m.params.map Prod.fst) covariates
  experience : p.choices.wExp.mapM (parseExperience env.maxFloat m.nPeriods m.params) = some p.experience
  shocks : ∃ sh, parseShocks m.params = .ok sh ∧ p.cholesky = sh.cholesky env.robustCholesky
  validated : validateShocks m.params p.choices.choices = true
  measurement : parseMeasurementErrors p.choices.choices p.choices.wWage m.params = some p.measurement
  types : parseTypes env.maxFloat m.params = .ok (p.nTypes, p.typeProb)
  lags : parseLaggedChoices env.maxFloat env.minFloat p.choices.choices covariates m.params = .ok p.lags
  filters : convertFilters p.choices.choices (textLevels p.observables)
    ⟨p.choices.wExp, p.choices.woExp, p.choices.wWage⟩ m.filters = some p.filters
  groups : separateCovariates ((addTypeCovariates p.nTypes covariates).map fun kv =>
    (kv.1, replaceLabels p.choices.choices (textLevels p.observables) kv.2))
    (coreColumns p.choices.wExp p.lags.length) (denseBaseColumns (Dict.keys p.observables) p.nTypes) =
      some p.groups
  wage : p.wage = fun c => choiceParameters m.params ("wage_".toList ++ c)
  nonpec : p.nonpec = fun c => choiceParameters m.params ("nonpec_".toList ++ c)
  negativeChoiceSet : p.negativeChoiceSet =
    (addDefaultIsInadmissible p.choices.wExp p.choices.woExp
      (defaultText m.nPeriods (p.choices.wExp.zip p.experience)) "False".toList m.negativeChoiceSet).map
      fun kv => (kv.1, if kv.1 ∈ p.choices.choices then
        kv.2.map (replaceLabels p.choices.choices (textLevels p.observables)) else kv.2)

theorem toOption_eq_some {ε α : Type _} {x : Except ε α} {a : α} (h : x.toOption = some a) : x = .ok a := by
  cases x with
  | error e => cases h
  | ok b => simpa [Except.toOption] using h

theorem processModel_from (env : ProcessEnv) (m : UserModel) (p : Processed) (h : processModel env m = some p) :
    ∃ covariates, ProcessedFrom env m p covariates := by
  unfold processModel at h
  simp only [Option.bind_eq_bind, Option.bind_eq_some_iff] at h
  obtain ⟨covs, h1, disc, h2, exog, h3, obs, h4, exper, h5, sh, h6, meas, h7, types, h8, lags, h9, filt, h10,
    gr, h11, h12⟩ := h
  split at h12
  · next hv =>
    simp only [Option.some.injEq] at h12
    subst h12
    exact ⟨covs, h1, rfl, rfl, h2, h3, h4, rfl, h5, ⟨sh, toOption_eq_some h6, rfl⟩, hv, h7,
      toOption_eq_some h8, toOption_eq_some h9, h10, h11, rfl, rfl, rfl⟩
  · cases h12

end Respy
