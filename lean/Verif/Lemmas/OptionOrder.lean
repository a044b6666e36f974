import Verif.Spec.OptionOrder
import Verif.Lemmas.CovariateOrder

/-! Helper lemmas for C102. -/

namespace Respy

theorem SameFormulas.symm {fs fs' : List Str} (h : SameFormulas fs fs') : SameFormulas fs' fs := fun f => (h f).symm

theorem SameFormulas.map {fs fs' : List Str} (h : SameFormulas fs fs') (g : Str → Str) :
    SameFormulas (fs.map g) (fs'.map g) := fun f => by simp only [List.mem_map, h _]

theorem optionRel_symm {α : Type _} {R : α → α → Prop} (hR : ∀ a b, R a b → R b a) {x y : Option α}
    (h : Option.Rel R x y) : Option.Rel R y x := by
  cases h with
  | none => exact .none
  | some h => exact .some (hR _ _ h)

theorem OtherOptions.symm {m m' : UserModel} (h : OtherOptions m m') : OtherOptions m' m :=
  ⟨h.params.symm, h.nPeriods.symm, h.points.symm, h.covariates.symm, (h.covariates.map Prod.fst).nodup_iff.1 h.unique,
    fun c => optionRel_symm (fun _ _ h => h.symm) (h.restrictions c), h.filters.symm⟩

theorem OtherOptions.withParams {m m' : UserModel} (h : OtherOptions m m') (θ : Dict (Str × Str) ℝ) :
    OtherOptions { m with params := θ } { m' with params := θ } :=
  ⟨rfl, h.nPeriods, h.points, h.covariates, h.unique, h.restrictions, h.filters⟩

theorem convertFilters_same (choices : List Str) (observables : List (Str × List (Option Str))) (kinds : ChoiceKinds)
    {fs fs' : List Str} (h : SameFormulas fs fs') {out : List Str}
    (ho : convertFilters choices observables kinds fs = some out) :
    ∃ out', convertFilters choices observables kinds fs' = some out' ∧ SameFormulas out out' := by
  have key : ∀ (fs : List Str), (∀ f ∈ fs, ∃ l, convertFilter choices observables kinds f = some l) →
      ∃ out, convertFilters choices observables kinds fs = some out ∧
        ∀ x, x ∈ out ↔ ∃ f ∈ fs, ∃ l, convertFilter choices observables kinds f = some l ∧ x ∈ l := by
    intro fs
    induction fs with
    | nil => intro _; exact ⟨[], rfl, by simp⟩
    | cons f fs ih =>
      intro hall
      obtain ⟨l, hl⟩ := hall f List.mem_cons_self
      obtain ⟨out, h1, h2⟩ := ih fun g hg => hall g (List.mem_cons_of_mem _ hg)
      unfold convertFilters at h1 ⊢
      obtain ⟨ls, h3, h4⟩ := Option.map_eq_some_iff.1 h1
      refine ⟨l ++ out, by rw [List.mapM_cons, hl, h3, ← h4]; rfl, fun x => ?_⟩
      rw [List.mem_append, h2]
      constructor
      · rintro (hx | ⟨g, hg, k, hk, hx⟩)
        · exact ⟨f, List.mem_cons_self, l, hl, hx⟩
        · exact ⟨g, List.mem_cons_of_mem _ hg, k, hk, hx⟩
      · rintro ⟨g, hg, k, hk, hx⟩
        rcases List.mem_cons.1 hg with rfl | hg
        · rw [hl] at hk
          cases hk
          exact Or.inl hx
        · exact Or.inr ⟨g, hg, k, hk, hx⟩
  have hall : ∀ f ∈ fs, ∃ l, convertFilter choices observables kinds f = some l := by
    intro f hf
    unfold convertFilters at ho
    obtain ⟨ls, h3, _⟩ := Option.map_eq_some_iff.1 ho
    by_contra hn
    have hnone : convertFilter choices observables kinds f = none := by
      cases hc : convertFilter choices observables kinds f with
      | none => rfl
      | some l => exact absurd ⟨l, hc⟩ hn
    have : ∀ (fs : List Str), f ∈ fs → fs.mapM (convertFilter choices observables kinds) = none := by
      intro fs
      induction fs with
      | nil => intro h; cases h
      | cons g fs ih =>
        intro hg
        rw [List.mapM_cons]
        rcases List.mem_cons.1 hg with rfl | hg
        · rw [hnone]; rfl
        · rw [ih hg]
          cases convertFilter choices observables kinds g <;> rfl
    rw [this fs hf] at h3
    cases h3
  obtain ⟨o, h1, h2⟩ := key fs hall
  obtain ⟨o', h1', h2'⟩ := key fs' fun f hf => hall f ((h f).2 hf)
  rw [ho] at h1
  cases h1
  refine ⟨o', h1', fun x => ?_⟩
  rw [h2, h2']
  simp only [h _]

section
variable {env : ProcessEnv} {m m' : UserModel} {p : Processed}

/-- The restrictions of a processed model, for all names. -/
theorem ProcessedFrom.restrictions_get {covs : Dict Str Str} (h : ProcessedFrom env m p covs) (c : Str) :
    Dict.get? p.negativeChoiceSet c =
      (if c ∈ p.choices.wExp then some ((Dict.get? m.negativeChoiceSet c).getD [] ++
          List.replicate (p.choices.wExp.count c) (defaultText m.nPeriods (p.choices.wExp.zip p.experience) c))
        else if c ∈ p.choices.woExp then some ((Dict.get? m.negativeChoiceSet c).getD ["False".toList])
        else Dict.get? m.negativeChoiceSet c).map fun fs => if c ∈ p.choices.choices then
          fs.map (replaceLabels p.choices.choices (textLevels p.observables)) else fs := by
  rw [h.negativeChoiceSet, ← get?_addDefault]
  exact get?_mapValues (fun (k : Str) (v : List Str) => if k ∈ p.choices.choices then
    v.map (replaceLabels p.choices.choices (textLevels p.observables)) else v) _ c

/-- Options with other orders are accepted, and the processed models differ only in orders. -/
theorem processModel_options (h : OtherOptions m m') (hp : processModel env m = some p) :
    ∃ p', processModel env m' = some p' ∧ SameGroups p p' ∧
      ∀ c, Option.Rel SameFormulas (Dict.get? p.negativeChoiceSet c) (Dict.get? p'.negativeChoiceSet c) := by
  obtain ⟨covs, hf⟩ := processModel_from env m p hp
  obtain ⟨r, r', h1, h2, hperm⟩ := C52_order_independent m.covariates m'.covariates h.covariates h.unique
    (m.params.map fun p => p.1.2) (m'.params.map fun p => p.1.2) (fun k => by rw [h.params])
  rw [hf.relevant] at h1
  cases h1
  have hu' : (Dict.keys m'.covariates).Nodup := (h.covariates.map Prod.fst).nodup_iff.1 h.unique
  have hcn : (Dict.keys covs).Nodup := by
    obtain ⟨r, h1, h3, _⟩ := C52_relevant_covariates m.covariates h.unique (m.params.map fun p => p.1.2)
    rw [hf.relevant] at h1
    cases h1
    exact h3
  have hcn' : (Dict.keys r').Nodup := (hperm.map Prod.fst).nodup_iff.1 hcn
  have hchoices : parseChoices (m'.params.map Prod.fst) r' = p.choices := by
    rw [hf.choices, h.params]
    exact parseChoices_congr _ fun x => by simp only [hperm.mem_iff]
  have hlags : parseLaggedChoices env.maxFloat env.minFloat p.choices.choices r' m'.params = .ok p.lags := by
    have := hf.lags
    unfold parseLaggedChoices at this ⊢
    rw [← h.params, numberOfLags_congr (covs' := covs) fun x => by simp only [hperm.mem_iff]]
    exact this
  obtain ⟨filters', hfil, hfsame⟩ := convertFilters_same _ _ _ h.filters hf.filters
  have hmem : ∀ x, x ∈ addTypeCovariates p.nTypes covs ↔ x ∈ addTypeCovariates p.nTypes r' := by
    rintro ⟨c, f⟩
    rw [mem_addTypeCovariates _ _ hcn, mem_addTypeCovariates _ _ hcn', hperm.mem_iff]
  have hconv : ((addTypeCovariates p.nTypes covs).map fun kv => (kv.1, p.convert kv.2)).Perm
      ((addTypeCovariates p.nTypes r').map fun kv => (kv.1, p.convert kv.2)) :=
    ((List.perm_ext_iff_of_nodup (addTypeCovariates_nodup _ _ hcn).of_map
      (addTypeCovariates_nodup _ _ hcn').of_map).2 hmem).map _
  have hk : (Dict.keys ((addTypeCovariates p.nTypes r').map fun kv => (kv.1, p.convert kv.2))).Nodup := by
    have := addTypeCovariates_nodup p.nTypes _ hcn'
    unfold Dict.keys at this ⊢
    rwa [List.map_map]
  obtain ⟨G, hG, hall, _⟩ := C68_groups _ hk (coreColumns p.choices.wExp p.lags.length)
    (denseBaseColumns (Dict.keys p.observables) p.nTypes) (by
      intro k h1 h2
      exact (hconv.map Prod.fst).mem_iff.1 (separateCovariates_base _ _ _ _ hf.groups k h1 h2))
  let neg : Dict Str (List Str) := (addDefaultIsInadmissible p.choices.wExp p.choices.woExp
    (defaultText m'.nPeriods (p.choices.wExp.zip p.experience)) "False".toList m'.negativeChoiceSet).map
      fun kv => (kv.1, if kv.1 ∈ p.choices.choices then kv.2.map p.convert else kv.2)
  have hq : ProcessedFrom env m' { p with negativeChoiceSet := neg, groups := G, filters := filters' } r' :=
    { relevant := h2
      nPeriods := hf.nPeriods.trans h.nPeriods
      points := hf.points.trans h.points
      discount := h.params ▸ hf.discount
      exogenous := h.params ▸ hf.exogenous
      observables := h.params ▸ hf.observables
      choices := hchoices.symm
      experience := by
        have := hf.experience
        rw [h.params, h.nPeriods] at this
        exact this
      shocks := h.params ▸ hf.shocks
      validated := h.params ▸ hf.validated
      measurement := h.params ▸ hf.measurement
      types := h.params ▸ hf.types
      lags := hlags
      filters := hfil
      groups := hG
      wage := h.params ▸ hf.wage
      nonpec := h.params ▸ hf.nonpec
      negativeChoiceSet := rfl }
  have hneg : ∀ c, Option.Rel SameFormulas (Dict.get? p.negativeChoiceSet c) (Dict.get? neg c) := by
    intro c
    have e1 := hf.restrictions_get c
    have e2 : Dict.get? neg c = _ := hq.restrictions_get c
    rw [e1, e2]
    dsimp only
    rw [h.nPeriods]
    have hc := h.restrictions c
    generalize Dict.get? m.negativeChoiceSet c = a at hc
    generalize Dict.get? m'.negativeChoiceSet c = b at hc
    have hconvert : ∀ fs fs' : List Str, SameFormulas fs fs' → SameFormulas
        (if c ∈ p.choices.choices then fs.map (replaceLabels p.choices.choices (textLevels p.observables)) else fs)
        (if c ∈ p.choices.choices then fs'.map (replaceLabels p.choices.choices (textLevels p.observables))
          else fs') := by
      intro fs fs' hs
      split
      · exact hs.map _
      · exact hs
    have hget : ∀ d, SameFormulas (a.getD d) (b.getD d) := by
      intro d
      cases hc with
      | none => exact fun f => Iff.rfl
      | some h => exact h
    by_cases hw : c ∈ p.choices.wExp
    · rw [if_pos hw, if_pos hw]
      exact .some (hconvert _ _ fun f => by rw [List.mem_append, List.mem_append, hget [] f])
    · rw [if_neg hw, if_neg hw]
      by_cases hw' : c ∈ p.choices.woExp
      · rw [if_pos hw', if_pos hw']
        exact .some (hconvert _ _ (hget _))
      · rw [if_neg hw', if_neg hw']
        cases hc with
        | none => exact .none
        | some h => exact .some (hconvert _ _ h)
  have hsame : SameModel p { p with negativeChoiceSet := neg, groups := G, filters := filters' } := by
    refine ⟨rfl, rfl, rfl, rfl, rfl, rfl, rfl, rfl, rfl, rfl, rfl, rfl, rfl, rfl, hfsame, ?_, fun c hc => ?_⟩
    · rw [hf.all_eq h.unique]
      change List.Perm _ (G.all.map _)
      rw [hall]
      exact hconv
    · obtain ⟨fs, g1, _⟩ := hf.formulas c hc
      have := hneg c
      rw [g1] at this
      generalize hb : Dict.get? neg c = b at this
      cases this with
      | some h => exact ⟨fs, _, g1, rfl, h⟩
  exact ⟨_, hq.processModel, hsame.groups hf hq h.unique hu', hneg⟩

/-- The options after processing differ only in orders. -/
theorem OtherOptions.reprocessed {p' : Processed} (h : OtherOptions m m') (hs : SameGroups p p')
    (hn : ∀ c, Option.Rel SameFormulas (Dict.get? p.negativeChoiceSet c) (Dict.get? p'.negativeChoiceSet c))
    (θ : Dict (Str × Str) ℝ) : OtherOptions (m.reprocessed p θ) (m'.reprocessed p' θ) := by
  refine ⟨rfl, h.nPeriods, h.points, hs.same.formulas, ?_, hn, hs.same.filters⟩
  have := hs.facts.nodup
  unfold UserModel.reprocessed
  unfold Dict.keys at this ⊢
  rw [List.map_map]
  exact this

end

end Respy
