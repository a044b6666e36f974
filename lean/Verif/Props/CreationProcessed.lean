import Verif.Props.Creation
import Verif.Props.ProcessModelExample

/-!
# C86: when the state space of an accepted model can be created
-/

namespace Respy

section
variable {env : ProcessEnv} {m : UserModel} {p : Processed} {ev : FormulaEval} {core : List CoreState}

/-- **C86.** The state space of a model which is accepted can be created if and only if no allowed choice leads to a state
which is filtered out. -/
theorem C86_accepted_models_created (hp : processModel env m = some p) (hev : ev.Contract)
    (hs : p.Described m ev core) (hcore : createCore (p.buildSpec ev).core = some core)
    (hx : p.exogenous = [] ∨ p.nTypes < 2 ∧ ∃ static : List (Str × Nat),
      p.observables.map (fun o => (o.1, o.2.length)) = static ++ p.exogenous.map fun o => (o.1, o.2.length)) :
    (∃ bt, buildSpace (p.buildSpec ev) = some bt) ↔
      ∀ s ∈ core, s.period + 1 < p.nPeriods → ∀ d ∈ (p.buildSpec ev).denseIndices, ∀ (a : Nat) (c : Str),
        p.choices.choices[a]? = some c → p.Allowed m ev d s c → lawOfMotion s a ∈ core := by
  have hx' : (p.buildSpec ev).exogLevels = [] ∨ ∃ static, (p.buildSpec ev).ExogWF static := by
    by_cases hexo : p.exogenous = []
    · exact Or.inl (by simp [Processed.buildSpec, hexo])
    · obtain ⟨htypes, static, hobs⟩ := hx.resolve_left hexo
      exact Or.inr ⟨_, exogenous_wf p ev hexo static htypes hobs⟩
  rw [C86_created_iff_closed _ core (hs.grouped hp hev hcore) hx']
  constructor
  · intro h s hmem ht d hd a c hc hall
    exact h s hmem ht d hd a ((C82_choice_sets_by_name hp hev hs hcore d hd s hmem a c hc).2 hall)
  · intro h s hmem ht d hd a ha
    have hlt : a < p.choices.choices.length := by
      have := (List.getElem?_eq_some_iff.1 ha).1
      rwa [choiceSetAt_length] at this
    have hca := List.getElem?_eq_getElem hlt
    exact h s hmem ht d hd a _ hca ((C82_choice_sets_by_name hp hev hs hcore d hd s hmem a _ hca).1 ha)

/-- **C86.** Accepted models whose state space can be created are supported, so that they are solved (C82), samples are
drawn from them (C83) and their likelihood is computed (C84). -/
theorem C86_created_models_supported (hp : processModel env m = some p) (hev : ev.Contract)
    (hs : p.Described m ev core) (hcore : createCore (p.buildSpec ev).core = some core)
    (hx : p.exogenous = [] ∨ p.nTypes < 2 ∧ ∃ static : List (Str × Nat),
      p.observables.map (fun o => (o.1, o.2.length)) = static ++ p.exogenous.map fun o => (o.1, o.2.length))
    (bt : Built) (h : buildSpace (p.buildSpec ev) = some bt) : p.Supported m ev core :=
  ⟨hs, Or.inr ((C86_accepted_models_created hp hev hs hcore hx).1 ⟨bt, h⟩)⟩

end

/-! ### A model with a filter -/

/-- The model of C82 with the filter that nobody has two years of experience. -/
noncomputable def filteredUser : UserModel := { exampleUser with filters := ["exp_b == 2".toList] }

/-- The core of the model without the filter. -/
def unfilteredSpec : CoreSpec where
  nPeriods := 3
  nChoices := 2
  starts := [[0]]
  maxExp := [2]
  nLags := 1
  filters := []

noncomputable def filteredCheck (m : UserModel) (p : Processed) : Bool :=
  decide (p.choices.choices = ["b".toList, "a".toList]) && decide (p.choices.wExp = ["b".toList]) &&
  decide (p.lags.length = 1) && decide (p.filters = ["exp_b == 2".toList]) &&
  decide ((p.experience.map fun e => (Dict.keys e.1, e.2)) = [([0], 2)]) &&
  decide (p.userRestrictions m "a".toList = []) &&
  decide (p.userRestrictions m "b".toList = ["exp_b == 1".toList]) &&
  (["exp_b == 1".toList].all fun f => textEval.defined (p.columns false) f) &&
  ((denseColumns p.denseSpec).all fun x => !decide (x.toList ∈ p.columns false)) &&
  (p.choices.choices.all fun c => ((p.wage c).toList ++ (p.nonpec c).toList).all fun beta => beta.all fun item =>
    decide (item.1 ∈ p.columns (denseGrid p.denseSpec).isSome)) &&
  decide (p.nPeriods = 3) && (decide (p.points = 201) && decide (denseGrid p.denseSpec ≠ some [])) &&
  decide (p.exogenous.length = 0) &&
  (createCore unfilteredSpec).any fun core =>
    (p.buildSpec textEval).denseIndices.all fun d => core.all fun s => (p.stateFrame textEval d s).isSome

theorem filteredUser_check :
    (processModel exampleEnv filteredUser).any (filteredCheck filteredUser) = true := by decide +kernel

theorem filteredHolds (row : Str → Option ℝ) (e k : Nat) (h : row "exp_b".toList = some (e : ℝ)) :
    textEval.holds row ("exp_".toList ++ "b".toList ++ " == ".toList ++ Nat.toDigits 10 k) = decide (e = k) := by
  unfold FormulaEval.holds
  rw [textEval_contract.experience_value row "b".toList k (e : ℝ) (by decide) h]
  by_cases hk : e = k
  · subst hk; simp
  · have : ¬ (e : ℝ) = (k : ℝ) := by exact_mod_cast hk
    simp [hk, this]

theorem filteredSpec (p : Processed) (h : filteredCheck filteredUser p = true) :
    (p.buildSpec textEval).core = { unfilteredSpec with
      filters := [fun s => textEval.holds (Dict.get? (p.coreRow s)) "exp_b == 2".toList] } := by
  unfold filteredCheck at h
  simp only [Bool.and_eq_true, decide_eq_true_eq] at h
  obtain ⟨⟨⟨⟨⟨⟨⟨⟨⟨⟨⟨⟨⟨a1, _⟩, a3⟩, a4⟩, a5⟩, _⟩, _⟩, _⟩, _⟩, _⟩, a11⟩, _⟩, _⟩, _⟩ := h
  have h1 := congrArg (List.map Prod.fst) a5
  have h2 := congrArg (List.map Prod.snd) a5
  simp only [List.map_map, Function.comp_def, List.map_cons, List.map_nil] at h1 h2
  have h2' : p.experience.map Prod.snd = [2] := h2
  unfold Processed.buildSpec
  simp only [a1, a3, a4, a11, h1, h2']
  rfl

theorem filteredSpec_wf (f : List (CoreState → Bool)) : ({ unfilteredSpec with filters := f } : CoreSpec).WF := by
  refine ⟨by simp [unfilteredSpec], rfl, ?_, ?_, ?_, ?_⟩ <;> simp [unfilteredSpec]

/-- The states of the model: nobody has two years of experience. -/
theorem filteredCore (p : Processed) (h : filteredCheck filteredUser p = true) (core : List CoreState)
    (hc : createCore (p.buildSpec textEval).core = some core) (s : CoreState) :
    s ∈ core ↔ s.period < 3 ∧ (∃ e < 2, s.exp = [e] ∧ e ≤ s.period) ∧ ∃ c < 2, s.lags = [some c] := by
  have hw : p.choices.wExp = ["b".toList] := by
    unfold filteredCheck at h
    simp only [Bool.and_eq_true, decide_eq_true_eq] at h
    exact h.1.1.1.1.1.1.1.1.1.1.1.1.2
  rw [filteredSpec p h] at hc
  have hfil : ∀ (s : CoreState) e, s.exp = [e] →
      textEval.holds (Dict.get? (p.coreRow s)) "exp_b == 2".toList = decide (e = 2) := by
    intro s e he
    refine filteredHolds _ e 2 (coreRow_experience p s (by rw [hw]; simp) 0 "b".toList e (by rw [hw]; rfl) ?_)
    rw [he]; rfl
  rw [C05_core_mem_iff _ (filteredSpec_wf _) (le_refl 1) core hc]
  constructor
  · rintro ⟨h1, ⟨init, extra, h2, h3, h4, h5, h6⟩, h7, h8, h9⟩
    simp only [unfilteredSpec] at h1 h2 h3 h7 h8 h9
    match init, h2, extra, h3 with
    | [x], .cons hx .nil, [e], _ =>
      rw [List.mem_singleton] at hx
      subst hx
      have h4' : s.exp = [e] := by rw [h4]; simp
      have h10 := h6 _ (List.mem_singleton.2 rfl)
      rw [hfil _ e rfl] at h10
      rw [h4'] at h7
      obtain ⟨h11, _⟩ := List.forall₂_cons.1 h7
      have h12 : e ≠ 2 := by simpa using h10
      simp only [List.sum_cons, List.sum_nil, Nat.add_zero] at h5
      refine ⟨h1, ⟨e, by omega, h4', h5⟩, ?_⟩
      match hl : s.lags, h8 with
      | [l], _ =>
        obtain ⟨c, hc, rfl⟩ := h9 l (by rw [hl]; exact List.mem_singleton.2 rfl)
        exact ⟨c, hc, rfl⟩
  · rintro ⟨h1, ⟨e, h2, h3, h4⟩, c, h5, h6⟩
    refine ⟨h1, ⟨[0], [e], by simp [unfilteredSpec], rfl, by rw [h3]; simp, by simpa using h4, ?_⟩, ?_, ?_, ?_⟩
    · intro f hf
      rw [List.mem_singleton] at hf
      subst hf
      show textEval.holds (Dict.get? (p.coreRow _)) "exp_b == 2".toList = false
      rw [hfil ⟨s.period, [e], s.lags⟩ e rfl]
      exact decide_eq_false (by omega)
    · rw [h3]
      exact .cons (by omega) .nil
    · rw [h6]; rfl
    · rw [h6]
      intro l hl
      rw [List.mem_singleton] at hl
      exact ⟨c, h5, hl⟩

/-- The hypotheses of `C86_accepted_models_created` and `C86_created_models_supported` hold for the model, whose state space
is created although states are filtered out. -/
theorem filteredUser_supported : ∃ p core bt, processModel exampleEnv filteredUser = some p ∧
    createCore (p.buildSpec textEval).core = some core ∧ p.Supported filteredUser textEval core ∧
    p.filters = ["exp_b == 2".toList] ∧ p.exogenous = [] ∧ buildSpace (p.buildSpec textEval) = some bt ∧
    ⟨2, [1], [some 0]⟩ ∈ core ∧ ⟨2, [2], [some 0]⟩ ∉ core := by
  obtain ⟨p, hp, hcheck⟩ := (Option.any_eq_true _ _).1 filteredUser_check
  have hspec := filteredSpec p hcheck
  obtain ⟨core, hc⟩ := createCore_isSome (p.buildSpec textEval).core (by rw [hspec]; exact filteredSpec_wf _)
  have hmem := filteredCore p hcheck core hc
  unfold filteredCheck at hcheck
  simp only [Bool.and_eq_true, decide_eq_true_eq, List.all_eq_true, Bool.not_eq_true', decide_eq_false_iff_not,
    List.mem_singleton, forall_eq] at hcheck
  obtain ⟨⟨⟨⟨⟨⟨⟨⟨⟨⟨⟨⟨⟨a1, a2⟩, a3⟩, a4⟩, a5⟩, a6⟩, a7⟩, a8⟩, a9⟩, a10⟩, a11⟩, a12, a15⟩, a13⟩, a14⟩ := hcheck
  obtain ⟨core0, hcore0, b14⟩ := (Option.any_eq_true _ _).1 a14
  simp only [List.all_eq_true] at b14
  have hsub : ∀ s ∈ core, s ∈ core0 := by
    intro s hs
    obtain ⟨h1, ⟨e, h2, h3, h4⟩, c, h5, h6⟩ := (hmem s).1 hs
    rw [C01_core_eq_feasible _ (filteredSpec_wf []) (by decide) rfl core0 hcore0]
    refine ⟨h1, ⟨[0], [e], by simp [unfilteredSpec], rfl, by rw [h3]; simp, by simpa using h4⟩, ?_, ?_, ?_⟩
    · rw [h3]
      exact .cons (by omega) .nil
    · rw [h6]; rfl
    · rw [h6]
      intro l hl
      rw [List.mem_singleton] at hl
      exact ⟨c, h5, hl⟩
  have hexp : ∃ start, Dict.keys start = [0] ∧ p.experience = [(start, 2)] := by
    generalize p.experience = xs at a5
    cases xs with
    | nil => simp at a5
    | cons e es =>
      simp only [List.map_cons, List.cons.injEq, Prod.mk.injEq, List.map_eq_nil_iff] at a5
      exact ⟨e.1, a5.1.1, by rw [a5.2, ← a5.1.2]⟩
  obtain ⟨start, hst, hexp⟩ := hexp
  have hdef : ∀ c ∈ p.choices.choices, ∀ f ∈ p.userRestrictions filteredUser c,
      textEval.defined (p.columns false) f = true := by
    intro c hcm f hf
    rw [a1] at hcm
    simp only [List.mem_cons, List.not_mem_nil, or_false] at hcm
    rcases hcm with rfl | rfl
    · rw [a7, List.mem_singleton] at hf
      rw [hf]; exact a8
    · rw [a6] at hf; cases hf
  have hcomp : ∀ d ∈ (p.buildSpec textEval).denseIndices, ∀ s ∈ core, (p.stateFrame textEval d s).isSome :=
    fun d hd s hs => b14 d hd s (hsub s hs)
  have hdes : p.Described filteredUser textEval core := by
    refine ⟨by rw [a1]; simp, by rw [a2]; simp, fun grid hg => ⟨fun h => a15 (h ▸ hg), by rw [a1]; simp⟩, by omega, ?_, by omega, ?_, ?_, ?_, fun c hc f hf =>
      textEval_contract.more_columns _ _ f (hdef c hc f hf) (columns_dense p _), Or.inl hdef, a9, hcomp, ?_⟩
    · intro t ht
      exact ⟨⟨t, [0], [some 0]⟩, (hmem _).2 ⟨by rw [a11] at ht; exact ht, ⟨0, by decide, rfl, by simp⟩, 0, by decide, rfl⟩,
        rfl⟩
    · rw [a4]
      intro f hf
      rw [List.mem_singleton] at hf
      rw [hf, a2, a3]
      decide +kernel
    · rw [hexp]
      intro e he x hx
      rw [List.mem_singleton] at he
      rw [he, hst, List.mem_singleton] at hx
      omega
    · rw [hexp]
      intro e he
      rw [List.mem_singleton] at he
      rw [he]; omega
    · intro c hc beta hb item hi
      refine a10 c hc beta ?_ item hi
      rcases hb with hb | hb
      · simp [hb]
      · simp [hb]
  have hexo := List.length_eq_zero_iff.1 a13
  obtain ⟨covs, hfrom⟩ := processModel_from _ _ _ hp
  have hclosed : ∀ s ∈ core, s.period + 1 < p.nPeriods → ∀ d ∈ (p.buildSpec textEval).denseIndices,
      ∀ (a : Nat) (c : Str), p.choices.choices[a]? = some c → p.Allowed filteredUser textEval d s c →
        lawOfMotion s a ∈ core := by
    intro s hs ht d hd a c hca hall
    obtain ⟨h1, ⟨e, h2, h3, h4⟩, l, h5, h6⟩ := (hmem s).1 hs
    have halt : a < 2 := by
      have := (List.getElem?_eq_some_iff.1 hca).1
      rwa [a1] at this
    rw [a11] at ht
    have hlags : (lawOfMotion s a).lags = [some a] := by simp [lawOfMotion, updateLags, h6]
    rw [hmem]
    refine ⟨ht, ?_, a, halt, hlags⟩
    interval_cases a
    · rw [a1] at hca
      have hcb : "b".toList = c := by simpa using hca
      subst hcb
      have hval := (hdes.shaped hfrom hc s hs).experience hfrom.wExp_nodup a9 hfrom.groups_dense d (hcomp d hd s hs) 0
        "b".toList e (by rw [a2]; rfl) (by rw [h3]; rfl)
      have hno := hall.1 "exp_b == 1".toList (by rw [a7]; exact List.mem_singleton.2 rfl)
      have h7 : textEval.holds (p.covariates textEval d s) "exp_b == 1".toList = decide (e = 1) :=
        filteredHolds _ e 1 hval
      rw [h7] at hno
      have h8 : e = 0 := by
        have : e ≠ 1 := of_decide_eq_false hno
        omega
      refine ⟨1, by omega, ?_, ?_⟩
      · simp [lawOfMotion, updateExp, h3, h8]
      · simp [lawOfMotion]
    · refine ⟨e, h2, ?_, ?_⟩
      · simp [lawOfMotion, updateExp, h3]
      · simp only [lawOfMotion]; omega
  obtain ⟨bt, hbt⟩ := (C86_accepted_models_created hp textEval_contract hdes hc (Or.inl hexo)).2 hclosed
  refine ⟨p, core, bt, hp, hc, ⟨hdes, Or.inr hclosed⟩, a4, hexo, hbt, ?_, ?_⟩
  · rw [hmem]
    exact ⟨by decide, ⟨1, by decide, rfl, by decide⟩, 0, by decide, rfl⟩
  · rw [hmem]
    rintro ⟨_, ⟨e, h1, h2, _⟩, _⟩
    simp only [List.cons.injEq, and_true] at h2
    omega

end Respy
