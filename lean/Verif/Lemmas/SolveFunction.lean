import Verif.Lemmas.Reprocess
import Verif.Lemmas.SameIndex
import Verif.Spec.ProcessModel

/-!
# Functions of the parameters

Auxiliary results for C85.
-/

namespace Respy

theorem groupsShape_lengths {d d' : Dict Str LevelDict} (h : groupsShape d = groupsShape d') :
    (d.map fun o => (o.1, o.2.length)) = d'.map fun o => (o.1, o.2.length) := by
  have e : ∀ d : Dict Str LevelDict, (d.map fun o => (o.1, o.2.length)) =
      (groupsShape d).map fun o => (o.1, o.2.length) := by
    intro d
    simp only [groupsShape, groupShape, List.map_map]
    refine List.map_congr_left fun o _ => ?_
    simp
  rw [e, e, h]

section

variable {p q : Processed}

theorem SameStructure.symm (h : SameStructure p q) : SameStructure q p :=
  ⟨h.nPeriods.symm, h.points.symm, h.choices.symm, h.exogenous.symm, h.observables.symm, h.experience.symm,
    ⟨h.measurement.1.symm, h.measurement.2.symm⟩, h.nTypes.symm, h.typeProb.symm, h.lags.symm,
    h.negativeChoiceSet.symm, h.filters.symm, h.groups.symm, fun c => (h.wage c).symm, fun c => (h.nonpec c).symm⟩

theorem SameStructure.denseSpec (h : SameStructure p q) : p.denseSpec = q.denseSpec := by
  have e : ∀ d : Dict Str LevelDict, (d.map fun o => (String.ofList o.1, o.2.length)) =
      (d.map fun o => (o.1, o.2.length)).map fun o => (String.ofList o.1, o.2) := by
    intro d
    rw [List.map_map]
    rfl
  unfold Processed.denseSpec
  rw [e, e, e, e, groupsShape_lengths h.exogenous, groupsShape_lengths h.observables, h.nTypes]

theorem SameStructure.coreFrame (h : SameStructure p q) (ev : FormulaEval) : p.coreFrame ev = q.coreFrame ev := by
  funext s
  unfold Processed.coreFrame Processed.coreRow
  rw [h.choices, h.groups]

theorem SameStructure.stateFrame (h : SameStructure p q) (ev : FormulaEval) : p.stateFrame ev = q.stateFrame ev := by
  funext d s
  unfold Processed.stateFrame Processed.denseStateFrame Processed.denseFrame
  rw [h.coreFrame, h.denseSpec, h.groups]

theorem SameStructure.covariates (h : SameStructure p q) (ev : FormulaEval) : p.covariates ev = q.covariates ev := by
  unfold Processed.covariates
  rw [h.stateFrame]

theorem SameStructure.lags_length (h : SameStructure p q) : p.lags.length = q.lags.length := by
  have := congrArg List.length h.lags
  simpa using this

theorem SameStructure.columns (h : SameStructure p q) : p.columns = q.columns := by
  unfold Processed.columns
  rw [h.denseSpec, h.groups, h.choices, h.lags_length]

theorem SameStructure.restrictions (h : SameStructure p q) (ev : FormulaEval) :
    p.restrictions ev = q.restrictions ev := by
  unfold Processed.restrictions
  rw [h.columns, h.covariates, h.choices, h.negativeChoiceSet]

theorem SameStructure.buildSpec (h : SameStructure p q) (ev : FormulaEval) : p.buildSpec ev = q.buildSpec ev := by
  have h1 : (p.experience.map fun e => Dict.keys e.1) = q.experience.map fun e => Dict.keys e.1 := by
    have := congrArg (List.map fun e : List (Nat × List Str) × Nat => e.1.map Prod.fst) h.experience
    simpa [groupShape, Dict.keys, Function.comp_def] using this
  have h2 : p.experience.map Prod.snd = q.experience.map Prod.snd := by
    have := congrArg (List.map Prod.snd) h.experience
    simpa [Function.comp_def] using this
  have h3 : (p.exogenous.map fun o => o.2.length) = q.exogenous.map fun o => o.2.length := by
    have := congrArg (List.map Prod.snd) (groupsShape_lengths h.exogenous)
    simpa [Function.comp_def] using this
  have h4 : p.coreRow = q.coreRow := by
    funext s
    unfold Processed.coreRow
    rw [h.choices]
  unfold Processed.buildSpec
  rw [h1, h2, h3, h4, h.restrictions, h.denseSpec, h.nPeriods, h.points, h.choices, h.filters, h.lags_length]

theorem SameStructure.reprocessable {m m' : UserModel} (h : SameStructure p q) (hc : m.covariates = m'.covariates)
    (hn : m.negativeChoiceSet = m'.negativeChoiceSet) (hr : m.Reprocessable p) : m'.Reprocessable q := by
  have ht := textLevels_shape h.observables
  have hconv : p.convert = q.convert := by
    unfold Processed.convert
    rw [h.choices, ht]
  obtain ⟨a1, a2, a3, a4, a5, a6, a7, a8⟩ := hr
  rw [hconv, hc] at a2 a3 a4 a5
  rw [hc] at a1 a6
  rw [h.nTypes] at a6
  rw [h.choices, hconv, hn] at a7
  rw [h.choices, h.filters, ht] at a8
  exact ⟨a1, a2, a3, a4, a5, a6, a7, a8⟩

/-- The parameters of the solution do not depend on the order of covariates. -/
theorem SameModel.solveWith {p0 : Processed} (h : SameModel p q) (ev : FormulaEval) (r : SolveRoutines) :
    p0.solveWith q ev r = p0.solveWith p ev r := by
  unfold Processed.solveWith Processed.solveInput Processed.exogenousParams
  rw [h.choices, h.wage, h.nonpec, h.cholesky, h.discount, h.exogenous]

theorem SameStructure.solveWith {q' : Processed} (h : SameStructure p q) (ev : FormulaEval) (r : SolveRoutines) :
    p.solveWith q' ev r = q.solveWith q' ev r := by
  have hx : p.exogenous = [] ↔ q.exogenous = [] := by
    have := congrArg List.length (groupsShape_lengths h.exogenous)
    simp only [List.length_map] at this
    rw [← List.length_eq_zero_iff, ← List.length_eq_zero_iff, this]
  unfold Processed.solveWith
  rw [h.buildSpec, h.covariates]
  simp only [hx]

theorem SameStructure.userRestrictions {m m' : UserModel} (h : SameStructure p q)
    (hn : m.negativeChoiceSet = m'.negativeChoiceSet) : p.userRestrictions m = q.userRestrictions m' := by
  funext c
  unfold Processed.userRestrictions
  rw [h.choices, textLevels_shape h.observables, hn]

theorem SameStructure.experience_getElem? (h : SameStructure p q) {i : Nat} {start : Dict Nat (List (Str × ℝ))}
    {mx : Nat} (hi : q.experience[i]? = some (start, mx)) :
    ∃ start', p.experience[i]? = some (start', mx) ∧ Dict.keys start' = Dict.keys start := by
  have := congrArg (fun l => l[i]?) h.experience
  simp only [List.getElem?_map, hi, Option.map_some] at this
  obtain ⟨⟨start', mx'⟩, h1, h2⟩ := Option.map_eq_some_iff.1 this
  simp only [Prod.mk.injEq] at h2
  exact ⟨start', by rw [h1, h2.2], groupShape_keys h2.1⟩

theorem SameStructure.symm_experience (h : SameStructure p q) {e : Dict Nat (List (Str × ℝ)) × Nat}
    (he : e ∈ q.experience) : ∃ e' ∈ p.experience, Dict.keys e'.1 = Dict.keys e.1 ∧ e'.2 = e.2 := by
  obtain ⟨i, hi⟩ := List.mem_iff_getElem?.1 he
  obtain ⟨start', h1, h2⟩ := h.experience_getElem? hi
  exact ⟨_, List.mem_of_getElem? h1, h2, rfl⟩

theorem SameStructure.allowed {m m' : UserModel} (h : SameStructure p q)
    (hn : m.negativeChoiceSet = m'.negativeChoiceSet) {ev : FormulaEval} {d : Option Nat} {s : CoreState} {c : Str}
    (ha : p.Allowed m ev d s c) : q.Allowed m' ev d s c := by
  refine ⟨?_, fun i start mx e h1 h2 h3 h4 => ?_⟩
  · rw [← h.userRestrictions hn, ← h.covariates]
    exact ha.1
  · obtain ⟨start', h5, h6⟩ := h.experience_getElem? h2
    rw [← h.choices] at h1
    rw [← h6, ← h.nPeriods] at h4
    exact ha.2 i start' mx e h1 h5 h3 h4

theorem SameStructure.supported {m m' : UserModel} (h : SameStructure p q)
    (hn : m.negativeChoiceSet = m'.negativeChoiceSet) {ev : FormulaEval} {core : List CoreState}
    (hs : p.Supported m ev core) : q.Supported m' ev core where
  choice := h.choices ▸ hs.choice
  experience := h.choices ▸ hs.experience
  several := by
    rw [← h.denseSpec, ← h.choices]
    exact hs.several
  periods := h.nPeriods ▸ hs.periods
  covered := h.nPeriods ▸ hs.covered
  lags := h.lags_length ▸ hs.lags
  filters := by
    rw [← h.filters, ← h.choices, ← h.lags_length]
    exact hs.filters
  closed := by
    rw [← h.filters, ← h.buildSpec, ← h.nPeriods, ← h.choices]
    refine hs.closed.imp id fun hc s hs1 ht d hd a c hca hall => ?_
    exact hc s hs1 ht d hd a c hca (h.symm.allowed hn.symm hall)
  starts := by
    intro e he x hx
    obtain ⟨e', h1, h2, _⟩ := h.symm_experience he
    exact hs.starts e' h1 x (h2 ▸ hx)
  maxima := by
    intro e he
    obtain ⟨e', h1, _, h2⟩ := h.symm_experience he
    exact h2 ▸ hs.maxima e' h1
  restrictions := by
    rw [← h.choices, ← h.userRestrictions hn, ← h.columns, ← h.denseSpec]
    exact hs.restrictions
  separate := by
    rw [← h.choices, ← h.userRestrictions hn, ← h.columns, ← h.buildSpec]
    exact hs.separate
  names := by
    rw [← h.denseSpec, ← h.columns]
    exact hs.names
  computable := by
    rw [← h.buildSpec, ← h.stateFrame]
    exact hs.computable
  rewards := by
    rw [← h.choices, ← h.columns, ← h.denseSpec]
    intro c hc beta hb item hi
    have key : ∀ {x y : Option (List (Str × ℝ))}, x.map (List.map Prod.fst) = y.map (List.map Prod.fst) →
        y = some beta → ∃ beta', x = some beta' ∧ item.1 ∈ beta'.map Prod.fst := by
      intro x y hxy hy
      rw [hy, Option.map_some] at hxy
      obtain ⟨beta', h1, h2⟩ := Option.map_eq_some_iff.1 hxy
      exact ⟨beta', h1, h2 ▸ List.mem_map_of_mem (f := Prod.fst) hi⟩
    rcases hb with hb | hb
    · obtain ⟨beta', h1, h2⟩ := key (h.wage c) hb
      obtain ⟨item', h3, h4⟩ := List.mem_map.1 h2
      exact h4 ▸ hs.rewards c hc beta' (Or.inl h1) item' h3
    · obtain ⟨beta', h1, h2⟩ := key (h.nonpec c) hb
      obtain ⟨item', h3, h4⟩ := List.mem_map.1 h2
      exact h4 ▸ hs.rewards c hc beta' (Or.inr h1) item' h3

end

end Respy
