import Verif.Props.ProcessModelExample
import Verif.Props.ShippedFilters

/-!
# C105: models with shipped filters
-/

namespace Respy

variable {env : ProcessEnv} {m : UserModel} {p : Processed} {ev : FormulaEval} {core : List CoreState}

/-- **C105.** Accepted models with the choices and filters which are shipped with Keane and Wolpin (1994): the states are
those which can be reached, and the model is solved (C82), simulated (C83) and estimated (C84). -/
theorem C105_models_like_kw94 (hp : processModel env m = some p) (hf : m.filters = kw94Filters)
    (hch : p.choices = kw94Choices) (hobs : textLevels p.observables = []) (hl : p.lags.length = 1)
    (hread : ∀ f ∈ kw94Formulas, ev.Reads f) (hs : p.Described m ev core)
    (hcore : createCore (p.buildSpec ev).core = some core) :
    p.Supported m ev core ∧
      ∀ s, s ∈ core ↔ ReachableState (p.buildSpec ev).core (NotWorked 2 4) AllAllowed s := by
  have kw := C105_shipped_filters_kw94 hp hf hch hobs hl hread
  obtain ⟨covs, h⟩ := processModel_from env m p hp
  refine ⟨C105_filtered_models_supported hp hs hcore 2 kw, fun s => ?_⟩
  rw [C105_filtered_states_reachable _ (hs.spec h) 2 kw core hcore]
  have : (p.buildSpec ev).core.nChoices = 4 := by
    show p.choices.choices.length = 4
    rw [hch]; rfl
  rw [this]

/-- **C105.** The same for the extended model of Keane and Wolpin (1997). -/
theorem C105_models_like_kw97 (hp : processModel env m = some p) (hf : m.filters = kw97Filters)
    (hch : p.choices = kw97Choices) (hobs : textLevels p.observables = []) (hl : p.lags.length = 1)
    (hread : ∀ f ∈ kw97Formulas, ev.Reads f) (hs : p.Described m ev core)
    (hcore : createCore (p.buildSpec ev).core = some core) :
    p.Supported m ev core ∧
      ∀ s, s ∈ core ↔ ReachableState (p.buildSpec ev).core (NotWorked 3 5) AllAllowed s := by
  have kw := C105_shipped_filters_kw97 hp hf hch hobs hl hread
  obtain ⟨covs, h⟩ := processModel_from env m p hp
  refine ⟨C105_filtered_models_supported hp hs hcore 3 kw, fun s => ?_⟩
  rw [C105_filtered_states_reachable _ (hs.spec h) 3 kw core hcore]
  have : (p.buildSpec ev).core.nChoices = 5 := by
    show p.choices.choices.length = 5
    rw [hch]; rfl
  rw [this]

/-- Columns of the core in the frame of a state. -/
theorem Processed.Shaped.core_value {s : CoreState} (hs : p.Shaped s)
    (hnames : ∀ x ∈ denseColumns p.denseSpec, x.toList ∉ p.columns false)
    (hgroups : ∀ k ∈ Dict.keys p.groups.dense, k ∉ p.columns false) (d : Option Nat)
    (hdf : (p.stateFrame ev d s).isSome) (x : Str) (v : ℝ) (hx : x ∈ coreColumns p.choices.wExp p.lags.length)
    (hv : Dict.get? (p.coreRow s) x = some v) : p.covariates ev d s x = some v := by
  obtain ⟨df, hdf⟩ := Option.isSome_iff_exists.1 hdf
  obtain ⟨co, h1, h2⟩ := hs.stateFrame hnames hgroups d df hdf
  unfold Processed.covariates
  rw [hdf, Option.bind_some, h2, (hs.coreFrame ev co h1).1 _ _ hv]
  unfold Processed.columns
  exact List.mem_append_left _ (List.mem_append_left _ hx)

theorem one_comparison {row : Str → Option ℝ} {col : Str} {rel : Relation} {k v : Nat}
    (hr : ev.Reads [⟨.column col, rel, .number k⟩]) (hv : row col = some (v : ℝ)) :
    ev.holds row (formulaOf [⟨.column col, rel, .number k⟩]) = false ↔ ¬ rel.Holds (v : ℝ) (k : ℝ) := by
  rw [Reads_false_iff hr row (by simp [Term.columns, hv])]
  simp only [List.forall_mem_cons, List.not_mem_nil, false_imp_iff, implies_true, and_true]
  rw [Comparison.holds_iff (.column col) (.number k) _ hv rfl]

/-- `period < 2` and `exp_fishing == 0` (`respy/tests/resources/robinson_crusoe_extended.yaml:14-18`). -/
def robinsonRestrictions : List Formula :=
  [[⟨.column "period".toList, .lt, .number 2⟩], [⟨.column "exp_fishing".toList, .eq, .number 0⟩]]

/-- **C105.** The same for the extended model of Robinson Crusoe with its negative choice set: the choice of Friday is
forbidden in the first two periods and without experience in fishing. -/
theorem C105_models_like_robinson (hp : processModel env m = some p) (hf : m.filters = robinsonTexts)
    (hneg : m.negativeChoiceSet = [("friday".toList, robinsonRestrictions.map formulaOf)])
    (hch : p.choices = robinsonChoices) (hobs : textLevels p.observables = []) (hl : p.lags.length = 1)
    (hexp : (p.experience.map fun e => (Dict.keys e.1, e.2)) = [([0], p.nPeriods - 1), ([0], p.nPeriods - 1)])
    (hread : ∀ f ∈ robinsonFormulas, ev.Reads f) (hread' : ∀ f ∈ robinsonRestrictions, ev.Reads f)
    (hs : p.Described m ev core) (hcore : createCore (p.buildSpec ev).core = some core) :
    p.Supported m ev core ∧
      ∀ s, s ∈ core ↔ ReachableState (p.buildSpec ev).core (fun lags => lags = [some 2]) RobinsonMay s := by
  have rc := C105_shipped_filters_robinson hp hf hch hobs hl hexp hread
  obtain ⟨covs, h⟩ := processModel_from env m p hp
  have hper : (p.buildSpec ev).core.nPeriods ≤ 256 := by
    have hm := hs.maxima
    have h2 := congrArg (List.map Prod.snd) hexp
    simp only [List.map_map, Function.comp_def, List.map_cons, List.map_nil] at h2
    have : p.nPeriods - 1 ∈ p.experience.map Prod.snd := by
      show p.nPeriods - 1 ∈ p.experience.map fun e => e.2
      rw [h2]; simp
    obtain ⟨e, he, he'⟩ := List.mem_map.1 this
    have := hm e he
    show p.nPeriods ≤ 256
    omega
  refine ⟨{ toDescribed := hs, closed := Or.inr ?_ }, C105_robinson_reachable _ rc hper core hcore⟩
  intro s hmem ht d hd a c hc hall
  have halt : a < 3 := by
    have := (List.getElem?_eq_some_iff.1 hc).1
    rwa [hch] at this
  refine C105_robinson_closed _ rc hper core hcore s hmem ht a halt ?_
  unfold robinsonForbidden
  by_cases ha : a = 1
  swap
  · simp [ha]
  subst ha
  have hcf : c = "friday".toList := by
    rw [hch] at hc
    exact (Option.some.inj hc).symm
  obtain ⟨fish, friday, lag, he, _⟩ := (mem_robinson_core _ rc hper core hcore s).1 hmem
  have hsh := hs.shaped h hcore s hmem
  have hcomp := hs.computable d hd s hmem
  have hv := coreRow_values_robinson hch s.period fish friday lag
  rw [← he] at hv
  have hcols : "period".toList ∈ coreColumns p.choices.wExp p.lags.length ∧
      "exp_fishing".toList ∈ coreColumns p.choices.wExp p.lags.length := by
    rw [hch, hl]
    decide +kernel
  have v1 := hsh.core_value hs.names h.groups_dense d hcomp _ _ hcols.1 hv.1
  have v2 := hsh.core_value hs.names h.groups_dense d hcomp _ _ hcols.2 hv.2.1
  have hus : p.userRestrictions m c = robinsonRestrictions.map formulaOf := by
    unfold Processed.userRestrictions
    rw [hobs, hch, hneg, hcf]
    decide +kernel
  have hno := hall.1
  rw [hus, List.forall_mem_map] at hno
  have n1 := (one_comparison (hread' _ (by simp [robinsonRestrictions])) v1).1
    (hno _ (List.mem_cons_self ..))
  have n2 := (one_comparison (hread' _ (by simp [robinsonRestrictions])) v2).1
    (hno _ (List.mem_cons_of_mem _ (List.mem_cons_self ..)))
  simp only [Relation.Holds, Nat.cast_lt, Nat.cast_inj] at n1 n2
  have hfish : s.exp.getD 0 0 = fish := by rw [he]; rfl
  rw [hfish]
  simp [n1, n2]

end Respy
