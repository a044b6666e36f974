import Verif.Props.InitialTypes
import Verif.Props.ProcessEstimateExample
import Verif.Props.ProcessSimulateExample

/-!
# C112 Example: types in simulated samples and in the likelihood

A model with two types whose probabilities depend on an observable.
-/

namespace Respy

noncomputable section

/-- A test of the properties of the model which are needed for samples. -/
def typesCheck (p : Processed) : Bool :=
  decide (0 < p.nPeriods) && decide (p.filters = []) &&
  (p.experience.all fun e => (Dict.keys e.1).all fun x => decide (x ≤ e.2)) &&
  decide (p.stateColumns = ["exp_b".toList, "lagged_choice_1".toList, "iq".toList, "type".toList]) &&
  (p.lags.all fun d => decide (Dict.keys d = p.choices.choices)) &&
  decide (2 ≤ p.nTypes → Dict.keys p.typeProb = List.range p.nTypes) &&
  (p.groups.all.all fun cd => textDefined cd.2.dependsOn cd.2.formula) &&
  decide ("period".toList ∉ Dict.keys p.groups.all ++ p.stateColumns) &&
  (p.observables.all fun o => decide (o.1 ∉ Dict.keys p.exogenous) &&
    (levelParams "observable".toList o.1 estimateUser.params).all fun r => decide (r.name = "probability".toList)) &&
  ((p.sampledVariables.drop p.observables.length).all fun v => v.betas.all fun beta => beta.all fun item =>
    decide (item.1 = "constant".toList) || decide (item.1 = "able".toList) && decide (v.name = "type".toList)) &&
  decide (p.sampledVariables.map SampledVariable.name = ["iq".toList, "exp_b".toList, "lagged_choice_1".toList,
    "type".toList]) &&
  (p.groups.all.any fun cd => decide (cd.1 = "constant".toList) && decide (cd.2.dependsOn = [])) &&
  (p.groups.all.any fun cd => decide (cd.1 = "able".toList) && decide (cd.2.dependsOn = ["iq".toList])) &&
  decide (p.observables.length = 1)

theorem typesUser_check : (processModel unitEnv estimateUser).any typesCheck = true := by decide +kernel

/-- Types are sampled after the observable, on which their probabilities depend. -/
theorem estimateUser_samplable (p : Processed) (hp : processModel unitEnv estimateUser = some p) (input : List CharRow) :
    p.Samplable textEval input ∧ p.stateColumns = ["exp_b".toList, "lagged_choice_1".toList, "iq".toList, "type".toList] ∧
      p.observables.length = 1 := by
  have h := typesUser_check
  rw [hp, Option.any_some] at h
  unfold typesCheck at h
  simp only [Bool.and_eq_true, decide_eq_true_eq, List.all_eq_true, List.any_eq_true, Bool.or_eq_true] at h
  obtain ⟨⟨⟨⟨⟨⟨⟨⟨⟨⟨⟨⟨⟨h1, hf⟩, h2⟩, h3⟩, h4⟩, h5⟩, h6⟩, h7⟩, hobs⟩, h8⟩, h9⟩, ⟨⟨c, d⟩, hcd, rfl, hd⟩⟩,
    ⟨⟨c', d'⟩, hcd', rfl, hd'⟩⟩, h10⟩ := h
  refine ⟨C83_samplable_of_grounded input h1 h2 (by rw [hf]; intro f hf; cases hf) (by rw [h3]; decide +kernel) h4 h5
    (fun cd hcd row hrow => textEval_defined _ _ (h6 cd hcd) row hrow) h7
    fun pre v post hsplit beta hb item hi => ?_, h3, h10⟩
  have hv : v ∈ p.sampledVariables := by rw [hsplit]; simp
  have hitem : item.1 = "constant".toList ∨ item.1 = "able".toList ∧ v.name = "type".toList := by
    rw [← List.take_append_drop p.observables.length p.sampledVariables] at hv
    rcases List.mem_append.1 hv with hv | hv
    · have htake : p.sampledVariables.take p.observables.length =
          p.observables.map fun o => ⟨o.1, List.range o.2.length, o.2.map Prod.snd⟩ := by
        unfold Processed.sampledVariables
        rw [List.append_assoc, List.append_assoc]
        exact List.take_left' (by simp)
      rw [htake] at hv
      obtain ⟨o, ho, rfl⟩ := List.mem_map.1 hv
      obtain ⟨l, hl, rfl⟩ := List.mem_map.1 hb
      obtain ⟨hx, hr⟩ := hobs o ho
      obtain ⟨_, hfrom⟩ := processModel_from unitEnv estimateUser p hp
      rcases parseGroup_names (hfrom.observable_levels o ho hx) l hl item hi with h | ⟨r, hmem, _, hne⟩
      · exact Or.inl h
      · exact absurd (hr r hmem) hne
    · exact h8 v hv beta hb item hi
  rcases hitem with h | ⟨h, hty⟩
  · rw [h]
    refine ⟨by decide, .covariate _ d hcd (by rw [h3]; decide +kernel) ?_⟩
    have hd : d.dependsOn = [] := hd
    rw [hd]
    intro x hx; cases hx
  · rw [h]
    refine ⟨by decide, .covariate _ d' hcd' (by rw [h3]; decide +kernel) ?_⟩
    have hd' : d'.dependsOn = ["iq".toList] := hd'
    rw [hd']
    intro x hx
    rw [List.mem_singleton] at hx
    subst hx
    refine .known _ (Or.inr ⟨by rw [h3]; decide +kernel, Or.inr ?_⟩)
    rw [hsplit, List.map_append, List.map_cons, hty] at h9
    cases pre with
    | nil =>
      have := congrArg List.head? h9
      simp at this
    | cons u pre =>
      have := congrArg List.head? h9
      rw [List.map_cons, List.cons_append, List.head?_cons, List.head?_cons, Option.some.injEq] at this
      rw [List.map_cons, this]
      exact List.mem_cons_self

/-- The individual in the data who starts without experience, with the second choice as lagged choice and a high ability has
types with the same probabilities in the likelihood and in simulated samples. All hypotheses of the theorem hold. -/
example : ∃ (p : Processed) (la : ∀ n, LinearAlgebra n) (hi : ℝ), processModel unitEnv estimateUser = some p ∧
    ∃ fuel, ∀ fuel', fuel ≤ fuel' →
      (p.typeLaw textEval).weights 0 (rowOfState ⟨0, [0], [some 1]⟩ [1] ++ [none]) = (List.range 2).map
        (typeWeight 2 (typeScore (p.estimation textEval { estimateEnv la hi with fuel := fuel' } none) p.likelihoodParams
          ⟨0, ⟨⟨0, [0], [some 1]⟩, [1]⟩, 0, some 1⟩)) := by
  obtain ⟨p', hp', hcheck⟩ := (Option.any_eq_true _ _).1 estimateUser_check
  obtain ⟨p, core, hp, hcore, hs, hexo, _, _, _, _, _, _, _, hc, hf, _, hts, hnt, hprob, la, hi, ho, hfit⟩ :=
    estimateUser_hypotheses
  obtain rfl : p' = p := Option.some.inj (hp'.symm.trans hp)
  unfold estimateCheck at hcheck
  simp only [Bool.and_eq_true] at hcheck
  obtain ⟨⟨⟨⟨⟨⟨⟨⟨⟨⟨⟨⟨⟨⟨⟨⟨⟨⟨⟨_, _⟩, h3⟩, h4⟩, _⟩, _⟩, _⟩, _⟩, _⟩, _⟩, _⟩, _⟩, _⟩, _⟩, _⟩, _⟩, _⟩, _⟩, _⟩, h17⟩ := hcheck
  have hgrid : (p'.buildSpec textEval).grid = some [[0, 0], [0, 1], [1, 0], [1, 1]] := of_decide_eq_true h3
  have hn2 : p'.nTypes = 2 := of_decide_eq_true h4
  have hdata : ∀ r ∈ estimateData, r.state.core ∈ core := by
    obtain ⟨core', hcore', h⟩ := (Option.any_eq_true _ _).1 h17
    rw [hcore] at hcore'
    cases hcore'
    exact fun r hr => of_decide_eq_true (List.all_eq_true.1 h r hr)
  obtain ⟨hsam, hsc, hob⟩ := estimateUser_samplable p' hp (exampleSimulate 4 2).input
  obtain ⟨fuel, h⟩ := C112_type_probabilities_of_likelihood hp hc hf hs hcore hexo hts hnt hprob hsam
    (estimateEnv la hi) ho none hdata
  refine ⟨p', la, hi, hp, fuel, fun fuel' hle => ?_⟩
  have := h fuel' hle ⟨0, ⟨⟨0, [0], [some 1]⟩, [1]⟩, 0, some 1⟩ (by simp [estimateEnv, estimateData]) rfl
    (by rw [hob]; rfl) (fun t ht => ⟨some (2 + t), by
      rw [hn2] at ht
      unfold BuildSpec.HasIndex
      rw [hgrid]
      interval_cases t <;> simp⟩) 0 (List.replicate 4 none) rfl (by
      show (List.replicate 4 none)[p'.stateColumns.idxOf "type".toList]? = some none
      rw [hsc]
      decide +kernel)
  rw [hn2] at this
  exact this

end

end Respy
