import Verif.Lemmas.OptionOrder
import Verif.Props.ParameterFunctions

/-!
# C102 The order of options does not matter

Covariates, restrictions and filters are dictionaries and lists; their order has no meaning.
-/

namespace Respy

section
variable {env : ProcessEnv} {m m' : UserModel} {p q : Processed} {ev : FormulaEval}

/-- **C102.** Options with another order are accepted if the options are accepted. -/
theorem C102_accepted (h : OtherOptions m m') : (processModel env m).isSome = (processModel env m').isSome := by
  rw [Bool.eq_iff_iff]
  constructor <;> intro hs
  · obtain ⟨p, hp⟩ := Option.isSome_iff_exists.1 hs
    obtain ⟨p', hp', _⟩ := processModel_options h hp
    rw [hp']; rfl
  · obtain ⟨p, hp⟩ := Option.isSome_iff_exists.1 hs
    obtain ⟨p', hp', _⟩ := processModel_options h.symm hp
    rw [hp']; rfl

/-- **C102 (partial).** The processed models have the same state space, the same covariates in every state and the same
solution. Missing: covariates whose formulas are not described by their dependencies, which depend on the order
(`C53_constant_false`). -/
theorem C102_same_model_partial (h : OtherOptions m m') (hp : processModel env m = some p) (hev : ev.Contract)
    (hf : p.FormulasSound ev) : ∃ p', processModel env m' = some p' ∧
      p'.FormulasSound ev ∧ buildSpace (p.buildSpec ev) = buildSpace (p'.buildSpec ev) ∧
      p.covariates ev = p'.covariates ev ∧ (∀ d s, choiceSet (p.restrictions ev d) s = choiceSet (p'.restrictions ev d) s) ∧
      ∀ r, p.solveWith p ev r = p'.solveWith p' ev r := by
  obtain ⟨p', hp', hs, _⟩ := processModel_options h hp
  exact ⟨p', hp', SameModel.formulasSound hs hf, hs.buildSpace hf hev, hs.covariates hf,
    fun d s => hs.choiceSet hf hev d s, fun r => (hs.solveWith hf hev r).symm⟩

/-- **C102 (partial).** A solve function which is created with another order of the options returns the same solution
at all parameters, or raises if the other one raises. Missing: as above. -/
theorem C102_solve_function_partial (h : OtherOptions m m') (hp : processModel env m = some p) (hev : ev.Contract)
    (hf : p.FormulasSound ev) (r : SolveRoutines) : getSolveFunc env ev r m = getSolveFunc env ev r m' := by
  obtain ⟨p', hp', hs, hn⟩ := processModel_options h hp
  unfold getSolveFunc
  simp only [hp, hp', Option.bind_eq_bind, Option.bind_some, hs.buildSpace hf hev]
  congr 1
  funext bt
  simp only [Option.pure_def, Option.some.injEq]
  funext θ
  have ho := h.reprocessed hs hn θ
  cases hq : processModel env (m.reprocessed p θ) with
  | none =>
    have := C102_accepted (env := env) ho
    rw [hq] at this
    cases hq' : processModel env (m'.reprocessed p' θ) with
    | none => rfl
    | some q' => rw [hq'] at this; cases this
  | some q =>
    obtain ⟨q', hq', hqs, _⟩ := processModel_options ho hq
    rw [hq', Option.bind_some, Option.bind_some, hqs.same.solveWith, hs.solveSpace hf hev]

theorem SameGroups.convert (h : SameGroups p q) : p.convert = q.convert := by
  unfold Processed.convert
  rw [h.same.choices, h.same.observables]

theorem OtherOptions.reprocessable (h : OtherOptions m m') (hs : SameGroups p q) (hr : m.Reprocessable p) :
    m'.Reprocessable q := by
  obtain ⟨a1, a2, a3, a4, a5, a6, a7, a8⟩ := hr
  have hk : ∀ k, k ∈ Dict.keys m'.covariates ↔ k ∈ Dict.keys m.covariates := fun k =>
    ((h.covariates.map Prod.fst).mem_iff (a := k)).symm
  refine ⟨(h.covariates.map Prod.fst).nodup_iff.1 a1, fun c f hf => ?_, fun c f hf k hk' hkf => ?_, fun c f hf => ?_,
    fun c f hf => ?_, fun i h1 h2 f hf => ?_, fun c hc f hf => ?_, fun f hf => ?_⟩
  · rw [← hs.convert]; exact a2 c f (h.covariates.mem_iff.2 hf)
  · rw [← hs.convert]; exact a3 c f (h.covariates.mem_iff.2 hf) k ((hk k).1 hk') hkf
  · rw [← hs.convert]; exact a4 c f (h.covariates.mem_iff.2 hf)
  · rw [← hs.convert]; exact a5 c f (h.covariates.mem_iff.2 hf)
  · exact a6 i h1 (hs.same.nTypes ▸ h2) f (h.covariates.mem_iff.2 hf)
  · rw [← hs.convert]
    refine a7 c (hs.same.choices ▸ hc) f ?_
    have := h.restrictions c
    generalize Dict.get? m.negativeChoiceSet c = a at this
    generalize Dict.get? m'.negativeChoiceSet c = b at this hf
    cases this with
    | none => exact hf
    | some h => exact (h f).2 hf
  · rw [← hs.same.choices, ← hs.same.observables]
    exact a8 f ((hs.same.filters f).2 hf)

theorem OtherOptions.sameIndex (h : OtherOptions m m') {θ : Dict (Str × Str) ℝ} (hθ : m.SameIndex θ) :
    m'.SameIndex θ := by
  obtain ⟨h1, h2⟩ := hθ
  exact ⟨h.params ▸ h1, fun c => h.params ▸ h2 c⟩

theorem keys_same (hs : SameGroups p q) (k : Str) : k ∈ Dict.keys q.groups.all ↔ k ∈ Dict.keys p.groups.all :=
  ⟨hs.sup.all.keys k, hs.sub.all.keys k⟩

/-- **C102 (partial).** A simulate function which is created with another order of the options returns the same sample,
with the same use of random numbers. Missing: as above, and options which cannot be processed twice (C85). -/
theorem C102_simulate_function_partial {G : Type} (h : OtherOptions m m') (hp : processModel env m = some p)
    (hr : m.Reprocessable p) (hev : ev.Contract) (hf : p.FormulasSound ev)
    (hid : "identifier".toList ∉ Dict.keys p.groups.all) (r : SolveRoutines) (e : SimulateEnv G) :
    Option.Rel (fun simulate simulate' => ∀ θ, m.SameIndex θ → simulate θ = simulate' θ)
      (getSimulateFunc env ev r m e) (getSimulateFunc env ev r m' e) := by
  obtain ⟨p', hp', hs, _⟩ := processModel_options h hp
  obtain ⟨h1, h2⟩ := C87_simulate_function_partial hp hr hev hf hid r e
  obtain ⟨h1', h2'⟩ := C87_simulate_function_partial hp' (h.reprocessable hs hr) hev (SameModel.formulasSound hs hf)
    (fun hk => hid ((keys_same hs _).1 hk)) r e
  rw [← hs.buildSpace hf hev, ← h1] at h1'
  cases hc : getSimulateFunc env ev r m e with
  | none =>
    cases hc' : getSimulateFunc env ev r m' e with
    | none => exact .none
    | some l' => rw [hc, hc'] at h1'; simp at h1'
  | some l =>
    cases hc' : getSimulateFunc env ev r m' e with
    | none => rw [hc, hc'] at h1'; simp at h1'
    | some l' =>
      refine .some fun θ hθ => funext fun g => ?_
      obtain ⟨q, _, hq, _, _, e1⟩ := h2 l hc θ hθ
      obtain ⟨q', _, hq', _, _, e2⟩ := h2' l' hc' θ (h.sameIndex hθ)
      obtain ⟨q1, _, hq1, _, hst, _⟩ := reprocess_groups hp hr θ hθ
      rw [hq] at hq1
      cases hq1
      obtain ⟨q2, hq2, hqs, _⟩ := processModel_options (h.withParams θ) hq
      rw [hq'] at hq2
      cases hq2
      have hfq := hst.formulasSound hf
      rw [e1, e2, hqs.solveWith hfq hev, hqs.simulation hfq (hst.groups ▸ hid)]

theorem SameGroups.typeCovariates (h : SameGroups p q) (hf : p.FormulasSound ev)
    (hid : "identifier".toList ∉ Dict.keys p.groups.all) (r : EstimationRow) :
    Option.Rel SameFrame (p.typeCovariates ev r) (q.typeCovariates ev r) := by
  have hst : p.nStatic = q.nStatic := by
    unfold Processed.nStatic
    rw [h.same.denseSpec]
  have hobs : p.observationFrame = q.observationFrame := by
    funext r
    unfold Processed.observationFrame
    rw [h.same.coreRow, h.same.denseSpec]
  unfold Processed.typeCovariates
  rw [hst, hobs]
  refine computeCovariates_same false (SameFrame.refl _) h.sub.core h.sup.core h.facts.core_nodup h.facts'.core_nodup
    (fun c hc => ?_) fun c d hcd => hf.accurate c d (h.facts.core_sub _ hcd)
  have hall : c ∈ Dict.keys p.groups.all := by
    obtain ⟨⟨c', d⟩, hm, rfl⟩ := List.mem_map.1 hc
    exact List.mem_map.2 ⟨_, h.facts.core_sub _ hm, rfl⟩
  rw [Dict.get?_eq_none_iff]
  intro hk
  rcases List.mem_cons.1 hk with rfl | hk
  · exact hid hall
  · rcases List.mem_cons.1 hk with rfl | hk
    · exact hf.names _ (List.mem_append_left _ (by simp [coreColumns])) hall
    · cases hk

theorem SameFrame.insert {V : Type _} {df df' : Frame V} (h : SameFrame df df') (k : Str) (v : V) :
    SameFrame ⟨df.columns.insert k v, df.index⟩ ⟨df'.columns.insert k v, df'.index⟩ :=
  ⟨fun x => by
    dsimp only
    rw [Dict.get?_insert, Dict.get?_insert, h.columns], h.index⟩

theorem SameGroups.typeFrame (h : SameGroups p q) (hf : p.FormulasSound ev)
    (hid : "identifier".toList ∉ Dict.keys p.groups.all)
    (e : EstimateEnv) (ho : ∀ n l, (e.order n l).Perm l) (r : EstimationRow) (t : Nat) (bound : Nat)
    (hg : Graded p.groups.all (((Dict.get? p.typeProb t).getD []).map Prod.fst) bound) (hfuel : bound + 1 ≤ e.fuel) :
    Option.Rel SameFrame (p.typeFrame ev e r t) (q.typeFrame ev e r t) := by
  unfold Processed.typeFrame
  rw [← h.same.typeProb]
  have hcov := h.typeCovariates hf hid r
  have hindex := typeCovariates_index h.facts.core_nodup (fun c d => h.facts.core_sub (c, d)) hf hid r
  generalize p.typeCovariates ev r = a at hcov hindex
  generalize q.typeCovariates ev r = b at hcov
  cases hcov with
  | none => exact .none
  | @some df df' hdf =>
  obtain ⟨found, N, a1, a2, a3, a4⟩ := necessary_definitions hg e.order ho
  obtain ⟨found', N', b1, b2, b3, b4⟩ := necessary_definitions
    (hg.of_same h.sub.all h.sup.all h.facts.nodup h.facts'.nodup h.facts'.deps_nodup) e.order ho
  simp only [Option.bind_eq_bind, Option.bind_some, a1 _ hfuel, b1 _ hfuel, Except.toOption, a2, b2]
  have hmem : ∀ c d, (c, d) ∈ N → (c, d) ∈ p.groups.all := fun c d hcd =>
    Dict.mem_of_get? _ _ _ ((a4 c d).1 hcd).2
  refine computeCovariates_same true (hdf.insert _ _) ?_ ?_ a3 b3 (fun c hc => ?_)
    fun c d hcd => hf.accurate c d (hmem c d hcd)
  · intro c d hcd
    obtain ⟨⟨⟨n, h1⟩, h2⟩, h3⟩ := (a4 c d).1 hcd
    obtain ⟨d', h4, h5⟩ := h.sub.all.get? h.facts'.nodup h3
    exact ⟨d', (b4 c d').2 ⟨⟨⟨n, h1.of_sub h.sub.all h.facts'.nodup⟩, h2.of_sub h.sub.all h.facts'.nodup⟩, h4⟩, h5⟩
  · intro c d hcd
    obtain ⟨⟨⟨n, h1⟩, h2⟩, h3⟩ := (b4 c d).1 hcd
    obtain ⟨d', h4, h5⟩ := h.sup.all.get? h.facts.nodup h3
    exact ⟨d', (a4 c d').2 ⟨⟨⟨n, h1.of_sub h.sup.all h.facts.nodup⟩, h2.of_sub h.sup.all h.facts.nodup⟩, h4⟩, h5⟩
  · obtain ⟨⟨c', d⟩, hm, rfl⟩ := List.mem_map.1 hc
    dsimp only
    rw [hindex df rfl, Dict.get?_eq_none_iff]
    intro hk
    have hk' : c' ∈ Dict.keys p.groups.all := List.mem_map.2 ⟨_, hmem _ _ hm, rfl⟩
    simp only [Dict.keys, List.map_cons, List.map_nil, List.mem_cons, List.not_mem_nil, or_false] at hk
    rcases hk with rfl | rfl
    · exact hid hk'
    · exact hf.names _ (List.mem_append_left _ (by simp [coreColumns])) hk'

/-- The criterion function of processed models which differ only in orders. -/
theorem SameGroups.estimation (h : SameGroups p q) (hf : p.FormulasSound ev)
    (hid : "identifier".toList ∉ Dict.keys p.groups.all) (e : EstimateEnv) (ho : ∀ n l, (e.order n l).Perm l)
    (hg : ∀ t, ∃ bound, Graded p.groups.all (((Dict.get? p.typeProb t).getD []).map Prod.fst) bound ∧
      bound + 1 ≤ e.fuel) (sp : Option (SimSpace ℝ)) : q.estimation ev e sp = p.estimation ev e sp := by
  have hcov : (fun (r : EstimationRow) t x => (q.typeFrame ev e r t).bind fun df => Dict.get? df.columns x) =
      fun r t x => (p.typeFrame ev e r t).bind fun df => Dict.get? df.columns x := by
    funext r t x
    obtain ⟨bound, h1, h2⟩ := hg t
    have h3 := h.typeFrame hf hid e ho r t bound h1 h2
    generalize p.typeFrame ev e r t = a at h3
    generalize q.typeFrame ev e r t = b at h3
    cases h3 with
    | none => rfl
    | some h => exact (h.columns x).symm
  have hpar : q.likelihoodParams = p.likelihoodParams := by
    unfold Processed.likelihoodParams
    rw [h.same.cholesky, h.same.choices, h.same.measurement, h.same.discount, h.same.typeProb]
  have hst : q.nStatic = p.nStatic := by
    unfold Processed.nStatic
    rw [h.same.denseSpec]
  unfold Processed.estimation
  rw [hcov, hpar, hst, h.same.nTypes, h.same.nPeriods]

/-- **C102 (partial).** A criterion function which is created with another order of the options has the same values.
Missing: as above, and searches for covariates which do not end (C54). -/
theorem C102_criterion_function_partial (h : OtherOptions m m') (hp : processModel env m = some p)
    (hr : m.Reprocessable p) (hev : ev.Contract) (hf : p.FormulasSound ev)
    (hid : "identifier".toList ∉ Dict.keys p.groups.all)
    (hg : ∀ t beta, Dict.get? p.typeProb t = some beta → ∃ bound, Graded p.groups.all (beta.map Prod.fst) bound)
    (r : SolveRoutines) :
    ∃ fuel, ∀ e : EstimateEnv, (∀ n l, (e.order n l).Perm l) → fuel ≤ e.fuel →
      Option.Rel (fun logLike logLike' => ∀ θ, m.SameIndex θ → logLike θ = logLike' θ)
        (getCriterionFunc env ev r m e) (getCriterionFunc env ev r m' e) := by
  obtain ⟨p', hp', hs, _⟩ := processModel_options h hp
  have hg' : ∀ t beta, Dict.get? p'.typeProb t = some beta →
      ∃ bound, Graded p'.groups.all (beta.map Prod.fst) bound := by
    intro t beta hb
    rw [← hs.same.typeProb] at hb
    obtain ⟨bound, hbound⟩ := hg t beta hb
    exact ⟨bound, hbound.of_same hs.sub.all hs.sup.all hs.facts.nodup hs.facts'.nodup hs.facts'.deps_nodup⟩
  obtain ⟨n, hn⟩ := graded_types hg hs.facts.deps_nodup
  obtain ⟨fuel, hfuel⟩ := C87_criterion_function_partial hp hr hev hf hid hg r
  obtain ⟨fuel', hfuel'⟩ := C87_criterion_function_partial hp' (h.reprocessable hs hr) hev
    (SameModel.formulasSound hs hf) (fun hk => hid ((keys_same hs _).1 hk)) hg' r
  refine ⟨max (max fuel fuel') (n + 1), fun e ho hle => ?_⟩
  obtain ⟨h1, h2⟩ := hfuel e ho (by omega)
  obtain ⟨h1', h2'⟩ := hfuel' e ho (by omega)
  rw [← hs.buildSpace hf hev, ← h1] at h1'
  cases hc : getCriterionFunc env ev r m e with
  | none =>
    cases hc' : getCriterionFunc env ev r m' e with
    | none => exact .none
    | some l' => rw [hc, hc'] at h1'; simp at h1'
  | some l =>
    cases hc' : getCriterionFunc env ev r m' e with
    | none => rw [hc, hc'] at h1'; simp at h1'
    | some l' =>
      refine .some fun θ hθ => ?_
      obtain ⟨q, _, hq, _, _, e1⟩ := h2 l hc θ hθ
      obtain ⟨q', _, hq', _, _, e2⟩ := h2' l' hc' θ (h.sameIndex hθ)
      obtain ⟨q1, _, hq1, _, hst, _⟩ := reprocess_groups hp hr θ hθ
      rw [hq] at hq1
      cases hq1
      obtain ⟨q2, hq2, hqs, _⟩ := processModel_options (h.withParams θ) hq
      rw [hq'] at hq2
      cases hq2
      have hfq := hst.formulasSound hf
      rw [e1, e2, hqs.solveWith hfq hev, hqs.estimation hfq (hst.groups ▸ hid) e ho]
      intro t
      obtain ⟨bound, b1, b2⟩ := hn t
      rw [groupShape_names hst.typeProb, hst.groups] at b1
      exact ⟨bound, b1, by omega⟩

end

end Respy
