import Verif.Lemmas.SampleOrder
import Verif.Lemmas.TypeFrame
import Verif.Model.ParameterFunctions

/-! Helper lemmas: covariates of type probabilities do not depend on the order of definitions and dependencies. -/

namespace Respy

section
variable {D D' : Dict Str CovariateDef} {start : List Str} {bound : Nat}

theorem SubDefs.get? (h : SubDefs D D') (hn' : D'.keys.Nodup) {c : Str} {d : CovariateDef}
    (hd : D.get? c = some d) : ∃ d', D'.get? c = some d' ∧ d'.formula = d.formula ∧
      ∀ x, x ∈ d'.dependsOn ↔ x ∈ d.dependsOn := by
  obtain ⟨d', h1, h2⟩ := h c d (Dict.mem_of_get? _ _ _ hd)
  exact ⟨d', Dict.get?_of_mem _ hn' _ _ h1, h2⟩

theorem ReachedIn.of_sub (h : SubDefs D D') (hn' : D'.keys.Nodup) {n : Nat} {k : Str} (hr : ReachedIn D start n k) :
    ReachedIn D' start n k := by
  induction hr with
  | start k hk => exact .start k hk
  | step n c d k _ hd hk ih =>
    obtain ⟨d', h1, _, h3⟩ := h.get? hn' hd
    exact .step n c d' k ih h1 ((h3 k).2 hk)

theorem HasDependencies.of_sub (h : SubDefs D D') (hn' : D'.keys.Nodup) {c : Str} (hc : HasDependencies D c) :
    HasDependencies D' c := by
  obtain ⟨d, hd, hne⟩ := hc
  obtain ⟨d', h1, _, h3⟩ := h.get? hn' hd
  refine ⟨d', h1, fun he => ?_⟩
  obtain ⟨x, hx⟩ := List.exists_mem_of_ne_nil _ hne
  have := (h3 x).2 hx
  rw [he] at this
  cases this

theorem Graded.of_same (hg : Graded D start bound) (h : SubDefs D D') (h' : SubDefs D' D) (hn : D.keys.Nodup)
    (hn' : D'.keys.Nodup) (hd : ∀ c d, (c, d) ∈ D' → d.dependsOn.Nodup) : Graded D' start bound :=
  ⟨fun c d hc => hd c d (Dict.mem_of_get? _ _ _ hc),
    fun k n m hk hr hr' => hg.leaf k n m (fun hk' => hk (hk'.of_sub h hn')) (hr.of_sub h' hn) (hr'.of_sub h' hn),
    fun n k hr => hg.finite n k (hr.of_sub h' hn)⟩

/-- The definitions found. -/
theorem necessary_definitions (hg : Graded D start bound) (order : Nat → List Str → List Str)
    (ho : ∀ n l, (order n l).Perm l) : ∃ found defs, (∀ fuel, bound + 1 ≤ fuel →
        identifyNecessary D order fuel start = .ok found) ∧
      found.mapM (fun kd => kd.2.map fun d => (kd.1, d)) = some defs ∧ (defs.map Prod.fst).Nodup ∧
      ∀ k d, (k, d) ∈ defs ↔ ((∃ n, ReachedIn D start n k) ∧ HasDependencies D k) ∧ D.get? k = some d := by
  have h0 : NecessaryInv D start 0 (start.dedup, start.dedup) := by
    have hz : ∀ k, k ∈ start.dedup ↔ ReachedIn D start 0 k := by
      intro k
      rw [List.mem_dedup]
      exact ⟨fun h => .start k h, fun h => by cases h; assumption⟩
    refine ⟨List.nodup_dedup _, List.nodup_dedup _, hz, fun k => ?_⟩
    rw [hz]
    constructor
    · intro h; exact ⟨⟨0, le_refl _, h⟩, Or.inr h⟩
    · rintro ⟨⟨m, hm, h⟩, _⟩
      rw [Nat.le_zero.1 hm] at h
      exact h
  obtain ⟨r, h1, h2, h3⟩ := necessaryLoop_spec D order ho start bound hg (bound + 1) 0 (by omega) (by omega) _ h0
  obtain ⟨defs, h4, h5, h6⟩ := mapM_definitions (r.map fun dep => (dep, D.get? dep)) (by
    intro k d hkd
    obtain ⟨dep, hdep, he⟩ := List.mem_map.1 hkd
    cases he
    obtain ⟨_, d, hd, _⟩ := (h3 k).1 hdep
    rw [hd]; rfl)
  have hfst : (r.map fun dep => (dep, D.get? dep)).map Prod.fst = r := by simp [Function.comp_def]
  rw [hfst] at h5
  refine ⟨_, defs, fun fuel hf => ?_, h4, h5 ▸ h2, fun k d => ?_⟩
  · refine identifyNecessary_fuel _ _ _ _ _ ?_ _ hf
    unfold identifyNecessary
    rw [h1]
  · constructor
    · intro hkd
      obtain ⟨dep, hdep, he⟩ := List.mem_map.1 (h6 k d hkd)
      simp only [Prod.mk.injEq] at he
      obtain ⟨rfl, he⟩ := he
      exact ⟨(h3 dep).1 hdep, he⟩
    · rintro ⟨hk, hd⟩
      have hk' : k ∈ defs.map Prod.fst := by rw [h5]; exact (h3 k).2 hk
      obtain ⟨⟨k', d'⟩, hm, rfl⟩ := List.mem_map.1 hk'
      obtain ⟨dep, _, he⟩ := List.mem_map.1 (h6 k' d' hm)
      simp only [Prod.mk.injEq] at he
      obtain ⟨rfl, he⟩ := he
      rw [hd] at he
      exact Option.some.inj he ▸ hm

end

section
variable {p q : Processed} {ev : FormulaEval}

theorem typeCovariates_index (hn : p.groups.core.keys.Nodup)
    (hsub : ∀ c d, (c, d) ∈ p.groups.core → (c, d) ∈ p.groups.all) (hf : p.FormulasSound ev)
    (hid : "identifier".toList ∉ Dict.keys p.groups.all) (r : EstimationRow) (df : Frame ℝ)
    (hdf : p.typeCovariates ev r = some df) :
    df.index = [("identifier".toList, (r.id : ℝ)), ("period".toList, (r.state.core.period : ℝ))] := by
  unfold Processed.typeCovariates at hdf
  have hall : ∀ c ∈ Dict.keys p.groups.core, c ∈ Dict.keys p.groups.all := by
    intro c hc
    obtain ⟨⟨c', d⟩, hm, rfl⟩ := List.mem_map.1 hc
    exact List.mem_map.2 ⟨_, hsub _ _ hm, rfl⟩
  cases hcc : computeCovariates ev.value (fun _ => true) false false (p.observationFrame (r.withType p.nStatic 0))
      p.groups.core with
  | error e => rw [hcc] at hdf; cases hdf
  | ok df' =>
    rw [hcc] at hdf
    cases hdf
    refine (computeCovariates_values hn (fun c hc => ?_) (fun c d hcd => hf.accurate c d (hsub c d hcd)) hcc).1
    rw [Dict.get?_eq_none_iff]
    intro hk
    rcases List.mem_cons.1 hk with rfl | hk
    · exact hid (hall _ hc)
    · rcases List.mem_cons.1 hk with rfl | hk
      · exact hf.names _ (List.mem_append_left _ (by simp [coreColumns])) (hall _ hc)
      · cases hk

theorem SameGroups.typeFrameWith {p0 : Processed} (h : SameGroups p q) (hf : p.FormulasSound ev)
    (hid : "identifier".toList ∉ Dict.keys p.groups.all) (h0 : p0.typeCovariates ev = p.typeCovariates ev)
    (e : EstimateEnv) (ho : ∀ n l, (e.order n l).Perm l) (r : EstimationRow) (t : Nat) (bound : Nat)
    (hg : Graded p.groups.all (((Dict.get? p.typeProb t).getD []).map Prod.fst) bound) (hfuel : bound + 1 ≤ e.fuel) :
    Option.Rel SameFrame (p.typeFrame ev e r t) (p0.typeFrameWith q ev e r t) := by
  unfold Processed.typeFrame Processed.typeFrameWith
  rw [h0, ← h.same.typeProb]
  cases hdf : p.typeCovariates ev r with
  | none => exact .none
  | some df =>
  obtain ⟨found, N, a1, a2, a3, a4⟩ := necessary_definitions hg e.order ho
  obtain ⟨found', N', b1, b2, b3, b4⟩ := necessary_definitions
    (hg.of_same h.sub.all h.sup.all h.facts.nodup h.facts'.nodup h.facts'.deps_nodup) e.order ho
  simp only [Option.bind_eq_bind, Option.bind_some, a1 _ hfuel, b1 _ hfuel, Except.toOption, a2, b2]
  have hmem : ∀ c d, (c, d) ∈ N → (c, d) ∈ p.groups.all := fun c d hcd =>
    Dict.mem_of_get? _ _ _ ((a4 c d).1 hcd).2
  refine computeCovariates_same true (SameFrame.refl _) ?_ ?_ a3 b3 (fun c hc => ?_)
    fun c d hcd => hf.accurate c d (hmem c d hcd)
  · intro c d hcd
    obtain ⟨⟨⟨n, h1⟩, h2⟩, h3⟩ := (a4 c d).1 hcd
    obtain ⟨d', h4, h5⟩ := h.sub.all.get? h.facts'.nodup h3
    exact ⟨d', (b4 c d').2 ⟨⟨⟨n, h1.of_sub h.sub.all h.facts'.nodup⟩, h2.of_sub h.sub.all h.facts'.nodup⟩, h4⟩, h5⟩
  · intro c d hcd
    obtain ⟨⟨⟨n, h1⟩, h2⟩, h3⟩ := (b4 c d).1 hcd
    obtain ⟨d', h4, h5⟩ := h.sup.all.get? h.facts.nodup h3
    exact ⟨d', (a4 c d').2 ⟨⟨⟨n, h1.of_sub h.sup.all h.facts.nodup⟩, h2.of_sub h.sup.all h.facts.nodup⟩, h4⟩, h5⟩
  · have hindex := typeCovariates_index h.facts.core_nodup (fun c d => h.facts.core_sub (c, d)) hf hid r df hdf
    obtain ⟨⟨c', d⟩, hm, rfl⟩ := List.mem_map.1 hc
    rw [hindex, Dict.get?_eq_none_iff]
    intro hk
    have hk' : c' ∈ Dict.keys p.groups.all := List.mem_map.2 ⟨_, hmem _ _ hm, rfl⟩
    simp only [Dict.keys, List.map_cons, List.map_nil, List.mem_cons, List.not_mem_nil, or_false] at hk
    rcases hk with rfl | rfl
    · exact hid hk'
    · exact hf.names _ (List.mem_append_left _ (by simp [coreColumns])) hk'

end

end Respy
