import Verif.Props.Myopic
import Verif.Props.DifferencesExample

/-!
# C109: concrete models
-/

namespace Respy

/-- A clear choice among three alternatives. -/
example : ClearChoice (1 : ℝ) [0, 3, 1] := by
  refine ⟨1, 3, rfl, fun j u hj hu => ?_⟩
  match j, hu with
  | 0, hu => cases hu; norm_num
  | 1, _ => exact absurd rfl hj
  | 2, hu => cases hu; norm_num

/-- All hypotheses of `C109_myopic_limit_partial` hold for the model with two types. -/
example :
    (∀ (G : Type) (e : SimulateEnv G) simulate, getSimulateFunc unitEnv textEval exampleRoutines levelUser e =
      some simulate → ∀ g out, (simulate (setDelta 0 levelUser.params) g).1 = some out →
        (∀ row ∈ out, ClearChoice 0 row.outcome.values) →
        ∀ eps : ℝ, 0 < eps → ∃ delta₀ : ℝ, 0 < delta₀ ∧ ∀ delta, 0 < delta → delta < delta₀ →
          ∃ out', (simulate (setDelta delta levelUser.params) g).1 = some out' ∧
            List.Forall₂ (NearlySameRow eps) out out') ∧
    ∃ fuel, ∀ e : EstimateEnv, (∀ n l, (e.order n l).Perm l) → fuel ≤ e.fuel →
      ∀ logLike, getCriterionFunc unitEnv textEval exampleRoutines levelUser e = some logLike →
        ∀ eps : ℝ, 0 < eps → ∃ delta₀ : ℝ, 0 < delta₀ ∧ ∀ delta, 0 < delta → delta < delta₀ →
          Option.Rel (fun v v' => |v' - v| < eps) (logLike (setDelta 0 levelUser.params))
            (logLike (setDelta delta levelUser.params)) := by
  obtain ⟨p, hp, hcheck⟩ := (Option.any_eq_true _ _).1 levelUser_check
  unfold levelCheck at hcheck
  simp only [Bool.and_eq_true] at hcheck
  obtain ⟨⟨⟨⟨⟨⟨⟨⟨⟨⟨⟨⟨⟨h1, h2⟩, h3⟩, h4⟩, h5⟩, h6⟩, h7⟩, h8⟩, h9⟩, h10⟩, h11⟩, h12⟩, h13⟩, h14⟩ := hcheck
  obtain ⟨core, a1, a2, a3, a4, -⟩ := example_hypotheses _ p h1
  have hnd : (Dict.keys levelUser.params).Nodup := by decide +kernel
  have hgrid := of_decide_eq_true h3
  have h6 := List.all_eq_true.1 h6
  have hf : p.FormulasSound textEval :=
    ⟨fun c d hcd => textEval_accurate d (h6 _ hcd), of_decide_eq_true h7, of_decide_eq_true h8⟩
  have hgraded : ∀ t beta, Dict.get? p.typeProb t = some beta →
      ∃ bound, Graded p.groups.all (beta.map Prod.fst) bound := by
    intro t beta hb
    have := List.mem_map_of_mem (f := fun kv : Nat × List (Str × ℝ) => kv.2.map Prod.fst) (Dict.mem_of_get? _ _ _ hb)
    rw [of_decide_eq_true h10] at this
    rcases List.mem_cons.1 this with h | h
    · rw [h]
      exact ⟨_, graded_of_check _ _ _ h11⟩
    · rw [List.mem_singleton.1 h]
      exact ⟨_, graded_of_check _ _ _ h12⟩
  have hexo : p.exogenous = [] := List.length_eq_zero_iff.1 (of_decide_eq_true h2)
  have hother := exampleShocks levelUser (by decide +kernel)
  have hcore : core.length * 4 ≤ p.points := by
    rw [a1] at h14
    exact of_decide_eq_true h14
  have hno : ∀ t, ¬ (p.buildSpec textEval).Interpolates core t := by
    intro t ht
    have hlen : ((p.buildSpec textEval).statesOfPeriod core t).length ≤ core.length * 4 := by
      have hden : (p.buildSpec textEval).denseIndices = [some 0, some 1, some 2, some 3] := by
        have : (p.buildSpec textEval).grid = some [[0, 0], [0, 1], [1, 0], [1, 1]] := hgrid
        unfold BuildSpec.denseIndices
        rw [this]; rfl
      have hfil := List.length_filter_le (fun s : CoreState => decide (s.period = t)) core
      unfold BuildSpec.statesOfPeriod
      rw [hden]
      simp only [List.flatMap_cons, List.flatMap_nil, List.length_append, List.length_map, List.length_nil]
      omega
    have := ht.1
    have hpts : (p.buildSpec textEval).points = p.points := rfl
    omega
  exact C109_myopic_limit_partial hp (reprocessable_of_check _ _ h13) textEval_contract hf (of_decide_eq_true h9)
    hgraded ⟨rfl, fun _ => rfl⟩ hp a2 a1 hexo unitEnv_contracts.1 hnd hother exampleRoutines a3 a4 hno
    firstRandom_contract (fun _ => SameShape.refl _)

/-- All hypotheses of `C109_myopic_limit_with_processes_partial` hold for the model with an exogenous process. -/
example :
    (∀ (G : Type) (e : SimulateEnv G) simulate, getSimulateFunc unitEnv textEval exampleRoutines levelExogenousUser e =
      some simulate → ∀ g out, (simulate (setDelta 0 levelExogenousUser.params) g).1 = some out →
        (∀ row ∈ out, ClearChoice 0 row.outcome.values) →
        ∀ eps : ℝ, 0 < eps → ∃ delta₀ : ℝ, 0 < delta₀ ∧ ∀ delta, 0 < delta → delta < delta₀ →
          ∃ out', (simulate (setDelta delta levelExogenousUser.params) g).1 = some out' ∧
            List.Forall₂ (NearlySameRow eps) out out') ∧
    ∃ fuel, ∀ e : EstimateEnv, (∀ n l, (e.order n l).Perm l) → fuel ≤ e.fuel →
      ∀ logLike, getCriterionFunc unitEnv textEval exampleRoutines levelExogenousUser e = some logLike →
        ∀ eps : ℝ, 0 < eps → ∃ delta₀ : ℝ, 0 < delta₀ ∧ ∀ delta, 0 < delta → delta < delta₀ →
          Option.Rel (fun v v' => |v' - v| < eps) (logLike (setDelta 0 levelExogenousUser.params))
            (logLike (setDelta delta levelExogenousUser.params)) := by
  obtain ⟨p, hp, hcheck⟩ := (Option.any_eq_true _ _).1 levelExogenousUser_check
  unfold levelExogenousCheck at hcheck
  simp only [Bool.and_eq_true] at hcheck
  obtain ⟨⟨⟨⟨⟨⟨⟨⟨⟨⟨⟨⟨⟨⟨h1, h2⟩, h3⟩, h4⟩, h5⟩, h6⟩, h7⟩, h8⟩, h9⟩, h10⟩, h11⟩, h12⟩, h15⟩, h13⟩, h14⟩ := hcheck
  obtain ⟨core, a1, a2, a3, a4, -⟩ := example_hypotheses _ p h1
  have hnd : (Dict.keys levelExogenousUser.params).Nodup := by decide +kernel
  have hgrid := of_decide_eq_true h3
  have h6 := List.all_eq_true.1 h6
  have hf : p.FormulasSound textEval :=
    ⟨fun c d hcd => textEval_accurate d (h6 _ hcd), of_decide_eq_true h7, of_decide_eq_true h8⟩
  have hgraded : ∀ t beta, Dict.get? p.typeProb t = some beta →
      ∃ bound, Graded p.groups.all (beta.map Prod.fst) bound := by
    intro t beta hb
    have := List.mem_map_of_mem (f := fun kv : Nat × List (Str × ℝ) => kv.2.map Prod.fst) (Dict.mem_of_get? _ _ _ hb)
    rw [of_decide_eq_true h10] at this
    cases this
  have hexo : p.exogenous ≠ [] := List.ne_nil_of_length_eq_add_one (of_decide_eq_true h2)
  have hother := exampleShocks levelExogenousUser (by decide +kernel)
  have hcore : core.length * 4 ≤ p.points := by
    rw [a1] at h14
    exact of_decide_eq_true h14
  have hno : ∀ t, ¬ (p.buildSpec textEval).Interpolates core t := by
    intro t ht
    have hlen : ((p.buildSpec textEval).statesOfPeriod core t).length ≤ core.length * 4 := by
      have hden : (p.buildSpec textEval).denseIndices = [some 0, some 1, some 2, some 3] := by
        have : (p.buildSpec textEval).grid = some [[0, 0], [0, 1], [1, 0], [1, 1]] := hgrid
        unfold BuildSpec.denseIndices
        rw [this]; rfl
      have hfil := List.length_filter_le (fun s : CoreState => decide (s.period = t)) core
      unfold BuildSpec.statesOfPeriod
      rw [hden]
      simp only [List.flatMap_cons, List.flatMap_nil, List.length_append, List.length_map, List.length_nil]
      omega
    have := ht.1
    have hpts : (p.buildSpec textEval).points = p.points := rfl
    omega
  exact C109_myopic_limit_with_processes_partial hp (reprocessable_of_check _ _ h13) textEval_contract hf (of_decide_eq_true h9)
    hgraded ⟨rfl, fun _ => rfl⟩ hp a2 a1 hexo [("able".toList, 2)] (of_decide_eq_true h11)
    (of_decide_eq_true h12) (fun e he level hl item hi => of_decide_eq_true
      (List.all_eq_true.1 (List.all_eq_true.1 (List.all_eq_true.1 h15 e he) level hl) item hi)) unitEnv_contracts.1 hnd hother exampleRoutines a3 a4 hno
    firstRandom_contract (fun _ => SameShape.refl _)

end Respy
