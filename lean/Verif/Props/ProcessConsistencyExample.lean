import Verif.Props.ConsistencyExample
import Verif.Props.ProcessConsistency
import Verif.Props.ProcessLikelihoodAccepted

/-!
# C115 Example with exogenous processes

Individuals of a model with an exogenous process are observed for one period. Candidates differ in the value of
experience in the second period and have wrong probabilities of the process.
-/

open MeasureTheory ProbabilityTheory Filter

namespace Respy

noncomputable section

def exogenousAllowedCheck (p : Processed) : Bool :=
  exampleCheck exogenousUser p && decide (denseGrid p.denseSpec = some [[0, 0], [0, 1], [1, 0], [1, 1]]) &&
  decide ((denseColumns p.denseSpec).length = 2) &&
  (p.groups.all.all fun cd => textDefined cd.2.dependsOn cd.2.formula) &&
  decide (∀ x ∈ coreColumns p.choices.wExp p.lags.length ++ (denseColumns p.denseSpec).map String.toList,
    x ∉ Dict.keys p.groups.all) &&
  decide ((denseColumns p.denseSpec).map String.toList).Nodup &&
  (p.experience.all fun e => decide (e.2 = 2)) &&
  ((createCore (p.buildSpec textEval).core).any fun core => decide ((⟨0, [0], []⟩ : CoreState) ∈ core))

theorem exogenousUser_allowed_check : (processModel unitEnv exogenousUser).any exogenousAllowedCheck = true := by
  decide +kernel

/-- In the first period both alternatives are available. -/
theorem exogenousUser_allowed {p : Processed} {core : List CoreState} (hp : processModel unitEnv exogenousUser = some p)
    (hcore : createCore (p.buildSpec textEval).core = some core) : (⟨0, [0], []⟩ : CoreState) ∈ core ∧
    some 0 ∈ (p.buildSpec textEval).denseIndices ∧
    p.Allowed exogenousUser textEval (some 0) ⟨0, [0], []⟩ "b".toList := by
  have hcheck := exogenousUser_allowed_check
  rw [hp] at hcheck
  change exogenousAllowedCheck p = true at hcheck
  unfold exogenousAllowedCheck at hcheck
  simp only [Bool.and_eq_true] at hcheck
  obtain ⟨⟨⟨⟨⟨⟨⟨h1, h2⟩, h3⟩, h4⟩, h5⟩, h6⟩, h7⟩, h8⟩ := hcheck
  obtain ⟨core', a1, a2, -⟩ := example_hypotheses _ p h1
  rw [hcore] at a1
  cases a1
  unfold exampleCheck at h1
  simp only [Bool.and_eq_true, decide_eq_true_eq] at h1
  obtain ⟨⟨⟨⟨⟨⟨_, b2⟩, b3⟩, b4⟩, b5⟩, b6⟩, _⟩ := h1
  have hs : (⟨0, [0], []⟩ : CoreState) ∈ core := by
    rw [hcore] at h8
    exact of_decide_eq_true h8
  have hgrid := of_decide_eq_true h2
  have hd : some 0 ∈ (p.buildSpec textEval).denseIndices := (mem_denseIndices hgrid _).2 ⟨0, rfl, by decide⟩
  have hlen : ∀ grid, denseGrid p.denseSpec = some grid → ∀ point ∈ grid,
      (denseColumns p.denseSpec).length ≤ point.length := by
    intro grid hg point hpt
    rw [hgrid] at hg
    cases hg
    rw [of_decide_eq_true h3]
    simp only [List.mem_cons, List.not_mem_nil, or_false] at hpt
    rcases hpt with rfl | rfl | rfl | rfl <;> decide
  have hf : p.FormulasSound textEval :=
    ⟨fun c d hcd => textEval_accurate d (List.all_eq_true.1 h4 _ hcd), of_decide_eq_true h5, of_decide_eq_true h6⟩
  refine ⟨hs, hd, fun f hf' => ?_, fun i start mx e hi he hse _ => ?_⟩
  · rw [b5] at hf'
    rw [List.mem_singleton.1 hf']
    refine estimate_holds p _ _ ?_
    refine (C84_covariates_by_formula hp (by decide +kernel) hf a2 hcore hlen _ hd _ hs).1 _ _ ?_
    unfold Processed.stateVariables Processed.coreRow
    rw [b3]
    dsimp only [List.zip_cons_cons, List.map_cons, List.cons_append]
    rw [Dict.get?, if_neg (by decide)]
    change Dict.get? (("exp_".toList ++ "b".toList, ((0 : Nat) : ℝ)) :: _) _ = _
    rw [Dict.get?, if_pos (by decide)]
    simp
  · have := of_decide_eq_true (List.all_eq_true.1 h7 _ (List.mem_of_getElem? he))
    rw [b3] at hi
    have h0 : i = 0 := by
      rcases i with _ | i
      · rfl
      · simp at hi
    subst h0
    cases hse
    dsimp only at this
    omega

/-- In truth the next period has the value zero. There are ten candidates, for which experience has the values 1, ...,
10 and the process has the probabilities of halved parameters. The probability that the true values have the highest
likelihood converges to one. All hypotheses of the theorems of C115 with processes hold. -/
example : ∃ (p q : Processed) (core : List CoreState) (x : Option Nat × CoreState),
    processModel unitEnv exogenousUser = some p ∧ processModel unitEnv exogenousUser.halved = some q ∧
    p.combinations = 2 ∧ x.2 ∈ core ∧
    ∃ (f : ProcessHistory p.choices.choices.length p.combinations 1 → ℝ)
      (g : Fin 10 → ProcessHistory p.choices.choices.length p.combinations 1 → ℝ)
      (Q : Measure (Nat → ProcessHistory p.choices.choices.length p.combinations 1))
      (X : Nat → (Nat → ProcessHistory p.choices.choices.length p.combinations 1) →
        ProcessHistory p.choices.choices.length p.combinations 1),
      (p.processHypothesis p textEval exampleSolveEnv 1 fun _ _ => 0).Likelihood (p.buildSpec textEval) x f ∧
      (∀ j : Fin 10, ({ p.processHypothesis p textEval exampleSolveEnv 1 (experienceValue ((j : Nat) + 1)) with
        future := processFuture textEval p q } : ProcessHypothesis).Likelihood (p.buildSpec textEval) x (g j)) ∧
      iIndepFun X Q ∧
      (∀ i, Q.map (X i) = (processMeasure _ _ 1).withDensity fun y =>
        ENNReal.ofReal (f y * processesAlong (processFuture textEval p p) x y)) ∧
      Tendsto (fun N => Q.real {ω | ∀ j, ∑ i : Fin N, Real.log (g j (X i ω)) < ∑ i : Fin N, Real.log (f (X i ω))}) atTop
        (nhds 1) := by
  obtain ⟨p, core, hp, h1, h2, h3, h4, h5, h6, h7, h8, h9, h10, h11, h12, h13, _⟩ := exogenousUser_hypotheses
  obtain ⟨hs, hd, hb⟩ := exogenousUser_allowed hp h1
  have hc := exogenousUser_estimate_check
  rw [hp] at hc
  simp only [Option.any_some, Bool.and_eq_true] at hc
  obtain ⟨⟨⟨⟨⟨⟨g1, g2⟩, g3⟩, g4⟩, g5⟩, g6⟩, g7⟩ := hc
  unfold exampleCheck at g1
  simp only [Bool.and_eq_true, decide_eq_true_eq] at g1
  obtain ⟨⟨⟨⟨⟨⟨_, b2⟩, b3⟩, b4⟩, b5⟩, b6⟩, _⟩ := g1
  have hmax : ∀ k ∈ exogenousUser.params.map Prod.fst, k.1 ≠ "maximum_exp".toList := by decide +kernel
  have hindex : exogenousUser.SameIndex exogenousUser.halved.params :=
    ⟨(halved_index _ hmax).index.symm, fun c => ((halved_index _ hmax).max c).symm⟩
  have wf := C82_processed_models_well_formed hp textEval_contract h2 h1
  have hsets := C82_choice_sets_by_name hp textEval_contract h2.toDescribed h1
  have hper : (p.buildSpec textEval).core.nPeriods = 3 := b6
  have hcomb : p.combinations = 2 := by
    have hany : (processModel unitEnv exogenousUser).any (fun p => decide (p.combinations = 2)) = true := by
      decide +kernel
    rw [hp] at hany
    exact of_decide_eq_true hany
  have hcs : ∀ d ∈ (p.buildSpec textEval).denseIndices, ∀ s ∈ core, (p.buildSpec textEval).Admissible d s 1 :=
    fun d hd s hmem => (hsets d hd s hmem 1 "a".toList (by rw [b2]; rfl)).2
      (allowed_of_unrestricted exogenousUser p _ d s _ b4 (by rw [b3]; decide))
  have hadm0 : (p.buildSpec textEval).Admissible (some 0) ⟨0, [0], []⟩ 0 :=
    (hsets _ hd _ hs 0 "b".toList (by rw [b2]; rfl)).2 hb
  have hdelta : 0 < (p.rewardParams exampleSolveEnv).betaDelta := by
    obtain ⟨⟨delta, g1, -, g2⟩, -⟩ := C84_parameters_by_name (ev := textEval) hp h9 h10 exampleSolveEnv
    have h : Dict.get? exogenousUser.params ("delta".toList, "delta".toList) = some (1 / 2) := by
      change Dict.get? ((("delta".toList, "delta".toList), (1 / 2 : ℝ)) :: _) _ = _
      rw [Dict.get?, if_pos rfl]
    have h' : Dict.get? exogenousUser.params ("beta".toList, "beta".toList) = none := by
      have hkeys : ("beta".toList, "beta".toList) ∉ Dict.keys exogenousUser.params := by decide +kernel
      exact (Dict.get?_eq_none_iff _ _).2 hkeys
    rw [h] at g1
    cases g1
    rw [g2 _ List.mem_cons_self, h']
    norm_num
  have hrel := processModel_sameIndex unitEnv exogenousUser exogenousUser.halved.params hindex.index hindex.max
  have hrel' := processModel_sameIndex unitEnv exogenousUser exogenousUser.params rfl fun _ => rfl
  rw [hp] at hrel
  rw [show ({ exogenousUser with params := exogenousUser.params } : UserModel) = exogenousUser from rfl, hp] at hrel'
  generalize hq : processModel unitEnv { exogenousUser with params := exogenousUser.halved.params } = oq at hrel
  cases hrel' with
  | some hst₀ =>
  cases hrel with
  | @some _ q hst =>
  have hv := fun V : Option Nat → CoreState → ℝ => process_hypothesis_valid (ev := textEval) (core := core)
    (m := exogenousUser) (θ := exogenousUser.params) hp hst₀ h3
    [("able".toList, 2)] h4 h5 h7 h9 h10 (fun d hd s hmem => ⟨1, hcs d hd s hmem⟩) (fun a ha =>
      own_cholesky hp h9 h10 (by decide +kernel) b2 a (by rwa [b2] at ha)) exampleSolveEnv 1 V
  have htq := isTransition_processes (ev := textEval) (core := core) hq hst h3 [("able".toList, 2)] h4 h5
  have hv' : ∀ V : Option Nat → CoreState → ℝ, ({ p.processHypothesis p textEval exampleSolveEnv 1 V with
      future := processFuture textEval p q } : ProcessHypothesis).Valid (p.buildSpec textEval) core p.combinations :=
    fun V => ⟨(hv V).rewards, (hv V).uncertain, htq, fun d _ s _ => by
      show (List.map _ _).length = _
      rw [List.length_map]
      rfl⟩
  obtain ⟨covs, hproc⟩ := processModel_from unitEnv exogenousUser p hp
  have hn : (p.rewardParams exampleSolveEnv).measError.length = p.choices.choices.length := hproc.measurement_length
  obtain ⟨f, f1, -, -, -, -, f6⟩ := C114_distribution_with_processes wf _ (hv fun _ _ => 0).rewards
    (hv fun _ _ => 0).uncertain 1 (p.solveInput textEval exampleSolveEnv).wageOf
    (p.solveInput textEval exampleSolveEnv).nonpecOf (fun _ _ => 0) _ (hv fun _ _ => 0).transition
    (hv fun _ _ => 0).levels (x := (some 0, ⟨0, [0], []⟩)) hd hs rfl 1 wf.periods
  have hg := fun j : Fin 10 => C114_distribution_with_processes wf _ (hv fun _ _ => 0).rewards
    (hv fun _ _ => 0).uncertain 1 (p.solveInput textEval exampleSolveEnv).wageOf
    (p.solveInput textEval exampleSolveEnv).nonpecOf (experienceValue ((j : Nat) + 1)) _ (hv' fun _ _ => 0).transition
    (hv' fun _ _ => 0).levels (x := (some 0, ⟨0, [0], []⟩)) hd hs rfl 1 wf.periods
  change ProcessHistory (p.rewardParams exampleSolveEnv).measError.length _ _ → ℝ at f
  choose g k1 k2 k3 k4 k5 k6 using hg
  change Fin 10 → ProcessHistory (p.rewardParams exampleSolveEnv).measError.length _ _ → ℝ at g
  have hfl := fun h => (f1 h _).2 rfl
  have hgl := fun j h => (k1 j h _).2 rfl
  obtain ⟨Q, X, hX, hXi, hlaw⟩ := observations_sequence
    (fun _ => processMeasure (p.rewardParams exampleSolveEnv).measError.length p.combinations 1)
    (fun _ h => f h * processesAlong (processFuture textEval p p) (some 0, ⟨0, [0], []⟩) h) fun _ => f6
  refine ⟨p, q, core, (some 0, ⟨0, [0], []⟩), hp, hq, hcomb, hs, ?_⟩
  rw [← hn]
  refine ⟨f, g, Q, X, hfl, hgl, hXi, hlaw, ?_⟩
  obtain ⟨ρ, _, _, _, hlim⟩ := C115_consistent_with_processes wf (fun _ : Fin 1 => (some 0, ⟨0, [0], []⟩)) (fun _ => 1)
    (fun _ => hd) (fun _ => hs) (fun _ => rfl) (fun _ => wf.periods) _ (fun j : Fin 10 => _) (hv fun _ _ => 0)
    (fun j => hv' (experienceValue ((j : Nat) + 1))) (fun j d s => by
      show List.map Prod.fst (List.map _ _) = List.map Prod.fst (List.map _ _)
      rw [List.map_map, List.map_map]
      rfl) rfl (fun _ => rfl) (fun _ => rfl) (fun _ => f) (fun _ => hfl) (fun j _ => g j) (fun j _ => hgl j) (fun _ => 0)
    fun j => C115_distinguished_with_processes wf _ (hv fun _ _ => 0).rewards (hv fun _ _ => 0).uncertain one_pos hdelta
      _ _ (fun _ _ => 0) (experienceValue ((j : Nat) + 1)) _ (processFuture textEval p q) (hv fun _ _ => 0).transition
      (hv fun _ _ => 0).levels hd hs rfl hadm0 (hcs _ hd _ hs) Nat.one_ne_zero (by
        unfold continuationOf experienceValue
        rw [if_neg (by rw [hper]; decide), if_neg (by rw [hper]; decide), if_pos (by decide)]
        simp only [mul_zero, List.map_const', List.sum_replicate, smul_zero]
        rw [List.sum_map_mul_right]
        have h1 := (htq _ hd _ hs).2
        rw [show (List.map (fun fp : Option Nat × ℝ => fp.2) (processFuture textEval p q (some 0) ⟨0, [0], []⟩)).sum = 1
          from h1, one_mul]
        positivity) (fun c hc hadm => by
        have hlt : c < 2 := by
          have := (List.getElem?_eq_some_iff.1 hadm).1
          rwa [choiceSetAt_length, b2] at this
        obtain rfl : c = 1 := by omega
        unfold continuationOf experienceValue
        rw [if_neg (by rw [hper]; decide), if_neg (by decide), if_neg (by rw [hper]; decide)]
        simp) rfl f (g j) hfl (hgl j)
  refine hlim (fun _ => 0) (fun j => ?_) Q X hX hXi hlaw
  have : (fun N => countKind (fun _ : Fin N => (0 : Fin 1)) 0) = fun N => N := funext fun N => by simp [countKind]
  rw [this]
  exact tendsto_id

end

end Respy
