import Verif.Props.ProcessConsistencyExample

/-!
# Consistency in accepted models with exogenous processes

C115 for models given by parameters and options, and an example.
-/

open MeasureTheory ProbabilityTheory Filter

namespace Respy

noncomputable section

variable {env : ProcessEnv} {m : UserModel} {p : Processed} {ev : FormulaEval} {core : List CoreState}

theorem ProcessHypothesis.exists_likelihood {b : BuildSpec} (wf : b.WF core) {E : Nat} {θ : ProcessHypothesis}
    (h : θ.Valid b core E) {n : Nat} (hn : θ.rewards.measError.length = n) {x : Option Nat × CoreState}
    (hd : x.1 ∈ b.denseIndices) (hs : x.2 ∈ core) (hs0 : x.2.period = 0) {T : Nat} (hT : T ≤ b.core.nPeriods) :
    ∃ f : ProcessHistory n E T → ℝ, θ.Likelihood b x f := by
  subst hn
  obtain ⟨f, f1, _⟩ := C114_distribution_with_processes wf θ.rewards h.rewards h.uncertain θ.tau θ.wage θ.nonpec θ.value
    θ.future h.transition h.levels hd hs hs0 T hT
  exact ⟨f, fun y => (f1 y _).2 rfl⟩

/-- **C115 (partial).** Every supported model with exogenous processes which is accepted, and finitely many candidates
for the parameters with the same index and the same maximum experiences, also for the processes: all of them are
accepted and have likelihoods. If each candidate gives the histories of some kind of individuals another distribution of
choices and wages than the true parameters, the probability that the true parameters have the highest likelihood
converges to one as the numbers of individuals of these kinds grow, and for every sample it is at least one minus the
sum of `ρ ^ n`. Missing: types, models whose creation fails (C86), more than one lag, shocks without variance. -/
theorem C115_accepted_models_with_processes_partial (hp : processModel env m = some p) {J : Nat}
    {Θ : Fin J → Dict (Str × Str) ℝ} (hΘ : ∀ j, m.SameIndex (Θ j)) (hev : ev.Contract) (hs : p.Supported m ev core)
    (hcore : createCore (p.buildSpec ev).core = some core)
    (hexo : p.exogenous ≠ []) (static : List (Str × Nat)) (htypes : p.nTypes < 2)
    (hobs : p.observables.map (fun o => (o.1, o.2.length)) = static ++ p.exogenous.map fun o => (o.1, o.2.length))
    (hkeep : env.KeepsShape) (hnd : (Dict.keys m.params).Nodup)
    (hother : ∀ q ∈ m.params, mentionsShocks q.1 = true → ∃ c ∈ shockCategories, q.1.1 = c.toList)
    (hallowed : ∀ d ∈ (p.buildSpec ev).denseIndices, ∀ s ∈ core, ∃ c ∈ p.choices.choices, p.Allowed m ev d s c)
    (senv : SolveEnv) (tau₀ : ℝ) (tau : Fin J → ℝ) (V₀ : Option Nat → CoreState → ℝ)
    (V : Fin J → Option Nat → CoreState → ℝ) {C : Nat} (x : Fin C → Option Nat × CoreState) (T : Fin C → Nat)
    (hx : ∀ c, (x c).1 ∈ (p.buildSpec ev).denseIndices ∧ (x c).2 ∈ core ∧ (x c).2.period = 0 ∧
      T c ≤ (p.buildSpec ev).core.nPeriods) :
    ∃ q : Fin J → Processed, (∀ j, processModel env { m with params := Θ j } = some (q j)) ∧
      ((∀ a < p.choices.choices.length, entry p.cholesky a a ≠ 0 ∧ ∀ j, entry (q j).cholesky a a ≠ 0) →
      ∃ (f : ∀ c, ProcessHistory p.choices.choices.length p.combinations (T c) → ℝ)
        (g : Fin J → ∀ c, ProcessHistory p.choices.choices.length p.combinations (T c) → ℝ),
        (∀ c, (p.processHypothesis p ev senv tau₀ V₀).Likelihood (p.buildSpec ev) (x c) (f c)) ∧
        (∀ j c, (p.processHypothesis (q j) ev senv (tau j) (V j)).Likelihood (p.buildSpec ev) (x c) (g j c)) ∧
        ∀ diff : Fin J → Fin C,
        (∀ j, ¬ (fun y => f (diff j) y * processesAlong (processFuture ev p p) (x (diff j)) y)
          =ᵐ[processMeasure _ _ (T (diff j))]
            fun y => g j (diff j) y * processesAlong (processFuture ev p p) (x (diff j)) y) →
        ∃ ρ : ℝ, 0 ≤ ρ ∧ ρ < 1 ∧
          (∀ {N : Nat} (kind : Fin N → Fin C) {Ω : Type} [MeasurableSpace Ω] (Q : Measure Ω)
            (X : ∀ i, Ω → ProcessHistory p.choices.choices.length p.combinations (T (kind i))), (∀ i, Measurable (X i)) →
            iIndepFun X Q → (∀ i, Q.map (X i) = (processMeasure _ _ (T (kind i))).withDensity fun y =>
              ENNReal.ofReal (f (kind i) y * processesAlong (processFuture ev p p) (x (kind i)) y)) →
            Q.real {ω | ∃ j, ∑ i, Real.log (f (kind i) (X i ω)) ≤ ∑ i, Real.log (g j (kind i) (X i ω))} ≤
              ∑ j, ρ ^ countKind kind (diff j)) ∧
          ∀ (kind : Nat → Fin C), (∀ j, Tendsto (fun N => countKind (fun i : Fin N => kind i) (diff j)) atTop atTop) →
            ∀ {Ω : Type} [MeasurableSpace Ω] (Q : Measure Ω)
            (X : ∀ i, Ω → ProcessHistory p.choices.choices.length p.combinations (T (kind i))), (∀ i, Measurable (X i)) →
            iIndepFun X Q → (∀ i, Q.map (X i) = (processMeasure _ _ (T (kind i))).withDensity fun y =>
              ENNReal.ofReal (f (kind i) y * processesAlong (processFuture ev p p) (x (kind i)) y)) →
            Tendsto (fun N => Q.real {ω | ∀ j, ∑ i : Fin N, Real.log (g j (kind i) (X i ω)) <
              ∑ i : Fin N, Real.log (f (kind i) (X i ω))}) atTop (nhds 1)) := by
  have wf := C82_processed_models_well_formed hp hev hs hcore
  have hcs : ∀ d ∈ (p.buildSpec ev).denseIndices, ∀ s ∈ core,
      ∃ a : Nat, ((p.buildSpec ev).choiceSetAt d s)[a]? = some true := by
    intro d hd s hmem
    obtain ⟨c, hc, hall⟩ := hallowed d hd s hmem
    obtain ⟨a, ha⟩ := List.mem_iff_getElem?.1 hc
    exact ⟨a, (C82_choice_sets_by_name hp hev hs.toDescribed hcore d hd s hmem a c ha).2 hall⟩
  have hall : ∀ j, ∃ q, processModel env { m with params := Θ j } = some q ∧
      ((∀ a < p.choices.choices.length, entry q.cholesky a a ≠ 0) →
        (p.processHypothesis q ev senv (tau j) (V j)).Valid (p.buildSpec ev) core p.combinations) ∧
      (p.processHypothesis q ev senv (tau j) (V j)).rewards.measError.length = p.choices.choices.length ∧
      (q.rewardParams senv).nWagesRaw = (p.rewardParams senv).nWagesRaw := by
    intro j
    have h := processModel_sameIndex env m (Θ j) (hΘ j).index (hΘ j).max
    rw [hp] at h
    generalize hq : processModel env { m with params := Θ j } = oq at h
    cases h with
    | @some _ q hst =>
    obtain ⟨c₁, hc₁⟩ := processModel_from env _ q hq
    refine ⟨q, rfl, fun hdiag => ?_, ?_, ?_⟩
    · refine process_hypothesis_valid hq hst hexo static htypes hobs hkeep
        (by unfold Dict.keys at hnd ⊢; exact (hΘ j).index ▸ hnd) ?_ hcs hdiag senv (tau j) (V j)
      intro y hy
      have hm : y.1 ∈ m.params.map Prod.fst := (hΘ j).index ▸ List.mem_map_of_mem (f := Prod.fst) hy
      obtain ⟨z, hz, he⟩ := List.mem_map.1 hm
      exact he ▸ hother z hz
    · rw [hst.choices]
      exact hc₁.measurement_length
    · show q.choices.wWage.length = p.choices.wWage.length
      rw [hst.choices]
  choose q hq h₁ hn hnw using hall
  refine ⟨q, hq, fun hdiag => ?_⟩
  have hrel := processModel_sameIndex env m m.params rfl fun _ => rfl
  rw [show ({ m with params := m.params } : UserModel) = m from rfl, hp] at hrel
  cases hrel with
  | some hst₀ =>
  obtain ⟨c₀, hc₀⟩ := processModel_from env m p hp
  have h₀ := process_hypothesis_valid (ev := ev) (core := core) (m := m) (θ := m.params) hp hst₀ hexo static htypes hobs
    hkeep hnd hother hcs (fun a ha => (hdiag a ha).1) senv tau₀ V₀
  have h₁ := fun j => h₁ j fun a ha => (hdiag a ha).2 j
  have hn₀ : (p.processHypothesis p ev senv tau₀ V₀).rewards.measError.length = p.choices.choices.length :=
    hc₀.measurement_length
  have hf := fun c => ProcessHypothesis.exists_likelihood wf h₀ hn₀ (hx c).1 (hx c).2.1 (hx c).2.2.1 (hx c).2.2.2
  have hg := fun j c => ProcessHypothesis.exists_likelihood wf (h₁ j) (hn j) (hx c).1 (hx c).2.1 (hx c).2.2.1
    (hx c).2.2.2
  choose f hf using hf
  choose g hg using hg
  exact ⟨f, g, hf, hg, C115_consistent_with_processes wf x T (fun c => (hx c).1) (fun c => (hx c).2.1)
    (fun c => (hx c).2.2.1) (fun c => (hx c).2.2.2) _ _ h₀ h₁ (fun j d s => by
      show List.map Prod.fst (List.map _ _) = List.map Prod.fst (List.map _ _)
      rw [List.map_map, List.map_map]
      rfl) hn₀ hn hnw f hf g hg⟩

/-- Ten candidates for which experience has the values 1, ..., 10. All hypotheses hold. -/
example : ∃ (p : Processed) (core : List CoreState) (x : Option Nat × CoreState),
    processModel unitEnv exogenousUser = some p ∧ p.combinations = 2 ∧ x.2 ∈ core ∧
    ∃ (f : ProcessHistory p.choices.choices.length p.combinations 1 → ℝ)
      (g : Fin 10 → ProcessHistory p.choices.choices.length p.combinations 1 → ℝ)
      (Q : Measure (Nat → ProcessHistory p.choices.choices.length p.combinations 1))
      (X : Nat → (Nat → ProcessHistory p.choices.choices.length p.combinations 1) →
        ProcessHistory p.choices.choices.length p.combinations 1),
      (p.processHypothesis p textEval exampleSolveEnv 1 fun _ _ => 0).Likelihood (p.buildSpec textEval) x f ∧
      (∀ j : Fin 10, (p.processHypothesis p textEval exampleSolveEnv 1 (experienceValue ((j : Nat) + 1))).Likelihood
        (p.buildSpec textEval) x (g j)) ∧ iIndepFun X Q ∧
      (∀ i, Q.map (X i) = (processMeasure _ _ 1).withDensity fun y =>
        ENNReal.ofReal (f y * processesAlong (processFuture textEval p p) x y)) ∧
      Tendsto (fun N => Q.real {ω | ∀ j, ∑ i : Fin N, Real.log (g j (X i ω)) < ∑ i : Fin N, Real.log (f (X i ω))}) atTop
        (nhds 1) := by
  obtain ⟨p, core, hp, h1, h2, h3, h4, h5, h6, h7, h8, h9, h10, h11, h12, h13, _⟩ := exogenousUser_hypotheses
  obtain ⟨hs, hd, hb⟩ := exogenousUser_allowed hp h1
  have hc := exogenousUser_estimate_check
  rw [hp] at hc
  simp only [Option.any_some, Bool.and_eq_true] at hc
  obtain ⟨⟨⟨⟨⟨⟨g1, g2⟩, g3⟩, g4⟩, g5⟩, g6⟩, g7⟩ := hc
  unfold exampleCheck at g1
  simp only [Bool.and_eq_true, decide_eq_true_eq] at g1
  obtain ⟨⟨⟨⟨⟨⟨_, b2⟩, b3⟩, b4⟩, b5⟩, b6⟩, _⟩ := g1
  have wf := C82_processed_models_well_formed hp textEval_contract h2 h1
  have hsets := C82_choice_sets_by_name hp textEval_contract h2.toDescribed h1
  have hper : (p.buildSpec textEval).core.nPeriods = 3 := b6
  have hcomb : p.combinations = 2 := by
    have hany : (processModel unitEnv exogenousUser).any (fun p => decide (p.combinations = 2)) = true := by
      decide +kernel
    rw [hp] at hany
    exact of_decide_eq_true hany
  have hcs : ∀ d ∈ (p.buildSpec textEval).denseIndices, ∀ s ∈ core, (p.buildSpec textEval).Admissible d s 1 :=
    fun d hd s hmem => (hsets d hd s hmem 1 "a".toList (by rw [b2]; rfl)).2
      (allowed_of_unrestricted exogenousUser p _ d s _ b4 (by rw [b3]; decide))
  have hadm0 : (p.buildSpec textEval).Admissible (some 0) ⟨0, [0], []⟩ 0 :=
    (hsets _ hd _ hs 0 "b".toList (by rw [b2]; rfl)).2 hb
  have hdelta : 0 < (p.rewardParams exampleSolveEnv).betaDelta := by
    obtain ⟨⟨delta, g1, -, g2⟩, -⟩ := C84_parameters_by_name (ev := textEval) hp h9 h10 exampleSolveEnv
    have h : Dict.get? exogenousUser.params ("delta".toList, "delta".toList) = some (1 / 2) := by
      change Dict.get? ((("delta".toList, "delta".toList), (1 / 2 : ℝ)) :: _) _ = _
      rw [Dict.get?, if_pos rfl]
    have h' : Dict.get? exogenousUser.params ("beta".toList, "beta".toList) = none := by
      have hkeys : ("beta".toList, "beta".toList) ∉ Dict.keys exogenousUser.params := by decide +kernel
      exact (Dict.get?_eq_none_iff _ _).2 hkeys
    rw [h] at g1
    cases g1
    rw [g2 _ List.mem_cons_self, h']
    norm_num
  have hdiag : ∀ a < p.choices.choices.length, entry p.cholesky a a ≠ 0 := fun a ha =>
    own_cholesky hp h9 h10 (by decide +kernel) b2 a (by rwa [b2] at ha)
  obtain ⟨q, hq, k1⟩ := C115_accepted_models_with_processes_partial (J := 10) (Θ := fun _ => exogenousUser.params) hp
    (fun _ => ⟨rfl, fun _ => rfl⟩) textEval_contract h2 h1 h3 [("able".toList, 2)] h4 h5 h7 h9 h10 h12 exampleSolveEnv 1
    (fun _ => 1) (fun _ _ => 0) (fun j => experienceValue ((j : Nat) + 1))
    (fun _ : Fin 1 => (some 0, ⟨0, [0], []⟩)) (fun _ => 1) (fun _ => ⟨hd, hs, rfl, wf.periods⟩)
  obtain rfl : q = fun _ => p := funext fun j => Option.some.inj ((hq j).symm.trans hp)
  obtain ⟨f, g, hf, hg, hlim⟩ := k1 fun a ha => ⟨hdiag a ha, fun _ => hdiag a ha⟩
  have hrel := processModel_sameIndex unitEnv exogenousUser exogenousUser.params rfl fun _ => rfl
  rw [show ({ exogenousUser with params := exogenousUser.params } : UserModel) = exogenousUser from rfl, hp] at hrel
  cases hrel with
  | some hst =>
  have hv := process_hypothesis_valid (ev := textEval) (core := core)
    (m := exogenousUser) (θ := exogenousUser.params) hp hst h3
    [("able".toList, 2)] h4 h5 h7 h9 h10 (fun d hd s hmem => ⟨1, hcs d hd s hmem⟩) hdiag exampleSolveEnv 1 fun _ _ => 0
  obtain ⟨covs, hproc⟩ := processModel_from unitEnv exogenousUser p hp
  have hn : (p.rewardParams exampleSolveEnv).measError.length = p.choices.choices.length := hproc.measurement_length
  have hden := ProcessHypothesis.density wf hv hv (fun _ _ => rfl) hn rfl hd hs rfl wf.periods (f 0) (hf 0)
  obtain ⟨Q, X, hX, hXi, hlaw⟩ := observations_sequence
    (fun _ => processMeasure p.choices.choices.length p.combinations 1)
    (fun _ h => f 0 h * processesAlong (processFuture textEval p p) (some 0, ⟨0, [0], []⟩) h) fun _ => hden.2.2.2.2.2
  refine ⟨p, core, (some 0, ⟨0, [0], []⟩), hp, hcomb, hs, f 0, fun j => g j 0, Q, X, hf 0, fun j => hg j 0, hXi, hlaw, ?_⟩
  obtain ⟨ρ, _, _, _, hlim⟩ := hlim (fun _ => 0) fun j =>
    C115_distinguished_with_processes wf _ hv.rewards hv.uncertain one_pos hdelta
      _ _ (fun _ _ => 0) (experienceValue ((j : Nat) + 1)) _ (processFuture textEval p p) hv.transition
      hv.levels hd hs rfl hadm0 (hcs _ hd _ hs) Nat.one_ne_zero (by
        unfold continuationOf experienceValue
        rw [if_neg (by rw [hper]; decide), if_neg (by rw [hper]; decide), if_pos (by decide)]
        simp only [mul_zero, List.map_const', List.sum_replicate, smul_zero]
        rw [List.sum_map_mul_right]
        have h1 := (hv.transition _ hd _ hs).2
        rw [show (List.map (fun fp : Option Nat × ℝ => fp.2) (processFuture textEval p p (some 0) ⟨0, [0], []⟩)).sum = 1
          from h1, one_mul]
        positivity) (fun c hc hadm => by
        have hlt : c < 2 := by
          have := (List.getElem?_eq_some_iff.1 hadm).1
          rwa [choiceSetAt_length, b2] at this
        obtain rfl : c = 1 := by omega
        unfold continuationOf experienceValue
        rw [if_neg (by rw [hper]; decide), if_neg (by decide), if_neg (by rw [hper]; decide)]
        simp) hn (f 0) (g j 0) (hf 0) (hg j 0)
  refine hlim (fun _ => 0) (fun j => ?_) Q X hX hXi hlaw
  have : (fun N => countKind (fun _ : Fin N => (0 : Fin 1)) 0) = fun N => N := funext fun N => by simp [countKind]
  rw [this]
  exact tendsto_id

end

end Respy
